import Verif.Props.ZhaoBurge

/-!
# C132: noise in the fit of the distortion

What errors of the measured positions do to the coefficients found by `fitZhaoBurge` (zhaoburge.py lines 310-336).
-/

namespace Verif.Props.FitNoise2
open Verif.Py Verif.Model.ZhaoBurge Verif.Lemmas.LinAlg Verif.Props Verif.Lemmas.ZhaoBurge

/-! ### Specification -/

/-- `d` is the distortion with coefficients `c` at the first position of `q`. -/
def Dist (ids : List Nat) (c : Fin ids.length → ℝ) (q : FitPt) (d : ℝ × ℝ) : Prop := getZhaoBurgeXY ids (List.ofFn c) q.x q.y = .ok d

/-- Sum over the data of the squares of the differences of two fields. -/
def apart (D E : FitPt → ℝ × ℝ) (l : List FitPt) : ℝ := (l.map fun q => ((D q).1 - (E q).1) ^ 2 + ((D q).2 - (E q).2) ^ 2).sum

/-- The displacement measured. -/
def shift (q : FitPt) : ℝ × ℝ := (q.xp - q.x, q.yp - q.y)

/-! ### Least squares -/

/-- Pythagoras for the solution of the normal equations. -/
theorem pythagoras {α : Type*} {n : ℕ} {h : Fin n → α → ℝ} {l : List α} (hd : (gram h l).det ≠ 0) (t : α → ℝ) (c : Fin n → ℝ) :
    (l.map fun q => (t q - pred h c q) ^ 2).sum =
      (l.map fun q => (t q - pred h ((gram h l)⁻¹.mulVec (moments h t l)) q) ^ 2).sum +
      (l.map fun q => (pred h ((gram h l)⁻¹.mulVec (moments h t l)) q - pred h c q) ^ 2).sum := by
  set a := (gram h l)⁻¹.mulVec (moments h t l) with ha
  have hn := normal_eq hd t
  rw [← ha] at hn
  have hcross : (l.map fun q => (t q - pred h a q) * pred h (a - c) q).sum = 0 := by
    have h1 := dot_moments h t l (a - c)
    have h2 := dot_moments h (pred h a) l (a - c)
    rw [hn, h1] at h2
    have e : (fun q => (t q - pred h a q) * pred h (a - c) q) =
        fun q => t q * pred h (a - c) q + (-1) * (pred h a q * pred h (a - c) q) := by funext q; ring
    rw [e, sum_map_add', sum_map_mul_left', h2]; ring
  have e : (fun q => (t q - pred h c q) ^ 2) = fun q => (t q - pred h a q) ^ 2 +
      (2 * ((t q - pred h a q) * pred h (a - c) q) + (pred h a q - pred h c q) ^ 2) := by
    funext q; rw [pred_sub]; ring
  rw [e, sum_map_add', sum_map_add', sum_map_mul_left', hcross]
  ring

theorem fit_solution {ids : List Nat} (h : ∀ i ∈ ids, i < 33) {l : List FitPt} {c : Fin ids.length → ℝ} (hf : fitZhaoBurge ids l = .ok c) :
    (gram (fitDesign ids) (fitRows l)).det ≠ 0 ∧
      c = (gram (fitDesign ids) (fitRows l))⁻¹.mulVec (moments (fitDesign ids) fitTarget (fitRows l)) := by
  unfold fitZhaoBurge linSolve at hf
  rw [any_known h] at hf
  simp only [Bool.false_eq_true, if_false] at hf
  split_ifs at hf with hd
  injection hf with hf
  exact ⟨hd, hf.symm⟩

theorem dist_pred {ids : List Nat} (h : ∀ i ∈ ids, i < 33) {c : Fin ids.length → ℝ} {D : FitPt → ℝ × ℝ} {q : FitPt} (hD : Dist ids c q (D q)) :
    D q = (pred (fitDesign ids) c (q, false), pred (fitDesign ids) c (q, true)) := by
  unfold Dist at hD
  rw [xy_pred ids h] at hD
  injection hD with hD
  exact hD.symm

theorem apart_shift {ids : List Nat} (h : ∀ i ∈ ids, i < 33) {c : Fin ids.length → ℝ} {D : FitPt → ℝ × ℝ} {l : List FitPt}
    (hD : ∀ q ∈ l, Dist ids c q (D q)) :
    apart shift D l = ((fitRows l).map fun q => (fitTarget q - pred (fitDesign ids) c q) ^ 2).sum := by
  unfold apart
  rw [rows_sum]
  congr 1
  refine List.map_congr_left fun q hq => ?_
  rw [dist_pred h (hD q hq)]
  simp [shift, fitTarget]

theorem apart_fields {ids : List Nat} (h : ∀ i ∈ ids, i < 33) {c c' : Fin ids.length → ℝ} {D E : FitPt → ℝ × ℝ} {l : List FitPt}
    (hD : ∀ q ∈ l, Dist ids c q (D q)) (hE : ∀ q ∈ l, Dist ids c' q (E q)) :
    apart D E l = ((fitRows l).map fun q => (pred (fitDesign ids) c q - pred (fitDesign ids) c' q) ^ 2).sum := by
  unfold apart
  rw [rows_sum]
  congr 1
  refine List.map_congr_left fun q hq => ?_
  rw [dist_pred h (hD q hq), dist_pred h (hE q hq)]

theorem apart_nonneg (D E : FitPt → ℝ × ℝ) (l : List FitPt) : 0 ≤ apart D E l := by
  apply List.sum_nonneg
  intro x hx
  obtain ⟨q, -, rfl⟩ := List.mem_map.1 hx
  positivity

/-! ### The fit -/

/-- **C132** The squares of the errors are shared: for every distortion `E` with these functions, the sum of squares of the errors of the data is
that of the residuals of the fit plus that of the error of the fitted distortion at the data. -/
theorem C132_shared (ids : List Nat) (h : ∀ i ∈ ids, i < 33) (l : List FitPt) (c c' : Fin ids.length → ℝ) (hf : fitZhaoBurge ids l = .ok c)
    (D E : FitPt → ℝ × ℝ) (hD : ∀ q ∈ l, Dist ids c q (D q)) (hE : ∀ q ∈ l, Dist ids c' q (E q)) :
    apart shift E l = apart shift D l + apart D E l := by
  obtain ⟨hd, hc⟩ := fit_solution h hf
  rw [apart_shift h hE, apart_shift h hD, apart_fields h hD hE, pythagoras hd fitTarget c', ← hc]

/-- **C132** Errors of at most `ε`: the root mean square of the residuals and that of the error of the fitted distortion at the data are at
most `ε`. -/
theorem C132_noise (ids : List Nat) (h : ∀ i ∈ ids, i < 33) (l : List FitPt) (c c' : Fin ids.length → ℝ) (hf : fitZhaoBurge ids l = .ok c)
    (D E : FitPt → ℝ × ℝ) (hD : ∀ q ∈ l, Dist ids c q (D q)) (hE : ∀ q ∈ l, Dist ids c' q (E q)) (ε : ℝ)
    (hε : ∀ q ∈ l, ((shift q).1 - (E q).1) ^ 2 + ((shift q).2 - (E q).2) ^ 2 ≤ ε ^ 2) :
    apart shift D l ≤ l.length * ε ^ 2 ∧ apart D E l ≤ l.length * ε ^ 2 := by
  have h1 := C132_shared ids h l c c' hf D E hD hE
  have h2 : apart shift E l ≤ l.length * ε ^ 2 := by
    unfold apart
    have := List.sum_le_card_nsmul (l.map fun q => ((shift q).1 - (E q).1) ^ 2 + ((shift q).2 - (E q).2) ^ 2) (ε ^ 2) (by
      intro x hx
      obtain ⟨q, hq, rfl⟩ := List.mem_map.1 hx
      exact hε q hq)
    simpa using this
  have h3 := apart_nonneg shift D l
  have h4 := apart_nonneg D E l
  constructor <;> linarith

/-- **C132** No other coefficients fit as well. -/
theorem C132_unique (ids : List Nat) (h : ∀ i ∈ ids, i < 33) (l : List FitPt) (c c' : Fin ids.length → ℝ) (hf : fitZhaoBurge ids l = .ok c)
    (D E : FitPt → ℝ × ℝ) (hD : ∀ q ∈ l, Dist ids c q (D q)) (hE : ∀ q ∈ l, Dist ids c' q (E q))
    (hle : apart shift E l ≤ apart shift D l) : c' = c := by
  have h1 := C132_shared ids h l c c' hf D E hD hE
  have h0 : apart D E l = 0 := le_antisymm (by linarith) (apart_nonneg _ _ _)
  rw [apart_fields h hD hE] at h0
  obtain ⟨hd, -⟩ := fit_solution h hf
  by_contra hne
  apply hd
  rw [gram_singular_iff]
  refine ⟨c - c', fun e => hne (sub_eq_zero.1 e).symm, fun q hq => ?_⟩
  rw [pred_sub]
  have h2 : (pred (fitDesign ids) c q - pred (fitDesign ids) c' q) ^ 2 ≤ 0 := by
    rw [← h0]
    refine List.single_le_sum ?_ _ (List.mem_map.2 ⟨q, hq, rfl⟩)
    intro x hx
    obtain ⟨q, -, rfl⟩ := List.mem_map.1 hx
    positivity
  exact pow_eq_zero_iff (two_ne_zero) |>.1 (le_antisymm h2 (sq_nonneg _))

/-- The same first positions, other second positions. -/
def withShift (l : List FitPt) (s : FitPt → ℝ × ℝ) : List FitPt := l.map fun q => ⟨q.x, q.y, q.x + (s q).1, q.y + (s q).2⟩

theorem rows_with (l : List FitPt) (s : FitPt → ℝ × ℝ) (f : FitPt × Bool → ℝ) :
    ((fitRows (withShift l s)).map f).sum = ((fitRows l).map fun q => f (⟨q.1.x, q.1.y, q.1.x + (s q.1).1, q.1.y + (s q.1).2⟩, q.2)).sum := by
  rw [rows_sum, rows_sum]
  unfold withShift
  rw [List.map_map]
  rfl

theorem gram_with (ids : List Nat) (l : List FitPt) (s : FitPt → ℝ × ℝ) :
    gram (fitDesign ids) (fitRows (withShift l s)) = gram (fitDesign ids) (fitRows l) := by
  unfold gram
  congr 1
  funext i j
  rw [rows_with]
  rfl

theorem moments_with (ids : List Nat) (l : List FitPt) (s : FitPt → ℝ × ℝ) :
    moments (fitDesign ids) fitTarget (fitRows (withShift l s)) =
      moments (fitDesign ids) (fun q => if q.2 then (s q.1).2 else (s q.1).1) (fitRows l) := by
  unfold moments
  funext i
  rw [rows_with]
  congr 1
  refine List.map_congr_left fun q _ => ?_
  obtain ⟨q, k⟩ := q
  cases k <;> simp [fitTarget] <;> exact Or.inl rfl

theorem moments_lin {α : Type*} {n : ℕ} (h : Fin n → α → ℝ) (l : List α) (t u : α → ℝ) (a b : ℝ) :
    moments h (fun q => a * t q + b * u q) l = a • moments h t l + b • moments h u l := by
  unfold moments
  funext i
  simp only [Pi.add_apply, Pi.smul_apply, smul_eq_mul]
  rw [← sum_map_mul_left', ← sum_map_mul_left', ← sum_map_add']
  congr 1
  refine List.map_congr_left fun q _ => ?_
  ring

/-- **C132** Superposition: the coefficients depend linearly on the displacements. In particular the error of the coefficients is what the fit
makes of the errors alone, whatever the true distortion is; and whether the fit succeeds depends on the first positions only. -/
theorem C132_superposition (ids : List Nat) (h : ∀ i ∈ ids, i < 33) (l : List FitPt) (s t : FitPt → ℝ × ℝ) (a b : ℝ) :
    (∀ c d, fitZhaoBurge ids (withShift l s) = .ok c → fitZhaoBurge ids (withShift l t) = .ok d →
      fitZhaoBurge ids (withShift l fun q => (a * (s q).1 + b * (t q).1, a * (s q).2 + b * (t q).2)) = .ok (fun i => a * c i + b * d i)) ∧
    ((∃ c, fitZhaoBurge ids (withShift l s) = .ok c) ↔ ∃ c, fitZhaoBurge ids (withShift l t) = .ok c) := by
  have hw : ∀ s, fitZhaoBurge ids (withShift l s) = if (gram (fitDesign ids) (fitRows l)).det = 0 then .error .linAlgError else
      .ok ((gram (fitDesign ids) (fitRows l))⁻¹.mulVec (moments (fitDesign ids) (fun q => if q.2 then (s q.1).2 else (s q.1).1) (fitRows l))) := by
    intro s
    unfold fitZhaoBurge linSolve
    rw [any_known h]
    simp only [Bool.false_eq_true, if_false]
    rw [gram_with, moments_with]
  constructor
  · intro c d hc hd
    rw [hw] at hc hd ⊢
    split_ifs at hc hd ⊢
    injection hc with hc
    injection hd with hd
    congr 1
    rw [show (fun q : FitPt × Bool => if q.2 = true then a * (s q.1).2 + b * (t q.1).2 else a * (s q.1).1 + b * (t q.1).1) =
      fun q => a * (if q.2 = true then (s q.1).2 else (s q.1).1) + b * (if q.2 = true then (t q.1).2 else (t q.1).1) by
        funext q; cases q.2 <;> simp]
    rw [moments_lin, Matrix.mulVec_add, Matrix.mulVec_smul, Matrix.mulVec_smul, hc, hd]
    rfl
  · rw [hw, hw]
    split_ifs <;> simp

/-- The two translations and one displacement for each of two points: what the fit gives is the mean. -/
example : ∃ (l : List FitPt) (c : Fin 2 → ℝ), l.length = 2 ∧ fitZhaoBurge [0, 1] l = .ok c ∧ ∃ D : FitPt → ℝ × ℝ, ∀ q ∈ l, Dist [0, 1] c q (D q) := by
  have hok : ∃ c, fitZhaoBurge [0, 1] [⟨0, 0, 3, 4⟩, ⟨1, 0, 5, 4⟩] = .ok c := by
    rw [C62_solvable _ (by decide)]
    rintro ⟨c, hc, h⟩
    have := h ⟨0, 0, 3, 4⟩ (by simp)
    rw [C25_sum [0, 1] _ 0 0 (fun i => if i = 0 then (1, 0) else (0, 1)) ?_] at this
    · simp [List.ofFn_succ] at this
      exact hc (by funext i; fin_cases i <;> simp [this.1, this.2])
    · intro i hi
      simp only [List.mem_cons, List.not_mem_nil, or_false] at hi
      rcases hi with rfl | rfl
      · exact ⟨.S, by simp [getZhaoBurgeTerm, getZ_1, ev, Zp]⟩
      · exact ⟨.S, by simp [getZhaoBurgeTerm, getZ_1, ev, Zp]⟩
  obtain ⟨c, hc⟩ := hok
  exact ⟨_, c, rfl, hc, fun q => (pred (fitDesign [0, 1]) c (q, false), pred (fitDesign [0, 1]) c (q, true)),
    fun q _ => xy_pred [0, 1] (by decide) c q⟩

end Verif.Props.FitNoise2
