import Verif.Model.CircleStart
import Verif.Model.Fitter
import Verif.Props.Circles
import Verif.Props.CirclesOutcome
import Verif.Props.FitLoop
import Verif.Props.RayRun
import Mathlib.Analysis.Calculus.FDeriv.Prod
import Mathlib.Analysis.Calculus.FDeriv.Add
import Mathlib.Analysis.Calculus.Deriv.Pow
import Mathlib.Analysis.SpecialFunctions.Sqrt
import Mathlib.Analysis.Calculus.LocalExtr.Basic

/-!
# C104: start values of the circle and of the parameter fits
-/

namespace Verif.Props.CircleStart
open Verif.Py Verif.Model.Circles Verif.Model.CircleStart
open Verif.Model.MatchPositioners (median)
open Verif.Props.Circ (On D Descends scatter)

/-! ## The function and its Jacobian -/

/-- The linear map with coefficients `a`, `b`. -/
noncomputable def lin (a b : ℝ) : ℝ × ℝ →L[ℝ] ℝ := a • ContinuousLinearMap.fst ℝ ℝ ℝ + b • ContinuousLinearMap.snd ℝ ℝ ℝ

theorem lin_apply (a b : ℝ) (v : ℝ × ℝ) : lin a b v = a * v.1 + b * v.2 := by
  simp [lin]

theorem hyp_pos {p c : ℝ × ℝ} (h : p ≠ c) : 0 < (p.1 - c.1) ^ 2 + (p.2 - c.2) ^ 2 := by
  rcases eq_or_ne p.1 c.1 with h1 | h1
  · have h2 : p.2 ≠ c.2 := fun h2 => h (Prod.ext h1 h2)
    have := sq_pos_of_ne_zero (sub_ne_zero.2 h2); positivity
  · have := sq_pos_of_ne_zero (sub_ne_zero.2 h1); positivity

/-- Derivative of a distance by the centre. -/
theorem hasFDeriv_dist {p c : ℝ × ℝ} (h : p ≠ c) :
    HasFDerivAt (fun c : ℝ × ℝ => D p c) (lin ((c.1 - p.1) / D p c) ((c.2 - p.2) / D p c)) c := by
  have hp := hyp_pos h
  have h1 : HasFDerivAt (fun c : ℝ × ℝ => p.1 - c.1) (-(ContinuousLinearMap.fst ℝ ℝ ℝ)) c :=
    (hasFDerivAt_fst (𝕜 := ℝ) (E := ℝ) (F := ℝ) (p := c)).const_sub p.1
  have h2 : HasFDerivAt (fun c : ℝ × ℝ => p.2 - c.2) (-(ContinuousLinearMap.snd ℝ ℝ ℝ)) c :=
    (hasFDerivAt_snd (𝕜 := ℝ) (E := ℝ) (F := ℝ) (p := c)).const_sub p.2
  have h3 := ((h1.pow 2).add (h2.pow 2)).sqrt hp.ne'
  refine h3.congr_fderiv ?_
  have hD : Real.sqrt ((p.1 - c.1) ^ 2 + (p.2 - c.2) ^ 2) = D p c := rfl
  have hD0 : D p c ≠ 0 := (Real.sqrt_pos.2 hp).ne'
  ext
  · simp [lin]
    rw [hD]; field_simp; ring
  · simp [lin]
    rw [hD]; field_simp; ring

theorem hasFDeriv_sum (l : List (ℝ × ℝ)) (c : ℝ × ℝ) (h : ∀ p ∈ l, p ≠ c) :
    HasFDerivAt (fun c : ℝ × ℝ => (l.map fun p => D p c).sum)
      (lin (l.map fun p => (c.1 - p.1) / D p c).sum (l.map fun p => (c.2 - p.2) / D p c).sum) c := by
  induction l with
  | nil =>
    simp only [List.map_nil, List.sum_nil]
    refine (hasFDerivAt_const (0 : ℝ) c).congr_fderiv ?_
    ext <;> simp [lin]
  | cons p l ih =>
    simp only [List.map_cons, List.sum_cons]
    refine ((hasFDeriv_dist (h p (by simp))).add (ih fun q hq => h q (by simp [hq]))).congr_fderiv ?_
    ext <;> simp [lin]

/-- Entry `i` of `f2b`: the distance of point `i` minus the mean distance. -/
theorem f2b_get (pts : List (ℝ × ℝ)) (c : ℝ × ℝ) (i : ℕ) (hi : i < pts.length) :
    (f2b pts c)[i]? = some (D pts[i] c - (pts.map fun p => D p c).sum / pts.length) := by
  simp [f2b, radii, meanL, hi, Circ.hypot_D]

theorem df2b_get (coord : ℝ × ℝ → ℝ) (pts : List (ℝ × ℝ)) (c : ℝ × ℝ) (i : ℕ) (hi : i < pts.length) :
    (df2b coord pts c)[i]? = some ((coord c - coord pts[i]) / D pts[i] c -
      (pts.map fun p => (coord c - coord p) / D p c).sum / pts.length) := by
  simp [df2b, dR, meanL, hi, Circ.hypot_D]

/-- **C104** `Df_2b` is the Jacobian of `f_2b`: where no point is at the centre, entry `i` of `f_2b` is differentiable, with the
entries `i` of the two rows as derivatives by the coordinates of the centre. -/
theorem C104_jacobian (pts : List (ℝ × ℝ)) (c : ℝ × ℝ) (h : ∀ p ∈ pts, p ≠ c) (i : ℕ) (hi : i < pts.length) :
    ∃ (f : ℝ × ℝ → ℝ) (a b : ℝ), (∀ c', (f2b pts c')[i]? = some (f c')) ∧
      (df2b Prod.fst pts c)[i]? = some a ∧ (df2b Prod.snd pts c)[i]? = some b ∧
      HasFDerivAt f (lin a b) c := by
  refine ⟨_, _, _, fun c' => f2b_get pts c' i hi, df2b_get _ pts c i hi, df2b_get _ pts c i hi, ?_⟩
  have h1 := (hasFDeriv_dist (h _ (List.getElem_mem hi))).sub ((hasFDeriv_sum pts c h).mul_const ((pts.length : ℝ)⁻¹))
  simp only [← div_eq_mul_inv] at h1
  refine h1.congr_fderiv ?_
  ext <;> simp [lin] <;> ring

/-- **C104** The residuals add up to zero, and their squares to the scatter of the distances; they are all zero exactly if all points
are at one distance from the centre. -/
theorem C104_residuals (pts : List (ℝ × ℝ)) (c : ℝ × ℝ) :
    (f2b pts c).length = pts.length ∧ (pts ≠ [] → (f2b pts c).sum = 0) ∧
    ((f2b pts c).map fun v => v ^ 2).sum = scatter pts c ∧
    ((∀ v ∈ f2b pts c, v = 0) ↔ ∃ r, 0 ≤ r ∧ ∀ p ∈ pts, On c r p) := by
  have hr : radii pts c = pts.map fun p => D p c := rfl
  refine ⟨by simp [f2b, radii], ?_, ?_, ?_⟩
  · intro h
    unfold f2b
    have hl : ((radii pts c).length : ℝ) ≠ 0 := by simpa [radii] using h
    have : ∀ (l : List ℝ) (m : ℝ), (l.map fun v => v - m).sum = l.sum - l.length * m := by
      intro l m
      induction l with
      | nil => simp
      | cons a l ih => simp only [List.map_cons, List.sum_cons, ih, List.length_cons]; push_cast; ring
    dsimp only
    rw [this, meanL]
    field_simp
    ring
  · unfold f2b scatter
    rw [hr]
    simp [meanL, Function.comp_def]
  · constructor
    · intro h
      by_cases h0 : pts = []
      · exact ⟨0, le_rfl, by simp [h0]⟩
      have hm : ∀ p ∈ pts, D p c = meanL (radii pts c) := by
        intro p hp
        have := h (D p c - meanL (radii pts c)) (by
          unfold f2b
          exact List.mem_map.2 ⟨D p c, List.mem_map.2 ⟨p, hp, rfl⟩, rfl⟩)
        linarith
      have hm0 : 0 ≤ meanL (radii pts c) := by
        obtain ⟨p, hp⟩ := List.exists_mem_of_ne_nil _ h0
        rw [← hm p hp]; exact Real.sqrt_nonneg _
      exact ⟨_, hm0, fun p hp => (Circ.D_on hm0).1 (hm p hp)⟩
    · rintro ⟨r, hr0, h⟩ v hv
      unfold f2b at hv
      obtain ⟨u, hu, rfl⟩ := List.mem_map.1 hv
      have hall : ∀ x ∈ radii pts c, x = r := by
        intro x hx
        rw [hr] at hx
        obtain ⟨p, hp, rfl⟩ := List.mem_map.1 hx
        exact (Circ.D_on hr0).2 (h p hp)
      rw [Circ.mean_const _ r (by intro e; rw [e] at hu; simp at hu) hall, hall u hu, sub_self]

/-- Sum of products of two lists. -/
def dotL (a b : List ℝ) : ℝ := (List.zipWith (· * ·) a b).sum

theorem hasFDeriv_scatter (pts l : List (ℝ × ℝ)) (c : ℝ × ℝ) (h : ∀ p ∈ pts, p ≠ c) (hl : ∀ p ∈ l, p ≠ c) :
    HasFDerivAt (fun c : ℝ × ℝ => (l.map fun p => (D p c - (pts.map fun q => D q c).sum / pts.length) ^ 2).sum)
      (lin (l.map fun p => 2 * ((D p c - (pts.map fun q => D q c).sum / pts.length) * ((c.1 - p.1) / D p c -
          (pts.map fun p => (c.1 - p.1) / D p c).sum / pts.length))).sum
        (l.map fun p => 2 * ((D p c - (pts.map fun q => D q c).sum / pts.length) * ((c.2 - p.2) / D p c -
          (pts.map fun p => (c.2 - p.2) / D p c).sum / pts.length))).sum) c := by
  induction l with
  | nil =>
    simp only [List.map_nil, List.sum_nil]
    refine (hasFDerivAt_const (0 : ℝ) c).congr_fderiv ?_
    ext <;> simp [lin]
  | cons p l ih =>
    simp only [List.map_cons, List.sum_cons]
    have h1 := (hasFDeriv_dist (hl p (by simp))).sub ((hasFDeriv_sum pts c h).mul_const ((pts.length : ℝ)⁻¹))
    simp only [← div_eq_mul_inv] at h1
    refine ((h1.pow 2).add (ih fun q hq => hl q (by simp [hq]))).congr_fderiv ?_
    ext <;> simp [lin] <;> ring

theorem dot_eq (l : List (ℝ × ℝ)) (g k : ℝ × ℝ → ℝ) (m n : ℝ) :
    (l.map fun p => 2 * ((g p - m) * (k p - n))).sum =
      2 * dotL ((l.map g).map fun v => v - m) ((l.map k).map fun v => v - n) := by
  induction l with
  | nil => simp [dotL]
  | cons p l ih =>
    simp only [List.map_cons, List.sum_cons, ih, dotL, List.zipWith_cons_cons]
    ring

/-- **C104** The gradient of the sum of squares that is minimised is twice the product of the Jacobian and the residuals; so at every
centre where the scatter is minimal, if no point is there, this product is zero. -/
theorem C104_gradient (pts : List (ℝ × ℝ)) (c : ℝ × ℝ) (h : ∀ p ∈ pts, p ≠ c) :
    HasFDerivAt (scatter pts) (lin (2 * dotL (f2b pts c) (df2b Prod.fst pts c)) (2 * dotL (f2b pts c) (df2b Prod.snd pts c))) c ∧
    ((∀ c', scatter pts c ≤ scatter pts c') →
      dotL (f2b pts c) (df2b Prod.fst pts c) = 0 ∧ dotL (f2b pts c) (df2b Prod.snd pts c) = 0) := by
  have hd : HasFDerivAt (scatter pts) (lin (2 * dotL (f2b pts c) (df2b Prod.fst pts c)) (2 * dotL (f2b pts c) (df2b Prod.snd pts c))) c := by
    refine (hasFDeriv_scatter pts pts c h h).congr_fderiv ?_
    congr 1
    · rw [dot_eq pts (fun p => D p c) (fun p => (c.1 - p.1) / D p c)]
      simp [f2b, df2b, dR, radii, meanL, Circ.hypot_D]
    · rw [dot_eq pts (fun p => D p c) (fun p => (c.2 - p.2) / D p c)]
      simp [f2b, df2b, dR, radii, meanL, Circ.hypot_D]
  refine ⟨hd, fun hmin => ?_⟩
  have hz := IsLocalMin.hasFDerivAt_eq_zero (f := scatter pts) (a := c) (Filter.Eventually.of_forall hmin) hd
  have e1 := congrArg (fun f : ℝ × ℝ →L[ℝ] ℝ => f (1, 0)) hz
  have e2 := congrArg (fun f : ℝ × ℝ →L[ℝ] ℝ => f (0, 1)) hz
  simp only [lin_apply, zero_apply] at e1 e2
  constructor <;> linarith

/-- Two points and a centre at none of them. -/
example : ∃ (pts : List (ℝ × ℝ)) (c : ℝ × ℝ), 2 ≤ pts.length ∧ ∀ p ∈ pts, p ≠ c :=
  ⟨[(1, 0), (0, 1)], (0, 0), by simp, by simp⟩

/-! ## The robust fit always ends with a circle -/

theorem fast_ok (b : Bool) (pts : List (ℝ × ℝ)) (h : pts ≠ []) : ∃ f, fastFit b pts = .ok f := by
  unfold fastFit
  rw [if_neg (by simpa using h)]
  exact ⟨_, rfl⟩

theorem select_ne (pts : List (ℝ × ℝ)) (ok : List Bool) (hl : ok.length = pts.length) (h : 3 ≤ ok.count true) : select pts ok ≠ [] := by
  intro h0
  have : (select pts ok).length = ok.count true := by
    clear h h0
    unfold select
    induction pts generalizing ok with
    | nil => simp at hl; subst hl; rfl
    | cons p pts ih =>
      cases ok with
      | nil => simp at hl
      | cons b ok =>
        have := ih ok (by simpa using hl)
        simp only [List.length_map] at this ⊢
        cases b <;> simp [this]
  rw [h0] at this
  simp at this
  omega

theorem loop_ok (pts : List (ℝ × ℝ)) (nsig minerr : ℝ) (k : ℕ) (last : (ℝ × ℝ) × ℝ) (ok : List Bool) (hl : ok.length = pts.length)
    (h3 : 3 ≤ ok.count true) : ∃ o, robustLoop pts nsig minerr k last ok = .ok o := by
  induction k generalizing last ok with
  | zero => exact ⟨_, rfl⟩
  | succ k ih =>
    obtain ⟨f, hf⟩ := fast_ok true _ (select_ne pts ok hl h3)
    unfold robustLoop
    rw [hf]
    simp only [bind, Except.bind]
    split_ifs with h1 h2
    · exact ⟨_, rfl⟩
    · exact ⟨_, rfl⟩
    · rw [CirclesOutcome.filter_id_length] at h2
      exact ih _ _ (by simpa using hl) (by omega)

theorem fit_error (opt : List (ℝ × ℝ) → ℝ × ℝ → ℝ × ℝ) (pts : List (ℝ × ℝ)) (h : pts ≠ []) (e : PyErr)
    (he : fitCircle opt pts = .error e) : e = .valueError := by
  obtain ⟨f, hf⟩ := fast_ok false pts h
  unfold fitCircle at he
  rw [hf] at he
  simp only [bind, Except.bind] at he
  split_ifs at he <;> exact (Except.error.inj he).symm

theorem robust_ok (opt : List (ℝ × ℝ) → ℝ × ℝ → ℝ × ℝ) (pts : List (ℝ × ℝ)) (nsig minerr : ℝ) (h3 : 3 ≤ pts.length) :
    ∃ g, robustFitCircle opt pts nsig minerr = .ok g := by
  obtain ⟨o, ho⟩ := loop_ok pts nsig minerr 12 ((0, 0), 0) (List.replicate pts.length true) (by simp) (by simpa using h3)
  have hs := CirclesOutcome.loop_spec pts nsig minerr 12 _ _ (Or.inl rfl) (by simp) o ho
  unfold robustFitCircle
  rw [ho]
  simp only [bind, Except.bind]
  rcases hs with ⟨m, rfl, -⟩ | ⟨f, m, rfl, hl, -, hm, -⟩
  · exact ⟨_, rfl⟩
  · have hne : select pts m ≠ [] := by
      apply select_ne _ _ hl
      rcases hm with rfl | hm
      · simpa using h3
      · exact hm
    cases hf : fitCircle opt (select pts m) with
    | ok g => exact ⟨(g, m), by simp only [hf]⟩
    | error e =>
      have := fit_error opt _ hne e hf
      subst this
      exact ⟨(f, m), by simp only [hf]⟩

/-! ## Start values -/

/-- Positions measured with `p_int` equal to `v`. -/
noncomputable def at_ (l : List Meas) (v : ℝ) : List (ℝ × ℝ) := l.filterMap fun m => if m.1 = v then some m.2 else none

theorem ring_eq (l : List Meas) (v : ℝ) : ring l v = at_ l v := by
  unfold ring at_
  induction l with
  | nil => rfl
  | cons m l ih =>
    by_cases h : m.1 = v <;> simp [h, ih]

/-- The values of `p_int` measured three times or more. -/
noncomputable def rings (l : List Meas) : Finset ℝ := (l.map Prod.fst).toFinset.filter fun v => 3 ≤ (at_ l v).length

theorem mem_rings (l : List Meas) (v : ℝ) : v ∈ rings l ↔ 3 ≤ (at_ l v).length := by
  unfold rings
  rw [Finset.mem_filter, List.mem_toFinset]
  constructor
  · exact fun h => h.2
  · intro h
    refine ⟨?_, h⟩
    obtain ⟨q, hq⟩ := List.exists_mem_of_length_pos (l := at_ l v) (by omega)
    obtain ⟨m, hm, e⟩ := List.mem_filterMap.1 hq
    split_ifs at e with h1
    exact List.mem_map.2 ⟨m, hm, h1⟩

/-- The centre found for the positions of one value. -/
noncomputable def centreOf (opt : List (ℝ × ℝ) → ℝ × ℝ → ℝ × ℝ) (pts : List (ℝ × ℝ)) : ℝ × ℝ :=
  match robustFitCircle opt pts 4 0.1 with
  | .ok g => g.1.1
  | .error _ => (0, 0)

theorem ringCentre_eq (opt : List (ℝ × ℝ) → ℝ × ℝ → ℝ × ℝ) (pts : List (ℝ × ℝ)) :
    ringCentre opt pts = .ok (if 3 ≤ pts.length then some (centreOf opt pts) else none) := by
  unfold ringCentre centreOf
  by_cases h : pts.length < 3
  · rw [if_pos h, if_neg (by omega)]
  · obtain ⟨g, hg⟩ := robust_ok opt pts 4 0.1 (by omega)
    rw [if_neg h, if_pos (by omega), hg]

theorem start_eq (opt : List (ℝ × ℝ) → ℝ × ℝ → ℝ × ℝ) (l : List Meas) :
    ∃ vs : List ℝ, vs.Nodup ∧ vs.toFinset = rings l ∧
      startCentre opt l = .ok (medians (vs.map fun v => centreOf opt (at_ l v))) := by
  have hp := Lemmas.perm_pySort (id : ℝ → ℝ) (l.map Prod.fst).dedup
  refine ⟨(uniqueP l).filter fun v => 3 ≤ (at_ l v).length, ?_, ?_, ?_⟩
  · exact (hp.nodup_iff.2 (List.nodup_dedup _)).filter _
  · ext v
    unfold rings uniqueP
    simp only [List.mem_toFinset, List.mem_filter, Finset.mem_filter, decide_eq_true_eq, hp.mem_iff, List.mem_dedup]
  · unfold startCentre
    have h1 : ∀ us : List ℝ, (us.mapM fun v => ringCentre opt (ring l v)) =
        .ok (us.map fun v => if 3 ≤ (at_ l v).length then some (centreOf opt (at_ l v)) else none) := by
      intro us
      induction us with
      | nil => rfl
      | cons u us ih =>
        rw [List.mapM_cons, ih, ringCentre_eq, ring_eq]
        rfl
    rw [h1]
    simp only [bind, Except.bind, pure, Except.pure]
    congr 2
    induction uniqueP l with
    | nil => rfl
    | cons u us ih =>
      rw [List.filterMap_map] at ih ⊢
      by_cases h : 3 ≤ (at_ l u).length
      · rw [List.filterMap_cons_some (b := centreOf opt (at_ l u)) (by simp [h]), ih, List.filter_cons_of_pos (by simpa using h), List.map_cons]
      · rw [List.filterMap_cons_none (by simp [h]), ih, List.filter_cons_of_neg (by simpa using h)]

/-- **C104** The start values are always found: there are some exactly if a value of `p_int` was measured three times or more, and none
of the circle fits raises an error. -/
theorem C104_start_total (opt : List (ℝ × ℝ) → ℝ × ℝ → ℝ × ℝ) (l : List Meas) :
    ∃ o, startCentre opt l = .ok o ∧ (o.isSome ↔ ∃ v, 3 ≤ (at_ l v).length) := by
  obtain ⟨vs, -, h2, h3⟩ := start_eq opt l
  refine ⟨_, h3, ?_⟩
  unfold medians
  constructor
  · intro h
    split_ifs at h with h0
    · obtain ⟨v, hv⟩ := List.exists_mem_of_length_pos (l := vs) (by simpa using h0)
      exact ⟨v, (mem_rings l v).1 (by rw [← h2]; simpa using hv)⟩
    · cases h
  · rintro ⟨v, hv⟩
    have : v ∈ vs := by have := (mem_rings l v).2 hv; rw [← h2] at this; simpa using this
    rw [if_pos (by simpa using List.length_pos_of_mem this)]
    rfl

/-- Positions which determine their circle: four or more different ones on it, or seven or more different ones of which one is off by
0.1 or more. -/
def Good (c : ℝ × ℝ) (pts : List (ℝ × ℝ)) : Prop :=
  ∃ r, 0 ≤ r ∧ pts.Nodup ∧ ((4 ≤ pts.length ∧ ∀ p ∈ pts, On c r p) ∨
    (7 ≤ pts.length ∧ ∃ w, ∃ hw : w < pts.length, 0.1 ≤ |D pts[w] c - r| ∧ ∀ j (hj : j < pts.length), j ≠ w → On c r pts[j]))

theorem centre_good (opt : List (ℝ × ℝ) → ℝ × ℝ → ℝ × ℝ) (hopt : Descends opt) (c : ℝ × ℝ) (pts : List (ℝ × ℝ)) (h : Good c pts) :
    centreOf opt pts = c := by
  obtain ⟨r, hr, hd, h | ⟨hn, w, hw, hb, hon⟩⟩ := h
  · have h0 : Circ.off c r pts = 0 := by
      classical
      unfold Circ.off
      rw [List.countP_eq_zero]
      intro p hp; simpa using h.2 p hp
    have := Props.C38_robust_clean opt pts c r hr (hd.imp fun h _ _ => h) h.1 (by omega) 4 0.1
      (fun p hp => by rw [(Circ.miss_zero hr).2 (h.2 p hp)]; norm_num)
    unfold centreOf
    rw [this, Circ.fit_exact hopt hr h.1 hd h.2]
    split_ifs <;> rfl
  · have := Props.C38_robust_one_outlier opt hopt pts c r hr hd hn 4 0.1 (by norm_num) w hw hb hon
    unfold centreOf
    rw [this]

/-- **C104** If the positions of more than half of the values of `p_int` measured three times or more determine circles around one
centre, of whatever radii, that centre is the start value exactly. -/
theorem C104_start_majority (opt : List (ℝ × ℝ) → ℝ × ℝ → ℝ × ℝ) (hopt : Descends opt) (l : List Meas) (c : ℝ × ℝ) (G : Finset ℝ)
    (hG : G ⊆ rings l) (hgood : ∀ v ∈ G, Good c (at_ l v)) (hmaj : (rings l).card < 2 * G.card) :
    startCentre opt l = .ok (some c) := by
  classical
  obtain ⟨vs, h1, h2, h3⟩ := start_eq opt l
  rw [h3]
  have hlen : vs.length = (rings l).card := by rw [← h2, List.toFinset_card_of_nodup h1]
  have hcount : ∀ f : ℝ × ℝ → ℝ, G.card ≤ ((vs.map fun v => centreOf opt (at_ l v)).map f).count (f c) := by
    intro f
    have e : (vs.filter (· ∈ G)).length = G.card := by
      rw [← List.toFinset_card_of_nodup (h1.filter _), List.toFinset_filter, h2]
      congr 1
      ext v
      simp only [Finset.mem_filter, decide_eq_true_eq]
      exact ⟨fun h => h.2, fun h => ⟨hG h, h⟩⟩
    rw [← e, ← List.countP_eq_length_filter, List.count, List.map_map, List.countP_map]
    apply List.countP_mono_left
    intro v _ hv
    simp only [decide_eq_true_eq] at hv
    simp [centre_good opt hopt c _ (hgood v hv)]
  have hpos : 0 < vs.length := by
    have : 0 < G.card := by omega
    have := Finset.card_le_card hG
    omega
  unfold medians
  rw [if_pos (by simpa using hpos), Circ.median_majority _ c.1, Circ.median_majority _ c.2]
  · have := hcount Prod.snd; simp only [List.length_map] at *; omega
  · have := hcount Prod.fst; simp only [List.length_map] at *; omega

/-- The circle on which the fibre moves with the angle of the second arm kept. -/
theorem fibre_on (v : Model.FitLoop.Vals) (P : ℝ) : ∃ r, 0 ≤ r ∧ ∀ T, On (v Model.FitLoop.kOX, v Model.FitLoop.kOY) r (FitLoop.fibre v T P) := by
  obtain ⟨q, hq⟩ : ∃ q, q = v Model.FitLoop.kR1 ^ 2 + v Model.FitLoop.kR2 ^ 2 +
    2 * v Model.FitLoop.kR1 * v Model.FitLoop.kR2 * Real.cos (P * Real.pi / 180) := ⟨_, rfl⟩
  have key : ∀ T, (FitLoop.fibre v T P).1 - v Model.FitLoop.kOX = v Model.FitLoop.kR1 * Real.cos (T * Real.pi / 180) +
      v Model.FitLoop.kR2 * (Real.cos (T * Real.pi / 180) * Real.cos (P * Real.pi / 180) - Real.sin (T * Real.pi / 180) * Real.sin (P * Real.pi / 180)) ∧
      (FitLoop.fibre v T P).2 - v Model.FitLoop.kOY = v Model.FitLoop.kR1 * Real.sin (T * Real.pi / 180) +
      v Model.FitLoop.kR2 * (Real.sin (T * Real.pi / 180) * Real.cos (P * Real.pi / 180) + Real.cos (T * Real.pi / 180) * Real.sin (P * Real.pi / 180)) := by
    intro T
    have e : (T + P) * Real.pi / 180 = T * Real.pi / 180 + P * Real.pi / 180 := by ring
    unfold FitLoop.fibre
    rw [e, Real.cos_add, Real.sin_add]
    constructor <;> ring
  have hsum : ∀ T, ((FitLoop.fibre v T P).1 - v Model.FitLoop.kOX) ^ 2 + ((FitLoop.fibre v T P).2 - v Model.FitLoop.kOY) ^ 2 = q := by
    intro T
    obtain ⟨k1, k2⟩ := key T
    rw [k1, k2, hq]
    have a := Real.sin_sq_add_cos_sq (T * Real.pi / 180)
    have b := Real.sin_sq_add_cos_sq (P * Real.pi / 180)
    linear_combination (v Model.FitLoop.kR1 ^ 2 + 2 * v Model.FitLoop.kR1 * v Model.FitLoop.kR2 * Real.cos (P * Real.pi / 180) +
      v Model.FitLoop.kR2 ^ 2 * (Real.cos (P * Real.pi / 180) ^ 2 + Real.sin (P * Real.pi / 180) ^ 2)) * a + v Model.FitLoop.kR2 ^ 2 * b
  have hq0 : 0 ≤ q := by rw [← hsum 0]; positivity
  refine ⟨Real.sqrt q, Real.sqrt_nonneg _, fun T => ?_⟩
  unfold On
  rw [Real.sq_sqrt hq0]
  exact hsum T

/-- **C104** Exact measurements of a positioner whose second arm is at `p_int` plus a constant: if each value of `p_int` is measured at
four different positions or more, or less than three times, the start value is the position of the axis of the first arm,
whatever the angles of the first arm were. -/
theorem C104_start_exact (opt : List (ℝ × ℝ) → ℝ × ℝ → ℝ × ℝ) (hopt : Descends opt) (v : Model.FitLoop.Vals) (off : ℝ) (l : List Meas)
    (hex : ∀ m ∈ l, ∃ T, m.2 = FitLoop.fibre v T (m.1 + off))
    (hring : ∀ u, (at_ l u).length < 3 ∨ (4 ≤ (at_ l u).length ∧ (at_ l u).Nodup)) (h : ∃ u, 3 ≤ (at_ l u).length) :
    startCentre opt l = .ok (some (v Model.FitLoop.kOX, v Model.FitLoop.kOY)) := by
  apply C104_start_majority opt hopt l _ (rings l) subset_rfl
  · intro u hu
    have h3 := (mem_rings l u).1 hu
    obtain ⟨r, hr, hon⟩ := fibre_on v (u + off)
    refine ⟨r, hr, ?_, Or.inl ⟨?_, ?_⟩⟩
    · rcases hring u with h0 | h0
      · omega
      · exact h0.2
    · rcases hring u with h0 | h0
      · omega
      · exact h0.1
    · intro p hp
      obtain ⟨m, hm, e⟩ := List.mem_filterMap.1 hp
      split_ifs at e with h1
      obtain ⟨T, hT⟩ := hex m hm
      rw [← Option.some.inj e, hT, h1]
      exact hon T
  · obtain ⟨u, hu⟩ := h
    have : 0 < (rings l).card := Finset.card_pos.2 ⟨u, (mem_rings l u).2 hu⟩
    omega

/-- **C104** (finding) Positions that do not change count as a circle: a value of `p_int` whose positions are all equal contributes this
position as a centre. -/
theorem C104_start_stuck (opt : List (ℝ × ℝ) → ℝ × ℝ → ℝ × ℝ) (u : ℝ) (q : ℝ × ℝ) (n : ℕ) (hn : 3 ≤ n) :
    startCentre opt (List.replicate n (u, q)) = .ok (some q) := by
  have hat : at_ (List.replicate n (u, q)) u = List.replicate n q := by
    unfold at_
    clear hn
    induction n with
    | zero => rfl
    | succ n ih => rw [List.replicate_succ, List.filterMap_cons, ih]; simp [List.replicate_succ]
  have hmed : ∀ (x : ℝ) (k : ℕ), 0 < k → median (List.replicate k x) = x := by
    intro x k hk
    apply Circ.median_majority
    simp; omega
  have hmean : ∀ (x : ℝ) (k : ℕ), 0 < k → meanL (List.replicate k x) = x := by
    intro x k hk
    exact Circ.mean_const _ _ (by simp; omega) (by simp)
  have hpt : ∀ i, i < n → pt (List.replicate n q) i = q := by
    intro i hi
    simp [pt, hi]
  have hin : ∀ i, i < n → inter (List.replicate n q) i = q := by
    intro i hi
    have hx : nxt n i < n := Nat.mod_lt _ (by omega)
    unfold inter normal mid
    simp [hpt i hi, hpt _ hx]
  have his : (List.range n).map (inter (List.replicate n q)) = List.replicate n q := by
    apply List.ext_getElem (by simp)
    intro i h1 h2
    simp at h1
    simp [hin i h1]
  have hrad : radii (List.replicate n q) q = List.replicate n 0 := by
    unfold radii
    rw [List.map_replicate]
    simp [hypot]
  have hfast : ∀ b, fastFit b (List.replicate n q) = .ok (q, 0) := by
    intro b
    unfold fastFit
    rw [if_neg (by simp; omega)]
    simp only [List.length_replicate, his, List.map_replicate]
    cases b
    · simp only [Bool.false_eq_true, if_false]
      rw [hmean _ _ (by omega), hmean _ _ (by omega), hrad, hmean _ _ (by omega)]
    · simp only [if_true]
      rw [hmed _ _ (by omega), hmed _ _ (by omega), hrad, hmed _ _ (by omega)]
  have hloop : robustLoop (List.replicate n q) 4 0.1 12 ((0, 0), 0) (List.replicate n true) = .ok (.done (q, 0) (List.replicate n true)) := by
    unfold robustLoop
    have := Circ.select_all (List.replicate n q)
    rw [List.length_replicate] at this
    rw [this, hfast]
    simp only [bind, Except.bind, hrad, List.map_replicate]
    rw [if_pos]
    right
    have : ∀ k, (List.replicate n |(0 : ℝ) - 0|).getD k 0 = 0 := by
      intro k
      rw [List.getD_eq_getElem?_getD, List.getElem?_replicate]
      split_ifs <;> simp
    rw [this]; norm_num
  have hc : centreOf opt (List.replicate n q) = q := by
    unfold centreOf robustFitCircle
    rw [List.length_replicate, hloop]
    have := Circ.select_all (List.replicate n q)
    rw [List.length_replicate] at this
    simp only [bind, Except.bind, this]
    have : fitCircle opt (List.replicate n q) = .error .valueError := by
      unfold fitCircle
      rw [hfast]
      simp only [bind, Except.bind]
      rw [if_pos (by left; norm_num)]
    rw [this]
  obtain ⟨vs, h1, h2, h3⟩ := start_eq opt (List.replicate n (u, q))
  have hr : rings (List.replicate n (u, q)) = {u} := by
    ext v
    rw [mem_rings, Finset.mem_singleton]
    constructor
    · intro h
      by_contra hne
      have : at_ (List.replicate n (u, q)) v = [] := by
        unfold at_
        rw [List.filterMap_eq_nil_iff]
        intro m hm
        rw [List.eq_of_mem_replicate hm, if_neg (Ne.symm hne)]
      rw [this] at h; simp at h
    · rintro rfl
      rw [hat]; simpa using hn
  have hvs : vs = [u] := by
    rw [hr] at h2
    have hl : vs.length = 1 := by rw [← List.toFinset_card_of_nodup h1, h2]; simp
    obtain ⟨w, rfl⟩ := List.length_eq_one_iff.1 hl
    have : w ∈ [w].toFinset := by simp
    rw [h2] at this
    rw [Finset.mem_singleton.1 this]
  rw [h3, hvs]
  simp only [List.map_cons, List.map_nil, hat, hc, medians]
  have h1 := hmed q.1 1 (by omega)
  have h2 := hmed q.2 1 (by omega)
  simp only [List.replicate_one] at h1 h2
  simp [h1, h2]

/-- Sorting three numbers given in order. -/
theorem median3 (a b c : ℝ) (h1 : a ≤ b) (h2 : b ≤ c) (l : List ℝ) (hl : l.Perm [a, b, c]) : median l = b := by
  have hs : pySort id l = [a, b, c] := by
    apply List.Perm.eq_of_pairwise (le := fun a b : ℝ => a ≤ b)
    · intro x y _ _ hx hy; exact le_antisymm hx hy
    · exact Lemmas.sorted_pySort (id : ℝ → ℝ) l
    · simp [h1, h2, h1.trans h2]
    · exact (Lemmas.perm_pySort id l).trans hl
  have hlen : l.length = 3 := by simpa using hl.length_eq
  unfold median
  simp [hs, hlen]

/-- **C104** (finding) Three positions on a circle around (100, 0) may give the start value (0, 0): the robust fit gives up without an
error, and the zero it then returns is taken as a centre. -/
theorem C104_start_game_over (opt : List (ℝ × ℝ) → ℝ × ℝ → ℝ × ℝ) (u : ℝ) :
    ∃ l : List Meas, l.length = 3 ∧ (∀ m ∈ l, m.1 = u ∧ On (100, 0) 3 m.2) ∧ (l.map Prod.snd).Nodup ∧
      startCentre opt l = .ok (some (0, 0)) := by
  obtain ⟨l, hl⟩ : ∃ l : List Meas, l = [(u, (103, 0)), (u, (102.88, 0.84)), (u, (97, 0))] := ⟨_, rfl⟩
  obtain ⟨pts, hpts⟩ : ∃ pts : List (ℝ × ℝ), pts = [(103, 0), (102.88, 0.84), (97, 0)] := ⟨_, rfl⟩
  refine ⟨l, by simp [hl], ?_, ?_, ?_⟩
  · intro m hm
    simp only [hl, List.mem_cons, List.not_mem_nil, or_false] at hm
    rcases hm with rfl | rfl | rfl <;> exact ⟨rfl, by unfold On; norm_num⟩
  · simp [hl]; norm_num
  have hfast : fastFit true pts = .ok ((102.88, 0), 0.84) := by
    have hin : ∀ i, i < 3 → inter pts i = pt pts i := by
      intro i hi
      have hx : nxt 3 i = i := by interval_cases i <;> rfl
      have hlen : pts.length = 3 := by simp [hpts]
      unfold inter normal mid
      simp only [hlen, hx]
      ext <;> simp
    unfold fastFit
    rw [if_neg (by simp [hpts])]
    have hlen : pts.length = 3 := by simp [hpts]
    have his : (List.range 3).map (inter pts) = pts := by
      simp only [List.range, List.range.loop, List.map_cons, List.map_nil, hin 0 (by omega), hin 1 (by omega), hin 2 (by omega)]
      simp [pt, hpts]
    simp only [hlen, his, if_true]
    have m1 : median (pts.map Prod.fst) = 102.88 := by
      apply median3 97 _ 103 (by norm_num) (by norm_num)
      simp only [hpts, List.map_cons, List.map_nil]
      exact (List.reverse_perm [(97 : ℝ), 102.88, 103])
    have m2 : median (pts.map Prod.snd) = 0 := by
      apply median3 0 _ 0.84 le_rfl (by norm_num)
      simp only [hpts, List.map_cons, List.map_nil]
      exact List.Perm.cons _ (List.Perm.swap _ _ _)
    rw [m1, m2]
    have hr : radii pts (102.88, 0) = [0.12, 0.84, 5.88] := by
      simp only [radii, hpts, List.map_cons, List.map_nil, hypot]
      congr 1
      · rw [Real.sqrt_eq_iff_mul_self_eq (by norm_num) (by norm_num)]; norm_num
      congr 1
      · rw [Real.sqrt_eq_iff_mul_self_eq (by norm_num) (by norm_num)]; norm_num
      congr 1
      · rw [Real.sqrt_eq_iff_mul_self_eq (by norm_num) (by norm_num)]; norm_num
    rw [hr, median3 0.12 0.84 5.88 (by norm_num) (by norm_num) _ (List.Perm.refl _)]
  have hr : radii pts (102.88, 0) = [0.12, 0.84, 5.88] := by
    simp only [radii, hpts, List.map_cons, List.map_nil, hypot]
    congr 1
    · rw [Real.sqrt_eq_iff_mul_self_eq (by norm_num) (by norm_num)]; norm_num
    congr 1
    · rw [Real.sqrt_eq_iff_mul_self_eq (by norm_num) (by norm_num)]; norm_num
    congr 1
    · rw [Real.sqrt_eq_iff_mul_self_eq (by norm_num) (by norm_num)]; norm_num
  have hres : ((radii pts (102.88, 0)).map fun v => |v - 0.84|) = [0.72, 0, 5.04] := by
    rw [hr]
    simp only [List.map_cons, List.map_nil]
    congr 1
    · rw [abs_of_neg (by norm_num)]; norm_num
    congr 1
    · norm_num
    congr 1
    · rw [abs_of_pos (by norm_num)]; norm_num
  have hw : argmaxReal [(0.72 : ℝ), 0, 5.04] = 2 := by
    obtain ⟨h1, h2, -⟩ := Lemmas.argmaxReal_spec [(0.72 : ℝ), 0, 5.04] (by simp)
    have h3 := h2 5.04 (by simp)
    simp only [List.length_cons, List.length_nil] at h1
    generalize argmaxReal [(0.72 : ℝ), 0, 5.04] = w at *
    interval_cases w
    · norm_num at h3
    · norm_num at h3
    · rfl
  have hloop : robustLoop pts 4 0.1 12 ((0, 0), 0) [true, true, true] = .ok (.gameOver [true, true, false]) := by
    unfold robustLoop
    have hs : select pts [true, true, true] = pts := by simp [select, hpts]
    rw [hs, hfast]
    simp only [bind, Except.bind]
    rw [hres, hw, if_neg, if_pos]
    · rfl
    · decide
    · rw [median3 0 0.72 5.04 (by norm_num) (by norm_num) _ (List.Perm.swap _ _ _)]
      simp only [List.getD_eq_getElem?_getD]
      norm_num
  have hc : centreOf opt pts = (0, 0) := by
    unfold centreOf robustFitCircle
    have : List.replicate pts.length true = [true, true, true] := by simp [hpts]
    rw [this, hloop]
    rfl
  obtain ⟨vs, h1, h2, h3⟩ := start_eq opt l
  have hat : at_ l u = pts := by simp [at_, hl, hpts]
  have hrg : rings l = {u} := by
    ext v
    rw [mem_rings, Finset.mem_singleton]
    constructor
    · intro h
      by_contra hne
      have : at_ l v = [] := by simp [at_, hl, Ne.symm hne]
      rw [this] at h; simp at h
    · rintro rfl
      rw [hat]; simp [hpts]
  have hvs : vs = [u] := by
    rw [hrg] at h2
    have hl : vs.length = 1 := by rw [← List.toFinset_card_of_nodup h1, h2]; simp
    obtain ⟨w, rfl⟩ := List.length_eq_one_iff.1 hl
    have : w ∈ [w].toFinset := by simp
    rw [h2] at this
    rw [Finset.mem_singleton.1 this]
  have hmed : median [(0 : ℝ)] = 0 := Circ.median_majority _ _ (by simp)
  rw [h3, hvs]
  simp [hat, hc, medians, hmed]

/-- **C104** In static mode the start values replace the nominal OFFSET_X and OFFSET_Y, each unless it is kept fixed, and nothing else;
in dynamic mode, or without a circle, nothing changes. -/
theorem C104_start_used {δ : Type} (i : Model.Fitter.Input δ) (fixed : List PyStr) (nom : Dict PyStr ℝ) (k : PyStr) :
    (Model.Fitter.addCircle i fixed nom).get? k =
      if i.mode = .static ∧ k ∉ fixed ∧ k = "OFFSET_X".toList ∧ i.circle.isSome then i.circle.map Prod.fst
      else if i.mode = .static ∧ k ∉ fixed ∧ k = "OFFSET_Y".toList ∧ i.circle.isSome then i.circle.map Prod.snd
      else nom.get? k := by
  have hxy : "OFFSET_X".toList ≠ "OFFSET_Y".toList := by decide
  unfold Model.Fitter.addCircle
  rcases hm : i.mode with _ | _ <;> rcases hc : i.circle with _ | ⟨x, y⟩ <;> simp only [reduceCtorEq, false_and, if_false, true_and,
    Option.isSome_none, Option.isSome_some, Bool.false_eq_true, and_false, Option.map_some, and_true]
  by_cases h1 : "OFFSET_X".toList ∈ fixed <;> by_cases h2 : "OFFSET_Y".toList ∈ fixed <;> by_cases k1 : k = "OFFSET_X".toList <;>
    by_cases k2 : k = "OFFSET_Y".toList <;> have k3 := @eq_comm _ k "OFFSET_X".toList <;> have k4 := @eq_comm _ k "OFFSET_Y".toList <;>
    subst_vars <;> simp_all [Dict.get?_set]

/-- Exact measurements of a ring at four angles of the first arm. -/
example : ∃ (v : Model.FitLoop.Vals) (l : List Meas), (∀ m ∈ l, ∃ T, m.2 = FitLoop.fibre v T (m.1 + 0)) ∧
    (∀ u, (at_ l u).length < 3 ∨ (4 ≤ (at_ l u).length ∧ (at_ l u).Nodup)) ∧ ∃ u, 3 ≤ (at_ l u).length := by
  obtain ⟨v, hv⟩ : ∃ v : Model.FitLoop.Vals, v = fun k => if k = Model.FitLoop.kR1 then 3 else 0 := ⟨_, rfl⟩
  have hf : ∀ T, FitLoop.fibre v T (0 + 0) = (3 * Real.cos (T * Real.pi / 180), 3 * Real.sin (T * Real.pi / 180)) := by
    intro T
    have h1 : v Model.FitLoop.kR1 = 3 := by simp [hv]
    have h2 : v Model.FitLoop.kR2 = 0 := by rw [hv]; exact if_neg (by decide)
    have h3 : v Model.FitLoop.kOX = 0 := by rw [hv]; exact if_neg (by decide)
    have h4 : v Model.FitLoop.kOY = 0 := by rw [hv]; exact if_neg (by decide)
    unfold FitLoop.fibre
    rw [h1, h2, h3, h4]; simp
  refine ⟨v, [(0, (3, 0)), (0, (0, 3)), (0, (-3, 0)), (0, (0, -3))], ?_, ?_, 0, by simp [at_]⟩
  · intro m hm
    simp only [List.mem_cons, List.not_mem_nil, or_false] at hm
    rcases hm with rfl | rfl | rfl | rfl
    · exact ⟨0, by rw [hf]; simp⟩
    · refine ⟨90, ?_⟩
      rw [hf, show (90 : ℝ) * Real.pi / 180 = Real.pi / 2 by ring]; simp
    · refine ⟨180, ?_⟩
      rw [hf, show (180 : ℝ) * Real.pi / 180 = Real.pi by ring]; simp
    · refine ⟨-90, ?_⟩
      rw [hf, show (-90 : ℝ) * Real.pi / 180 = -(Real.pi / 2) by ring]; simp
  · intro u
    by_cases hu : u = 0
    · right
      subst hu
      simp only [at_, List.filterMap_cons, if_true, List.filterMap_nil, List.length_cons, List.length_nil]
      refine ⟨le_rfl, ?_⟩
      simp [Prod.ext_iff]; norm_num
    · left
      simp [at_, Ne.symm hu]

end Verif.Props.CircleStart
