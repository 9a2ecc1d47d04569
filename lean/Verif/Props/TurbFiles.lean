import Verif.Model.TurbFiles
import Verif.Lemmas.Kernel
import Verif.Lemmas.Pos2ptl
import Verif.Props.Match
import Verif.Props.Turbulence
import Mathlib.Analysis.Matrix.LDL
import Mathlib.Analysis.SpecialFunctions.Log.Basic

/-!
# C73: turbulence from files, loss functions
-/

namespace Verif.Props.TurbFiles
open Verif.Py Verif.Model.TurbFiles Verif.Model.Turbulence Verif.Model.Match Verif Matrix
open Verif.Lemmas
open Verif.Props (C32_key_join)
open Verif.Props.Tur (Cov KGrad kern_mat grad_mat)

theorem okBind {α β : Type} (a : α) (f : α → Except PyErr β) : (Except.ok a >>= f) = f a := rfl

/-! ### Loss functions -/

section chol
variable {ι : Type} [Fintype ι] [DecidableEq ι]

/-- What `cho_factor` promises: an upper triangular factor (in the order `e` of the components) with positive diagonal. -/
def IsChol {k : ℕ} (e : ι ≃ Fin k) (chol : Matrix ι ι ℝ → Matrix ι ι ℝ) : Prop :=
  ∀ C : Matrix ι ι ℝ, C.PosDef → (∀ i j, e j < e i → chol C i j = 0) ∧ (∀ i, 0 < chol C i i) ∧ (chol C)ᵀ * chol C = C

/-- Density at `d` of the normal distribution with mean zero and covariance `C`. -/
noncomputable def normalDensity (C : Matrix ι ι ℝ) (d : ι → ℝ) : ℝ :=
  Real.exp (-(1 / 2) * (d ⬝ᵥ (C⁻¹ *ᵥ d))) / Real.sqrt ((2 * Real.pi) ^ Fintype.card ι * C.det)

theorem log_density {C : Matrix ι ι ℝ} (hC : C.PosDef) (d : ι → ℝ) :
    Real.log (normalDensity C d) = -(1 / 2) * (d ⬝ᵥ (C⁻¹ *ᵥ d)) - (1 / 2) * (Fintype.card ι * Real.log (2 * Real.pi)) - (1 / 2) * Real.log C.det := by
  have hpi : 0 < 2 * Real.pi := by positivity
  have hdet := hC.det_pos
  unfold normalDensity
  rw [Real.log_div (Real.exp_ne_zero _) (by positivity), Real.log_exp, Real.log_sqrt (by positivity),
    Real.log_mul (by positivity) hdet.ne', Real.log_pow]
  ring

theorem log_det {k : ℕ} {e : ι ≃ Fin k} {chol : Matrix ι ι ℝ → Matrix ι ι ℝ} (h : IsChol e chol) {C : Matrix ι ι ℝ} (hC : C.PosDef) :
    2 * ∑ i, Real.log (chol C i i) = Real.log C.det := by
  obtain ⟨h1, h2, h3⟩ := h C hC
  have hdet : (chol C).det = ∏ i, chol C i i := by
    have hr : (chol C).det = ((chol C).submatrix e.symm e.symm).det := (Matrix.det_submatrix_equiv_self e.symm _).symm
    rw [hr, Matrix.det_of_isUpperTriangular (by
      intro i j hij
      exact h1 _ _ (by simpa using hij))]
    exact Equiv.prod_comp e.symm fun i => chol C i i
  have h4 : C.det = (∏ i, chol C i i) ^ 2 := by
    conv_lhs => rw [← h3]
    rw [Matrix.det_mul, Matrix.det_transpose, hdet, sq]
  rw [h4, Real.log_pow, Real.log_prod (fun i _ => (h2 i).ne')]
  norm_num

end chol

/-- Order of the components: first x, then y. -/
def orderXY (n : ℕ) : Fin n ⊕ Fin n ≃ Fin (n + n) := finSumFinEquiv

/-- Covariance matrix of the offsets in one direction, with noise `p.sigma` of each measurement. -/
noncomputable def withNoise {ι : Type} [DecidableEq ι] (s : ℝ) (K : ι → ι → ℝ) : Matrix ι ι ℝ :=
  Matrix.of fun i j => K i j + if i = j then s ^ 2 else 0

theorem withNoise_eq {ι : Type} [DecidableEq ι] (s : ℝ) (K : Matrix ι ι ℝ) : withNoise s K = K + (s ^ 2) • (1 : Matrix ι ι ℝ) := by
  ext i j
  simp [withNoise, Matrix.one_apply]

/-- **C73** `loss_independent` is minus the logarithm of the likelihood of the offsets in x and y, up to a constant. (The comment
in the code says one half of it.) -/
theorem C73_loss_independent {n : ℕ} (chol : Matrix (Fin n) (Fin n) ℝ → Matrix (Fin n) (Fin n) ℝ) (hchol : IsChol (Equiv.refl _) chol)
    (data : Data n) (p : Param) (hs : p.sigma ≠ 0) :
    ∃ v, lossIndependent chol data p = .ok v ∧
      v = -(Real.log (normalDensity (withNoise p.sigma fun i j => Cov p (data.pos i) (data.pos j)) data.dx) +
            Real.log (normalDensity (withNoise p.sigma fun i j => Cov p (data.pos i) (data.pos j)) data.dy))
        - n * Real.log (2 * Real.pi) := by
  have hC : (covIndependent p data.pos).PosDef := Kernel.noise_posDef (Kernel.cov_psd p data.pos) hs
  refine ⟨_, by unfold lossIndependent; dsimp only; rw [if_pos hC], ?_⟩
  have hw : (withNoise p.sigma fun i j => Cov p (data.pos i) (data.pos j)) = covIndependent p data.pos := by
    rw [kern_mat, withNoise_eq]; rfl
  rw [hw, log_density hC, log_density hC, Fintype.card_fin]
  have := log_det hchol hC
  rw [show (2 : ℝ) * 2 * ∑ i, Real.log (chol (covIndependent p data.pos) i i) = 2 * (2 * ∑ i, Real.log (chol (covIndependent p data.pos) i i)) by ring,
    this]
  ring

/-- **C73** The same for `loss_gradwavefront` and the joint distribution of all components. -/
theorem C73_loss_gradwavefront {n : ℕ} (chol : Matrix (Fin n ⊕ Fin n) (Fin n ⊕ Fin n) ℝ → Matrix (Fin n ⊕ Fin n) (Fin n ⊕ Fin n) ℝ)
    (hchol : IsChol (orderXY n) chol) (data : Data n) (p : Param) (hs : p.sigma ≠ 0) :
    (p.alpha = none → ∃ v, lossGrad chol data p = .ok v ∧
      v = -Real.log (normalDensity (withNoise p.sigma (KGrad p data.pos)) (Sum.elim data.dx data.dy)) - n * Real.log (2 * Real.pi)) ∧
    (p.alpha ≠ none → lossGrad chol data p = .error .valueError) := by
  constructor
  · intro ha
    have hC : (covGrad p data.pos).PosDef := Kernel.noise_posDef (Kernel.grad_psd p data.pos) hs
    refine ⟨_, by unfold lossGrad; dsimp only; rw [if_neg (by simp [ha]), if_pos hC], ?_⟩
    have hw : withNoise p.sigma (KGrad p data.pos) = covGrad p data.pos := by
      rw [grad_mat, withNoise_eq]; rfl
    rw [hw, log_density hC, log_det hchol hC, Fintype.card_sum, Fintype.card_fin]
    push_cast
    ring
  · intro ha
    unfold lossGrad
    rw [if_pos (Option.isSome_iff_ne_none.2 ha)]

/-- **C73** (finding) The loss is not, up to a constant, minus one half of the logarithm of the likelihood as the comments say: with a fibre at the origin,
between an offset 0 and an offset 2 (noise 1, no correlated part) it changes by twice as much. -/
theorem C73_loss_docstring (chol : Matrix (Fin 1) (Fin 1) ℝ → Matrix (Fin 1) (Fin 1) ℝ) (hchol : IsChol (Equiv.refl _) chol) :
    ¬ ∃ c : ℝ, ∀ (data : Data 1) (p : Param), p.sigma ≠ 0 → lossIndependent chol data p =
      .ok (-(1 / 2) * (Real.log (normalDensity (withNoise p.sigma fun i j => Cov p (data.pos i) (data.pos j)) data.dx) +
            Real.log (normalDensity (withNoise p.sigma fun i j => Cov p (data.pos i) (data.pos j)) data.dy)) + c) := by
  rintro ⟨c, h⟩
  let p : Param := ⟨1, 0, 1, none⟩
  have hs : p.sigma ≠ 0 := one_ne_zero
  have hw : ∀ pos : Fin 1 → ℝ × ℝ, (withNoise p.sigma fun i j => Cov p (pos i) (pos j)) = 1 := by
    intro pos
    ext i j
    simp [withNoise, Cov, p, Matrix.one_apply, Subsingleton.elim i j]
  have hl : ∀ d : Fin 1 → ℝ, Real.log (normalDensity (1 : Matrix (Fin 1) (Fin 1) ℝ) d) =
      -(1 / 2) * d 0 ^ 2 - (1 / 2) * Real.log (2 * Real.pi) := by
    intro d
    rw [log_density Matrix.PosDef.one]
    simp [dotProduct, sq]
  have key : ∀ d : Fin 1 → ℝ, (1 / 2) * d 0 ^ 2 = (1 / 4) * d 0 ^ 2 + c + (1 / 2) * Real.log (2 * Real.pi) := by
    intro d
    obtain ⟨v, hv, e⟩ := C73_loss_independent chol hchol ⟨fun _ => (0, 0), d, fun _ => 0⟩ p hs
    have h1 := h ⟨fun _ => (0, 0), d, fun _ => 0⟩ p hs
    rw [hv] at h1
    have h2 := Except.ok.inj h1
    rw [e, hw, hl, hl] at h2
    push_cast at h2
    linarith
  have h0 := key fun _ => 0
  have h2 := key fun _ => 2
  norm_num at h0 h2
  linarith

/-! There is a Cholesky factor for every order of the components. -/

theorem chol_fin {k : ℕ} {C : Matrix (Fin k) (Fin k) ℝ} (hC : C.PosDef) :
    ∃ U : Matrix (Fin k) (Fin k) ℝ, (∀ i j, j < i → U i j = 0) ∧ (∀ i, 0 < U i i) ∧ Uᵀ * U = C := by
  classical
  set L := LDL.lower hC with hL
  have hconj := LDL.lower_conj_diag hC
  have hd : ∀ i, 0 ≤ LDL.diagEntries hC i := by
    intro i
    have h1 : (LDL.diag hC).PosSemidef := by
      rw [LDL.diag_eq_lowerInv_conj]
      exact hC.posSemidef.mul_mul_conjTranspose_same _
    have := h1.diag_nonneg (i := i)
    simpa [LDL.diag] using this
  have htri : ∀ i j, i < j → L i j = 0 := by
    have h1 : (LDL.lowerInv hC)ᵀ.BlockTriangular id := by
      intro i j hij
      exact LDL.lowerInv_triangular hC hij
    have h2 := Matrix.blockTriangular_inv_of_blockTriangular (M := (LDL.lowerInv hC)ᵀ) h1
    intro i j hij
    have := h2 (i := j) (j := i) hij
    rw [← Matrix.transpose_nonsing_inv] at this
    exact this
  set U0 : Matrix (Fin k) (Fin k) ℝ := Matrix.diagonal (fun i => Real.sqrt (LDL.diagEntries hC i)) * Lᵀ with hU0
  have hU0C : U0ᵀ * U0 = C := by
    rw [hU0, Matrix.transpose_mul, Matrix.transpose_transpose, Matrix.diagonal_transpose]
    rw [Matrix.mul_assoc, ← Matrix.mul_assoc (Matrix.diagonal _), Matrix.diagonal_mul_diagonal, ← Matrix.mul_assoc]
    conv_rhs => rw [← hconj]
    congr 2
    unfold LDL.diag
    congr 1
    funext i
    exact Real.mul_self_sqrt (hd i)
  have hU0t : ∀ i j, j < i → U0 i j = 0 := by
    intro i j hij
    rw [hU0, Matrix.diagonal_mul, Matrix.transpose_apply, htri j i hij, mul_zero]
  have hne : ∀ i, U0 i i ≠ 0 := by
    have hdet : U0.det ≠ 0 := by
      intro h0
      have : C.det = 0 := by rw [← hU0C, Matrix.det_mul, h0, mul_zero]
      exact hC.det_pos.ne' this
    rw [Matrix.det_of_isUpperTriangular (fun i j hij => hU0t i j hij)] at hdet
    intro i hi
    exact hdet (Finset.prod_eq_zero (Finset.mem_univ i) hi)
  refine ⟨Matrix.diagonal (fun i => |U0 i i| / U0 i i) * U0, ?_, ?_, ?_⟩
  · intro i j hij
    rw [Matrix.diagonal_mul, hU0t i j hij, mul_zero]
  · intro i
    rw [Matrix.diagonal_mul, div_mul_cancel₀ _ (hne i)]
    exact abs_pos.2 (hne i)
  · rw [Matrix.transpose_mul, Matrix.diagonal_transpose, Matrix.mul_assoc, ← Matrix.mul_assoc (Matrix.diagonal _),
      Matrix.diagonal_mul_diagonal]
    have : (fun i => |U0 i i| / U0 i i * (|U0 i i| / U0 i i)) = fun _ => (1 : ℝ) := by
      funext i
      have := hne i
      field_simp
      exact sq_abs _
    rw [this, Matrix.diagonal_one, Matrix.one_mul, hU0C]

theorem chol_exists {ι : Type} [Fintype ι] [DecidableEq ι] {k : ℕ} (e : ι ≃ Fin k) : ∃ chol, IsChol e chol := by
  classical
  have : ∀ C : Matrix ι ι ℝ, ∃ U : Matrix ι ι ℝ, C.PosDef → (∀ i j, e j < e i → U i j = 0) ∧ (∀ i, 0 < U i i) ∧ Uᵀ * U = C := by
    intro C
    by_cases hC : C.PosDef
    · obtain ⟨U, h1, h2, h3⟩ := chol_fin (hC.submatrix (e := e.symm) e.symm.injective)
      refine ⟨U.submatrix e e, fun _ => ⟨fun i j h => h1 _ _ h, fun i => h2 _, ?_⟩⟩
      rw [Matrix.transpose_submatrix, Matrix.submatrix_mul_equiv, h3]
      ext i j
      simp
    · exact ⟨0, fun h => absurd h hC⟩
  choose chol h using this
  exact ⟨chol, h⟩

/-- The hypothesis of `C73_loss_independent` can be met. -/
example (n : ℕ) : ∃ chol : Matrix (Fin n) (Fin n) ℝ → Matrix (Fin n) (Fin n) ℝ, IsChol (Equiv.refl _) chol := chol_exists _

/-- The hypothesis of `C73_loss_gradwavefront` can be met. -/
example (n : ℕ) : ∃ chol : Matrix (Fin n ⊕ Fin n) (Fin n ⊕ Fin n) ℝ → Matrix (Fin n ⊕ Fin n) (Fin n ⊕ Fin n) ℝ, IsChol (orderXY n) chol :=
  chol_exists _

/-! ### Files -/

/-- Entry of the expected row `e` measured at `o`. -/
def Offset (e o : Row) (d : Entry) : Prop :=
  d.loc = e.loc ∧ d.x = e.x ∧ d.y = e.y ∧ d.dx = o.x - e.x ∧ d.dy = o.y - e.y

/-- `data` has, in order, one entry for each row of `measure` with an expected location. -/
def IsData {n m : ℕ} (expect : Fin n → Row) (measure : Fin m → Row) (data : List Entry) : Prop :=
  ∃ js : List (Fin m), js.Pairwise (· < ·) ∧ (∀ j, j ∈ js ↔ ∃ i, (expect i).loc = (measure j).loc) ∧
    List.Forall₂ (fun d j => ∃ i, (expect i).loc = (measure j).loc ∧ Offset (expect i) (measure j) d) data js

/-- **C73** `make_data`. -/
theorem C73_make_data {n m : ℕ} (expect : Fin n → Row) (measure : Fin m → Row) :
    ((∃ i j, i ≠ j ∧ (expect i).loc = (expect j).loc) → makeData expect measure = .error .valueError) ∧
    ((∀ i j, (expect i).loc = (expect j).loc → i = j) →
      ∃ data, makeData expect measure = .ok data ∧ IsData expect measure data) := by
  obtain ⟨h1, h2⟩ := C32_key_join (fun i => (expect i).loc) (fun j => (measure j).loc)
  constructor
  · rintro ⟨i, j, hij, he⟩
    unfold makeData
    rw [h1 (fun h => hij (h he))]
    rfl
  · intro hinj
    obtain ⟨ma, mb, hk, hf, hp, hm⟩ := h2 (fun i j h => hinj i j h)
    refine ⟨List.zipWith (fun i j => ⟨(expect i).loc, (expect i).x, (expect i).y, (measure j).x - (expect i).x, (measure j).y - (expect i).y⟩) ma mb,
      by unfold makeData; rw [hk]; rfl, mb, hp, hm, ?_⟩
    clear hk hp hm
    induction hf with
    | nil => simp
    | cons h _ ih => exact .cons ⟨_, h, rfl, rfl, rfl, rfl, rfl⟩ ih

theorem fold_out {m : ℕ} {α : Type} (f : α × Fin m → OutRow) : ∀ (l : List (α × Fin m)) (init : Fin m → OutRow), (l.map Prod.snd).Nodup →
    (∀ x ∈ l, l.foldl (fun out ij => Function.update out ij.2 (f ij)) init x.2 = f x) ∧
    (∀ j, j ∉ l.map Prod.snd → l.foldl (fun out ij => Function.update out ij.2 (f ij)) init j = init j) := by
  intro l
  induction l with
  | nil => intro init _; simp
  | cons a l ih =>
    intro init hn
    rw [List.map_cons, List.nodup_cons] at hn
    obtain ⟨ih1, ih2⟩ := ih (Function.update init a.2 (f a)) hn.2
    constructor
    · intro x hx
      rcases List.mem_cons.1 hx with rfl | hx
      · rw [List.foldl_cons, ih2 _ hn.1, Function.update_self]
      · exact ih1 x hx
    · intro j hj
      rw [List.map_cons, List.mem_cons, not_or] at hj
      rw [List.foldl_cons, ih2 _ hj.2, Function.update_of_ne hj.1]

/-- **C73** `solve_files`: the solver gets the data of `C73_make_data`. Every measured row is kept; a row whose location is expected gets
the solver's value for its own entry, and the corrected position; any other row gets NaN. -/
theorem C73_files {n m : ℕ} (solve : Bool → List Entry → Except PyErr (List ℝ × List ℝ)) (g : Bool) (expect : Fin n → Row)
    (measure : Fin m → Row) (hinj : ∀ i j, (expect i).loc = (expect j).loc → i = j)
    (hmeas : ∀ i j k, (measure i).loc = (measure j).loc → (expect k).loc = (measure i).loc → i = j) :
    ∃ data, IsData expect measure data ∧ ∀ tx ty, solve g data = .ok (tx, ty) → tx.length = data.length → ty.length = data.length →
      ∃ out, solveFiles solve (if g then .gradwavefront else .independent) expect measure = .ok out ∧
        ∀ j, (out j).row = measure j ∧
          ((∀ i, (expect i).loc ≠ (measure j).loc) → (out j).new = none ∧ (out j).turb = none) ∧
          (∀ i, (expect i).loc = (measure j).loc → ∃ k : ℕ, ∃ d a b, data[k]? = some d ∧ Offset (expect i) (measure j) d ∧
            tx[k]? = some a ∧ ty[k]? = some b ∧ (out j).turb = some (a, b) ∧
            ∃ u v, (out j).new = some (u, v) ∧ u + a = (measure j).x ∧ v + b = (measure j).y) := by
  obtain ⟨data, hd, js, hp, hm, hf⟩ := (C73_make_data expect measure).2 hinj
  refine ⟨data, ⟨js, hp, hm, hf⟩, ?_⟩
  intro tx ty hsol hlx hly
  have hlen := hf.length_eq
  have hget : ∀ k : Fin data.length, ∃ (j : Fin m), js[(k : ℕ)]? = some j ∧ (data.get k).loc = (measure j).loc ∧
      ∃ i, (expect i).loc = (measure j).loc ∧ Offset (expect i) (measure j) (data.get k) := by
    intro k
    have hk : (k : ℕ) < js.length := hlen ▸ k.2
    refine ⟨js[(k : ℕ)], List.getElem?_eq_getElem hk, ?_⟩
    have := hf.get (i := k) k.2 hk
    obtain ⟨i, h, ho⟩ := this
    exact ⟨ho.1.trans h, i, h, ho⟩
  have hdinj : Function.Injective fun i => (data.get i).loc := by
    intro a b hab
    obtain ⟨j, hj, hl, i, hi, -⟩ := hget a
    obtain ⟨j', hj', hl', i', hi', -⟩ := hget b
    have e : j = j' := hmeas j j' i (hl.symm.trans (hab.trans hl')) hi
    subst e
    have hnd : js.Nodup := hp.imp (fun h => h.ne)
    exact Fin.ext ((List.getElem?_inj (hlen ▸ a.2) hnd).1 (hj.trans hj'.symm))
  obtain ⟨md, mo, hk, hf2, hp2, hm2⟩ := (C32_key_join (fun i => (data.get i).loc) (fun j => (measure j).loc)).2 hdinj
  have hany : (md.any fun (i : Fin data.length) => decide (tx.length ≤ i) || decide (ty.length ≤ i)) = false := by
    rw [List.any_eq_false]
    intro i _
    simp only [hlx, hly, Bool.or_self, decide_eq_true_eq, not_le]
    exact i.2
  set f : Fin data.length × Fin m → OutRow := fun ij =>
    ⟨measure ij.2, some ((measure ij.2).x - tx.getD ij.1 0, (measure ij.2).y - ty.getD ij.1 0), some (tx.getD ij.1 0, ty.getD ij.1 0)⟩ with hfdef
  have hsnd : (List.zip md mo).map Prod.snd = mo := List.map_snd_zip hf2.length_eq.ge
  obtain ⟨hv, h0⟩ := fold_out f (List.zip md mo) (fun j => ⟨measure j, none, none⟩) (by rw [hsnd]; exact hp2.imp (fun h => h.ne))
  refine ⟨(List.zip md mo).foldl (fun out ij => Function.update out ij.2 (f ij)) (fun j => ⟨measure j, none, none⟩), ?_, ?_⟩
  · have hrun : runMode solve (if g then .gradwavefront else .independent) data = .ok (tx, ty) := by cases g <;> exact hsol
    have hnew : newColumns data (tx, ty) measure =
        .ok ((List.zip md mo).foldl (fun out ij => Function.update out ij.2 (f ij)) (fun j => ⟨measure j, none, none⟩)) := by
      unfold newColumns
      rw [hk]
      rw [okBind]
      dsimp only
      rw [hany]
      rfl
    unfold solveFiles
    rw [hd, okBind, hrun, okBind, hnew]
  · intro j
    by_cases hj : j ∈ mo
    · obtain ⟨q, hq⟩ := List.mem_iff_getElem.1 hj
      obtain ⟨hq, rfl⟩ := hq
      have hq' : q < md.length := hf2.length_eq ▸ hq
      have hz : (md[q], mo[q]) ∈ List.zip md mo := by
        rw [List.mem_iff_getElem]
        exact ⟨q, by simp [hq, hq'], by simp⟩
      have hval := hv _ hz
      have hloc : (data.get md[q]).loc = (measure mo[q]).loc := hf2.get (i := q) hq' hq
      obtain ⟨j', hj', hl', i', hi', ho⟩ := hget md[q]
      have e : j' = mo[q] := hmeas j' mo[q] i' (hl'.symm.trans hloc) hi'
      subst e
      refine ⟨by rw [hval], fun h => absurd hi' (h i'), ?_⟩
      intro i hi
      have : i = i' := hinj i i' (hi.trans hi'.symm)
      subst this
      have hx : (md[q] : ℕ) < tx.length := by rw [hlx]; exact md[q].2
      have hy : (md[q] : ℕ) < ty.length := by rw [hly]; exact md[q].2
      refine ⟨md[q], data.get md[q], tx[(md[q] : ℕ)], ty[(md[q] : ℕ)], by simp, ho, List.getElem?_eq_getElem hx, List.getElem?_eq_getElem hy, ?_⟩
      rw [hval, hfdef]
      have gx : tx.getD md[q] 0 = tx[(md[q] : ℕ)] := by rw [List.getD_eq_getElem?_getD, List.getElem?_eq_getElem (by assumption)]; rfl
      have gy : ty.getD md[q] 0 = ty[(md[q] : ℕ)] := by rw [List.getD_eq_getElem?_getD, List.getElem?_eq_getElem (by assumption)]; rfl
      simp only [gx, gy, true_and]
      exact ⟨_, _, rfl, sub_add_cancel _ _, sub_add_cancel _ _⟩
    · have hval := h0 j (by rw [hsnd]; exact hj)
      refine ⟨by rw [hval], fun _ => by rw [hval]; exact ⟨rfl, rfl⟩, ?_⟩
      intro i hi
      exfalso
      obtain ⟨q, hq⟩ := List.mem_iff_getElem.1 ((hm j).2 ⟨i, hi⟩)
      obtain ⟨hq, rfl⟩ := hq
      obtain ⟨j', hj', hl', -⟩ := hget ⟨q, hlen ▸ hq⟩
      have e : js[q] = j' := by
        have := (List.getElem?_eq_getElem hq).symm.trans hj'
        exact Option.some.inj this
      exact hj ((hm2 _).2 ⟨⟨q, hlen ▸ hq⟩, by rw [hl', e]⟩)

/-- **C73** `solve_files` raises ValueError when two expected rows have the same location, when the mode is unknown, and, whatever the
solver returns, when two measured rows have the same expected location. -/
theorem C73_files_errors {n m : ℕ} (solve : Bool → List Entry → Except PyErr (List ℝ × List ℝ)) (mode : TMode) (expect : Fin n → Row)
    (measure : Fin m → Row) :
    ((∃ i j, i ≠ j ∧ (expect i).loc = (expect j).loc) → solveFiles solve mode expect measure = .error .valueError) ∧
    solveFiles solve .other expect measure = .error .valueError ∧
    ((∃ i j k, i ≠ j ∧ (measure i).loc = (measure j).loc ∧ (expect k).loc = (measure i).loc) →
      (∀ g data, ∃ t, solve g data = .ok t) → solveFiles solve mode expect measure = .error .valueError) := by
  have h1 : (∃ i j, i ≠ j ∧ (expect i).loc = (expect j).loc) → ∀ mode, solveFiles solve mode expect measure = .error .valueError := by
    intro h mode
    unfold solveFiles
    rw [(C73_make_data expect measure).1 h]
    rfl
  have h2 : solveFiles solve .other expect measure = .error .valueError := by
    by_cases h : ∃ i j, i ≠ j ∧ (expect i).loc = (expect j).loc
    · exact h1 h _
    · push Not at h
      obtain ⟨data, hd, -⟩ := (C73_make_data expect measure).2 fun i j he => by
        by_contra hij; exact h i j hij he
      unfold solveFiles
      rw [hd]
      rfl
  refine ⟨fun h => h1 h mode, h2, ?_⟩
  rintro ⟨a, b, k, hab, hloc, hk⟩ hsol
  by_cases h : ∃ i j, i ≠ j ∧ (expect i).loc = (expect j).loc
  · exact h1 h _
  push Not at h
  obtain ⟨data, hd, js, hp, hm, hf⟩ := (C73_make_data expect measure).2 fun i j he => by
    by_contra hij; exact h i j hij he
  have hnd : ¬ Function.Injective fun i => (data.get i).loc := by
    intro hinj
    have hlen := hf.length_eq
    obtain ⟨qa, hqa, ea⟩ := List.mem_iff_getElem.1 ((hm a).2 ⟨k, hk⟩)
    obtain ⟨qb, hqb, eb⟩ := List.mem_iff_getElem.1 ((hm b).2 ⟨k, hk.trans hloc⟩)
    have gl : ∀ (q : ℕ) (hq : q < js.length), (data.get ⟨q, hlen ▸ hq⟩).loc = (measure js[q]).loc := by
      intro q hq
      obtain ⟨i, h, ho⟩ := hf.get (i := q) (hlen ▸ hq) hq
      exact ho.1.trans h
    have e : (data.get ⟨qa, hlen ▸ hqa⟩).loc = (data.get ⟨qb, hlen ▸ hqb⟩).loc := by
      rw [gl qa hqa, gl qb hqb, ea, eb, hloc]
    have := congrArg Fin.val (hinj e)
    simp only at this
    subst this
    exact hab (ea.symm.trans eb)
  have hnew : ∀ t, newColumns data t measure = .error .valueError := by
    intro t
    unfold newColumns
    rw [(C32_key_join _ _).1 hnd]
    rfl
  cases mode with
  | other => exact h2
  | independent =>
    obtain ⟨t, ht⟩ := hsol false data
    unfold solveFiles
    rw [hd, okBind, show runMode solve .independent data = .ok t from ht, okBind, hnew]
  | gradwavefront =>
    obtain ⟨t, ht⟩ := hsol true data
    unfold solveFiles
    rw [hd, okBind, show runMode solve .gradwavefront data = .ok t from ht, okBind, hnew]

/-! ### Central fibres -/

theorem filterMap_range {α : Type} : ∀ data : List α, (List.range data.length).filterMap (data[·]?) = data := by
  intro data
  induction data with
  | nil => rfl
  | cons a l ih =>
    rw [List.length_cons, List.range_succ_eq_map, List.filterMap_cons, List.filterMap_map]
    have : ((fun x => (a :: l)[x]?) ∘ Nat.succ) = fun x => l[x]? := by funext x; simp
    rw [this, ih]
    rfl

/-- `argsort` returns the positions of the values, each once, in increasing order of the values. -/
def IsArgsort (argsort : List ℝ → List ℕ) : Prop :=
  ∀ l, (argsort l).Perm (List.range l.length) ∧ (argsort l).Pairwise fun i j => l.getD i 0 ≤ l.getD j 0

/-- **C73** `solve_covar`: the covariance is found from the `nuse` fibres closest to the centre (all if there are fewer, or if
`nuse` is zero or negative): the data are split in two lists, no fibre of the first farther than one of the second. -/
theorem C73_central (argsort : List ℝ → List ℕ) (hs : IsArgsort argsort) (data : List Entry) (nuse : ℤ) :
    (nuse ≤ 0 → central argsort data nuse = data) ∧
    (0 < nuse → ((central argsort data nuse).length : ℤ) = min nuse data.length ∧
      ∃ rest, (central argsort data nuse ++ rest).Perm data ∧
        ∀ a ∈ central argsort data nuse, ∀ b ∈ rest, hypot a.x a.y ≤ hypot b.x b.y) := by
  constructor
  · intro h
    unfold central
    rw [if_neg (by omega)]
  · intro h
    obtain ⟨hp, hsort⟩ := hs (data.map fun d => d.x ^ 2 + d.y ^ 2)
    set s := argsort (data.map fun d => d.x ^ 2 + d.y ^ 2) with hsdef
    rw [List.length_map] at hp
    have hc : central argsort data nuse = (s.take nuse.toNat).filterMap (data[·]?) := by
      unfold central
      rw [if_pos h]
    have hlt : ∀ i ∈ s, i < data.length := fun i hi => List.mem_range.1 (hp.mem_iff.1 hi)
    have hall : ∀ t : List ℕ, (∀ i ∈ t, i < data.length) → (t.filterMap (data[·]?)).length = t.length := by
      intro t
      induction t with
      | nil => simp
      | cons a t ih =>
        intro ht
        rw [List.filterMap_cons, List.getElem?_eq_getElem (ht a (by simp))]
        simp [ih fun i hi => ht i (by simp [hi])]
    have hd := filterMap_range data
    rw [hc]
    constructor
    · rw [hall _ fun i hi => hlt i (List.mem_of_mem_take hi), List.length_take, hp.length_eq, List.length_range]
      omega
    · refine ⟨(s.drop nuse.toNat).filterMap (data[·]?), ?_, ?_⟩
      · rw [← List.filterMap_append, List.take_append_drop]
        conv_rhs => rw [← hd]
        exact hp.filterMap _
      · intro a ha b hb
        obtain ⟨i, hi, hia⟩ := List.mem_filterMap.1 ha
        obtain ⟨j, hj, hjb⟩ := List.mem_filterMap.1 hb
        have : (data.map fun d => d.x ^ 2 + d.y ^ 2).getD i 0 ≤ (data.map fun d => d.x ^ 2 + d.y ^ 2).getD j 0 := by
          rw [← List.take_append_drop nuse.toNat s] at hsort
          exact (List.pairwise_append.1 hsort).2.2 i hi j hj
        simp only [List.getD_eq_getElem?_getD, List.getElem?_map, hia, hjb, Option.map_some, Option.getD_some] at this
        unfold hypot
        exact Real.sqrt_le_sqrt this

/-- The hypothesis of `C73_central` can be met. -/
example : ∃ argsort, IsArgsort argsort := by
  refine ⟨fun l => pySort (fun i => l.getD i 0) (List.range l.length), fun l => ⟨perm_pySort _ _, sorted_pySort _ _⟩⟩

/-- A case of `C73_files`: three expected rows, two of them measured in another order, and a measured row that is not expected. -/
example : ∃ (expect measure : Fin 3 → Row), (∀ i j, (expect i).loc = (expect j).loc → i = j) ∧
    (∀ i j k, (measure i).loc = (measure j).loc → (expect k).loc = (measure i).loc → i = j) ∧
    (∃ i j, (expect i).loc = (measure j).loc ∧ i ≠ j) ∧ ∃ j, ∀ i, (expect i).loc ≠ (measure j).loc := by
  refine ⟨fun i => ⟨i, 0, 0⟩, fun i => ⟨3 - i, 0, 0⟩, ?_, ?_, ⟨1, 2, by decide, by decide⟩, ⟨0, by decide⟩⟩
  · decide
  · decide

/-- A case of the last part of `C73_files_errors`: a location measured twice. -/
example : ∃ (expect : Fin 1 → Row) (measure : Fin 2 → Row), ∃ i j k, i ≠ j ∧ (measure i).loc = (measure j).loc ∧ (expect k).loc = (measure i).loc :=
  ⟨fun _ => ⟨1, 0, 0⟩, fun _ => ⟨1, 0, 0⟩, 0, 1, 0, by decide, rfl, rfl⟩

end Verif.Props.TurbFiles
