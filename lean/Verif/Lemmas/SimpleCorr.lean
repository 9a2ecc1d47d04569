import Verif.Model.SimpleCorr
import Verif.Lemmas.LinAlg
import Verif.Lemmas.Sky
import Verif.Spec.Fit

namespace Verif.Lemmas.SimpleCorr
open Verif.Py Verif.Model.Trig Verif.Model.SimpleCorr Verif.Lemmas.Trig Verif.Lemmas.Sky Verif.Lemmas.LinAlg
  Verif.Spec

/-- The linear map realised by scale and rotation parameters. -/
noncomputable def lin (r sxx syy sxy : ℝ) (v : ℝ × ℝ) : ℝ × ℝ :=
  (sxx * (rot2deg r v).1 + sxy * (rot2deg r v).2, sxy * (rot2deg r v).1 + syy * (rot2deg r v).2)

theorem hypot_eq_zero {x y : ℝ} : hypot x y = 0 ↔ x = 0 ∧ y = 0 := by
  unfold hypot
  rw [Real.sqrt_eq_zero (by positivity)]
  constructor
  · intro h; constructor <;> nlinarith [sq_nonneg x, sq_nonneg y]
  · rintro ⟨rfl, rfl⟩; norm_num

theorem hypot_sq (x y : ℝ) : hypot x y ^ 2 = x ^ 2 + y ^ 2 := Real.sq_sqrt (by positivity)

/-- When the decomposition succeeds and does not use a stale angle, it
reproduces the matrix. -/
theorem decompose_spec {rot : ℝ} {ax ay : Fin 3 → ℝ} {r sxx syy sxy : ℝ}
    (h : decompose rot ax ay = .ok (r, sxx, syy, sxy))
    (hr : ay 1 ≠ ax 2 ∨ (cosd rot = 1 ∧ sind rot = 0)) (v : ℝ × ℝ) :
    lin r sxx syy sxy v = (ax 1 * v.1 + ax 2 * v.2, ay 1 * v.1 + ay 2 * v.2) := by
  unfold decompose at h
  dsimp only at h
  split_ifs at h with hs hsa hca
  · -- general branch
    simp only [Except.ok.injEq, Prod.mk.injEq] at h
    obtain ⟨rfl, e1, e2, e3⟩ := h
    set s := hypot (ax 1 + ay 2) (ay 1 - ax 2) with hsdef
    have hs2 := hypot_sq (ax 1 + ay 2) (ay 1 - ax 2)
    rw [← hsdef] at hs2
    set sa := (ay 1 - ax 2) / s with hsad
    set ca := (ax 1 + ay 2) / s with hcad
    have hD : ay 1 - ax 2 = s * sa := by rw [hsad]; field_simp
    have hT : ax 1 + ay 2 = s * ca := by rw [hcad]; field_simp
    have h1 : ca ^ 2 + sa ^ 2 = 1 := by
      rw [hD, hT] at hs2
      have : s ^ 2 * (ca ^ 2 + sa ^ 2 - 1) = 0 := by linear_combination -hs2
      rcases mul_eq_zero.1 this with h | h
      · exact absurd (pow_eq_zero_iff (by norm_num) |>.1 h) hs
      · linarith
    have hh : hypot ca sa = 1 := by unfold hypot; rw [h1, Real.sqrt_one]
    have hc := cosd_arctan2d ca sa
    have hsn := sind_arctan2d ca sa
    rw [hh, one_mul] at hc hsn
    have f1 : sxx * ca + sxy * sa = ax 1 := by rw [← e1, ← e3]; field_simp; ring
    have f2 : sxy * ca + syy * sa = ay 1 := by rw [← e2, ← e3]; field_simp; ring
    have hx : sxy = sa * ax 1 + ca * ay 1 - s * ca * sa := e3.symm
    have f3 : -sxx * sa + sxy * ca = ax 2 := by
      apply mul_left_cancel₀ hca
      linear_combination (-sa) * f1 + sxy * h1 + hx + ca * hD
    have f4 : -sxy * sa + syy * ca = ay 2 := by
      apply mul_left_cancel₀ hsa
      linear_combination ca * f2 - sxy * h1 - hx - sa * hT
    unfold lin rot2deg
    rw [hc, hsn]
    simp only [Prod.mk.injEq]
    constructor
    · linear_combination v.1 * f1 + v.2 * f3
    · linear_combination v.1 * f2 + v.2 * f4
  · simp only [Except.ok.injEq, Prod.mk.injEq] at h
    obtain ⟨rfl, rfl, rfl, rfl⟩ := h
    rw [not_not, div_eq_zero_iff, or_iff_left hs, sub_eq_zero] at hsa
    obtain ⟨c1, c2⟩ := hr.resolve_left (not_not.2 hsa)
    unfold lin rot2deg
    rw [c1, c2, hsa]
    simp

theorem decompose_ok_iff (rot : ℝ) (ax ay : Fin 3 → ℝ) :
    (∃ v, decompose rot ax ay = .ok v) ↔ ax 1 + ay 2 ≠ 0 := by
  unfold decompose
  dsimp only
  by_cases hs : hypot (ax 1 + ay 2) (ay 1 - ax 2) = 0
  · rw [if_pos hs]
    have := (hypot_eq_zero.1 hs).1
    simp [this]
  · rw [if_neg hs]
    by_cases hsa : (ay 1 - ax 2) / hypot (ax 1 + ay 2) (ay 1 - ax 2) = 0
    · rw [if_neg (not_not.2 hsa)]
      refine ⟨fun _ h => hs ?_, fun _ => ⟨_, rfl⟩⟩
      rw [div_eq_zero_iff, or_iff_left hs] at hsa
      rw [hypot_eq_zero]; exact ⟨h, hsa⟩
    · rw [if_pos hsa]
      by_cases hca : (ax 1 + ay 2) / hypot (ax 1 + ay 2) (ay 1 - ax 2) = 0
      · rw [if_pos hca]
        rw [div_eq_zero_iff, or_iff_left hs] at hca
        simp [hca]
      · rw [if_neg hca]
        rw [div_eq_zero_iff, or_iff_left hs] at hca
        simp [hca]

theorem decompose_no_leak {rot rot' : ℝ} {ax ay : Fin 3 → ℝ} (h : ay 1 ≠ ax 2) :
    decompose rot ax ay = decompose rot' ax ay := by
  unfold decompose
  dsimp only
  by_cases hs : hypot (ax 1 + ay 2) (ay 1 - ax 2) = 0
  · rw [if_pos hs, if_pos hs]
  · have : (ay 1 - ax 2) / hypot (ax 1 + ay 2) (ay 1 - ax 2) ≠ 0 := div_ne_zero (sub_ne_zero.2 h) hs
    rw [if_neg hs, if_neg hs, if_pos this, if_pos this]

theorem decompose_stale {rot : ℝ} {ax ay : Fin 3 → ℝ} (h : ay 1 = ax 2) (h2 : ax 1 + ay 2 ≠ 0) :
    decompose rot ax ay = .ok (rot, ax 1, ay 2, ax 2) := by
  unfold decompose
  dsimp only
  have hs : hypot (ax 1 + ay 2) (ay 1 - ax 2) ≠ 0 := fun e => h2 (hypot_eq_zero.1 e).1
  rw [if_neg hs, if_neg]
  rw [h, sub_self, zero_div]; simp

theorem apply_lin (c : Corr) (x y : ℝ) : apply c x y =
    ((lin c.rot_deg c.sxx c.syy c.sxy (x, y)).1 + c.dx, (lin c.rot_deg c.sxx c.syy c.sxy (x, y)).2 + c.dy) := rfl

theorem pred3 (a : Fin 3 → ℝ) (q : Pair) : pred design3 a q = a 0 + a 1 * q.x1 + a 2 * q.y1 := by
  unfold pred; rw [Fin.sum_univ_three]; simp [design3]

theorem pred4_false (a : Fin 4 → ℝ) (q : Pair) :
    pred design4 a (q, false) = a 0 * q.x1 - a 1 * q.y1 + a 2 := by
  unfold pred; rw [Fin.sum_univ_four]; simp [design4]; ring

theorem pred4_true (a : Fin 4 → ℝ) (q : Pair) :
    pred design4 a (q, true) = a 0 * q.y1 + a 1 * q.x1 + a 3 := by
  unfold pred; rw [Fin.sum_univ_four]; simp [design4]

/-- First-catalogue positions. -/
def firsts (l : List Pair) : List (ℝ × ℝ) := l.map fun q => (q.x1, q.y1)

theorem gram3_iff (l : List Pair) : (gram design3 l).det = 0 ↔ OnLine (firsts l) := by
  rw [gram_singular_iff]
  unfold OnLine firsts
  constructor
  · rintro ⟨v, hv, h⟩
    refine ⟨v 0, v 1, v 2, ?_, ?_⟩
    · intro e
      apply hv
      simp only [Prod.mk.injEq] at e
      funext i
      fin_cases i
      · exact e.1
      · exact e.2.1
      · exact e.2.2
    · intro p hp
      obtain ⟨q, hq, rfl⟩ := List.mem_map.1 hp
      have := h q hq
      rwa [pred3] at this
  · rintro ⟨a, b, c, hne, h⟩
    refine ⟨![a, b, c], ?_, ?_⟩
    · intro e
      apply hne
      have e0 := congrFun e 0
      have e1 := congrFun e 1
      have e2 := congrFun e 2
      simp at e0 e1 e2
      rw [e0, e1, e2]
    · intro q hq
      rw [pred3]
      have := h (q.x1, q.y1) (List.mem_map.2 ⟨q, hq, rfl⟩)
      simpa using this

/-- What `fit` returns when it returns. -/
theorem fit_unfold {c c' : Corr} {l : List Pair} (h : fit c l = .ok c') :
    ∃ ax ay : Fin 3 → ℝ, (gram design3 l).det ≠ 0 ∧
      ax = (gram design3 l)⁻¹.mulVec (moments design3 (·.x2) l) ∧
      ay = (gram design3 l)⁻¹.mulVec (moments design3 (·.y2) l) ∧
      decompose c.rot_deg ax ay = .ok (c'.rot_deg, c'.sxx, c'.syy, c'.sxy) ∧
      c'.dx = ax 0 ∧ c'.dy = ay 0 ∧ c'.nmatch = l.length ∧
      c'.rms = Real.sqrt (mean (l.map fun q =>
        (q.x2 - (ax 0 + ax 1 * q.x1 + ax 2 * q.y1)) ^ 2 + (q.y2 - (ay 0 + ay 1 * q.x1 + ay 2 * q.y1)) ^ 2)) := by
  unfold fit linInv at h
  simp only [Bool.false_eq_true, if_false, bind, Except.bind, pure, Except.pure] at h
  by_cases hd : (gram design3 l).det = 0
  · rw [if_pos hd] at h; simp at h
  · rw [if_neg hd] at h
    simp only at h
    refine ⟨_, _, hd, rfl, rfl, ?_⟩
    revert h
    generalize hdec : decompose c.rot_deg _ _ = z
    intro h
    rcases z with e | ⟨r, sxx, syy, sxy⟩
    · simp at h
    · simp only [Except.ok.injEq] at h
      subst h
      exact ⟨rfl, rfl, rfl, rfl, rfl⟩

theorem fit_ok {c : Corr} {l : List Pair} {ax ay : Fin 3 → ℝ} {r sxx syy sxy : ℝ}
    (hd : (gram design3 l).det ≠ 0)
    (hx : (gram design3 l)⁻¹.mulVec (moments design3 (·.x2) l) = ax)
    (hy : (gram design3 l)⁻¹.mulVec (moments design3 (·.y2) l) = ay)
    (h : decompose c.rot_deg ax ay = .ok (r, sxx, syy, sxy)) :
    ∃ rms, fit c l = .ok ⟨ax 0, ay 0, sxx, syy, sxy, r, l.length, rms⟩ := by
  unfold fit linInv
  simp only [Bool.false_eq_true, if_false, bind, Except.bind, pure, Except.pure]
  rw [if_neg hd]
  simp only [hx, hy, h]
  exact ⟨_, rfl⟩

theorem fit_err {c : Corr} {l : List Pair} {ax ay : Fin 3 → ℝ} {e : PyErr}
    (hd : (gram design3 l).det ≠ 0)
    (hx : (gram design3 l)⁻¹.mulVec (moments design3 (·.x2) l) = ax)
    (hy : (gram design3 l)⁻¹.mulVec (moments design3 (·.y2) l) = ay)
    (h : decompose c.rot_deg ax ay = .error e) : fit c l = .error e := by
  unfold fit linInv
  simp only [Bool.false_eq_true, if_false, bind, Except.bind, pure, Except.pure]
  rw [if_neg hd]
  simp only [hx, hy, h]

theorem decompose_nan {rot : ℝ} {ax ay : Fin 3 → ℝ} (h : ax 1 + ay 2 = 0) :
    decompose rot ax ay = .error .nanResult := by
  have hn : ¬ ∃ v, decompose rot ax ay = .ok v := by rw [decompose_ok_iff]; simp [h]
  unfold decompose at hn ⊢
  dsimp only at hn ⊢
  split_ifs at hn ⊢ <;> first | rfl | exact absurd ⟨_, rfl⟩ hn

end Verif.Lemmas.SimpleCorr
