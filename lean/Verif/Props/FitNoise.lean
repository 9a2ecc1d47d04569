import Verif.Props.SimpleCorr

/-!
# C131: noise in the fits of positions

What errors of the measured positions do to the transformation fitted by `SimpleCorr.fit`
(simplecorr.py lines 86-150) on a new object.
-/

namespace Verif.Props.FitNoise
open Verif.Py Verif.Spec Verif.Model.SimpleCorr Verif.Model.Trig Verif.Lemmas.Trig Verif.Lemmas.Sky Verif.Lemmas.LinAlg Verif.Lemmas.SimpleCorr Verif.Props

/-! ### Specification -/

/-- Sum of squares of the distances between the second positions and the images of the first. -/
def misfit (l : List ((ℝ × ℝ) × (ℝ × ℝ))) (F : ℝ × ℝ → ℝ × ℝ) : ℝ := (l.map fun q => sqDist q.2 (F q.1)).sum

/-- Sum of squares of the differences of two maps over the first positions. -/
def apart (l : List ((ℝ × ℝ) × (ℝ × ℝ))) (F G : ℝ × ℝ → ℝ × ℝ) : ℝ := (l.map fun q => sqDist (F q.1) (G q.1)).sum

/-- No affine map fits better. -/
def Best (l : List ((ℝ × ℝ) × (ℝ × ℝ))) (m : Affine) : Prop := ∀ m' : Affine, misfit l m.app ≤ misfit l m'.app

/-- The two catalogues. -/
def cats (l : List Pair) : List ((ℝ × ℝ) × (ℝ × ℝ)) := l.map fun q => ((q.x1, q.y1), (q.x2, q.y2))

/-- Mean of the first positions. -/
noncomputable def centre (l : List ((ℝ × ℝ) × (ℝ × ℝ))) : ℝ × ℝ :=
  ((l.map fun q => q.1.1).sum / l.length, (l.map fun q => q.1.2).sum / l.length)

/-- Mean of the second positions. -/
noncomputable def centre2 (l : List ((ℝ × ℝ) × (ℝ × ℝ))) : ℝ × ℝ :=
  ((l.map fun q => q.2.1).sum / l.length, (l.map fun q => q.2.2).sum / l.length)

/-- The first positions spread by at least `σ` (root mean square) in every direction. -/
def Spread (l : List ((ℝ × ℝ) × (ℝ × ℝ))) (σ : ℝ) : Prop :=
  ∀ u v : ℝ, l.length * σ ^ 2 * (u ^ 2 + v ^ 2) ≤ (l.map fun q => (u * (q.1.1 - (centre l).1) + v * (q.1.2 - (centre l).2)) ^ 2).sum

/-! ### Least squares -/

/-- From `m` towards `m'`. -/
def mix (m m' : Affine) (t : ℝ) : Affine :=
  ⟨m.t1 + t * (m'.t1 - m.t1), m.t2 + t * (m'.t2 - m.t2), m.m11 + t * (m'.m11 - m.m11), m.m12 + t * (m'.m12 - m.m12),
   m.m21 + t * (m'.m21 - m.m21), m.m22 + t * (m'.m22 - m.m22)⟩

/-- Mixed sum. -/
def cross (l : List ((ℝ × ℝ) × (ℝ × ℝ))) (m m' : Affine) : ℝ :=
  (l.map fun q => (q.2.1 - (m.app q.1).1) * ((m'.app q.1).1 - (m.app q.1).1) + (q.2.2 - (m.app q.1).2) * ((m'.app q.1).2 - (m.app q.1).2)).sum

theorem misfit_mix (l : List ((ℝ × ℝ) × (ℝ × ℝ))) (m m' : Affine) (t : ℝ) :
    misfit l (mix m m' t).app = misfit l m.app - 2 * t * cross l m m' + t ^ 2 * apart l m.app m'.app := by
  unfold misfit cross apart
  induction l with
  | nil => simp
  | cons a l ih =>
    simp only [List.map_cons, List.sum_cons]
    rw [ih]
    simp only [sqDist, mix, Affine.app]
    ring

theorem apart_nonneg (l : List ((ℝ × ℝ) × (ℝ × ℝ))) (F G : ℝ × ℝ → ℝ × ℝ) : 0 ≤ apart l F G := by
  apply List.sum_nonneg
  intro x hx
  obtain ⟨q, -, rfl⟩ := List.mem_map.1 hx
  unfold sqDist
  positivity

theorem misfit_nonneg (l : List ((ℝ × ℝ) × (ℝ × ℝ))) (F : ℝ × ℝ → ℝ × ℝ) : 0 ≤ misfit l F := by
  apply List.sum_nonneg
  intro x hx
  obtain ⟨q, -, rfl⟩ := List.mem_map.1 hx
  unfold sqDist
  positivity

theorem cross_zero {l : List ((ℝ × ℝ) × (ℝ × ℝ))} {m : Affine} (h : Best l m) (m' : Affine) : cross l m m' = 0 := by
  set I := cross l m m' with hI
  set D := apart l m.app m'.app with hD
  have hD0 : 0 ≤ D := apart_nonneg _ _ _
  have h1 := h (mix m m' (I / (D + 1)))
  rw [misfit_mix, ← hI, ← hD] at h1
  have h2 : 2 * (I / (D + 1)) * I ≤ (I / (D + 1)) ^ 2 * D := by linarith
  have hd : 0 < D + 1 := by linarith
  have h3 : 2 * I ^ 2 * (D + 1) ≤ I ^ 2 * D := by
    have e1 : 2 * (I / (D + 1)) * I * (D + 1) ^ 2 = 2 * I ^ 2 * (D + 1) := by field_simp
    have e2 : (I / (D + 1)) ^ 2 * D * (D + 1) ^ 2 = I ^ 2 * D := by field_simp
    rw [← e1, ← e2]
    exact mul_le_mul_of_nonneg_right h2 (by positivity)
  nlinarith [sq_nonneg I, mul_nonneg (sq_nonneg I) hD0]

/-- Pythagoras for the best map. -/
theorem pythagoras {l : List ((ℝ × ℝ) × (ℝ × ℝ))} {m : Affine} (h : Best l m) (m' : Affine) :
    misfit l m'.app = misfit l m.app + apart l m.app m'.app := by
  have h1 := misfit_mix l m m' 1
  have e : (mix m m' 1).app = m'.app := by
    funext q
    unfold mix Affine.app
    ext
    · simp only; ring
    · simp only; ring
  rw [e, cross_zero h] at h1
  linarith

/-- Means. -/
theorem sums {l : List ((ℝ × ℝ) × (ℝ × ℝ))} {m : Affine} (h : Best l m) :
    (l.map fun q => q.2.1 - (m.app q.1).1).sum = 0 ∧ (l.map fun q => q.2.2 - (m.app q.1).2).sum = 0 := by
  constructor
  · rw [← cross_zero h { m with t1 := m.t1 + 1 }]
    unfold cross
    congr 1
    apply List.map_congr_left
    intro q _
    simp only [Affine.app]
    ring
  · rw [← cross_zero h { m with t2 := m.t2 + 1 }]
    unfold cross
    congr 1
    apply List.map_congr_left
    intro q _
    simp only [Affine.app]
    ring

/-! ### Spread -/

theorem sum_dev {α : Type*} (l : List α) (hl : l ≠ []) (f : α → ℝ) : (l.map fun q => f q - (l.map f).sum / l.length).sum = 0 := by
  have hn : (l.length : ℝ) ≠ 0 := by
    have := List.length_pos_of_ne_nil hl
    positivity
  have key : ∀ (c : ℝ) (l : List α), (l.map fun q => f q - c).sum = (l.map f).sum - l.length * c := by
    intro c l
    induction l with
    | nil => simp
    | cons a l ih =>
      simp only [List.map_cons, List.sum_cons, List.length_cons]
      rw [ih]
      push_cast
      ring
  rw [key]
  field_simp
  ring

/-- One coordinate: the part at the centre and the part of the slopes. -/
theorem split_sum (l : List ((ℝ × ℝ) × (ℝ × ℝ))) (hl : l ≠ []) (e u v : ℝ) :
    (l.map fun q => (e + (u * (q.1.1 - (centre l).1) + v * (q.1.2 - (centre l).2))) ^ 2).sum =
      l.length * e ^ 2 + (l.map fun q => (u * (q.1.1 - (centre l).1) + v * (q.1.2 - (centre l).2)) ^ 2).sum := by
  have h1 : (l.map fun q => q.1.1 - (centre l).1).sum = 0 := sum_dev l hl fun q => q.1.1
  have h2 : (l.map fun q => q.1.2 - (centre l).2).sum = 0 := sum_dev l hl fun q => q.1.2
  have key : ∀ (c : ℝ × ℝ) (l : List ((ℝ × ℝ) × (ℝ × ℝ))),
      (l.map fun q => (e + (u * (q.1.1 - c.1) + v * (q.1.2 - c.2))) ^ 2).sum =
        l.length * e ^ 2 + (l.map fun q => (u * (q.1.1 - c.1) + v * (q.1.2 - c.2)) ^ 2).sum +
          2 * e * (u * (l.map fun q => q.1.1 - c.1).sum + v * (l.map fun q => q.1.2 - c.2).sum) := by
    intro c l
    induction l with
    | nil => simp
    | cons a l ih =>
      simp only [List.map_cons, List.sum_cons, List.length_cons]
      rw [ih]
      push_cast
      ring
  rw [key, h1, h2]
  ring

/-- Square of the slopes of the difference of two affine maps. -/
def slopes (m m' : Affine) : ℝ := (m.m11 - m'.m11) ^ 2 + (m.m12 - m'.m12) ^ 2 + (m.m21 - m'.m21) ^ 2 + (m.m22 - m'.m22) ^ 2

/-- Two affine maps close at the data are close at the centre and have close slopes. -/
theorem apart_ge (l : List ((ℝ × ℝ) × (ℝ × ℝ))) (hl : l ≠ []) (σ : ℝ) (hs : Spread l σ) (m m' : Affine) :
    l.length * (sqDist (m.app (centre l)) (m'.app (centre l)) + σ ^ 2 * slopes m m') ≤ apart l m.app m'.app := by
  have e : apart l m.app m'.app =
      (l.map fun q => (((m.app (centre l)).1 - (m'.app (centre l)).1) + ((m.m11 - m'.m11) * (q.1.1 - (centre l).1) + (m.m12 - m'.m12) * (q.1.2 - (centre l).2))) ^ 2).sum +
      (l.map fun q => (((m.app (centre l)).2 - (m'.app (centre l)).2) + ((m.m21 - m'.m21) * (q.1.1 - (centre l).1) + (m.m22 - m'.m22) * (q.1.2 - (centre l).2))) ^ 2).sum := by
    unfold apart
    rw [← List.sum_map_add]
    congr 1
    apply List.map_congr_left
    intro q _
    simp only [sqDist, Affine.app]
    ring
  rw [e, split_sum l hl, split_sum l hl]
  have h1 := hs (m.m11 - m'.m11) (m.m12 - m'.m12)
  have h2 := hs (m.m21 - m'.m21) (m.m22 - m'.m22)
  unfold sqDist slopes
  linarith

theorem cauchy2 (a b x y : ℝ) : (a * x + b * y) ^ 2 ≤ (a ^ 2 + b ^ 2) * (x ^ 2 + y ^ 2) := by nlinarith [sq_nonneg (a * y - b * x)]

/-- Norm of a sum against the sum of squares. -/
theorem add_sq {e1 e2 g1 g2 F r σ : ℝ} (hσ : 0 < σ) (h : g1 ^ 2 + g2 ^ 2 ≤ F * r) (hF : 0 ≤ F) (hr : 0 ≤ r) :
    (e1 + g1) ^ 2 + (e2 + g2) ^ 2 ≤ (e1 ^ 2 + e2 ^ 2 + σ ^ 2 * F) * (1 + r / σ ^ 2) := by
  have hs : 0 < σ ^ 2 := by positivity
  set E := e1 ^ 2 + e2 ^ 2 with hE
  set G := g1 ^ 2 + g2 ^ 2 with hG
  have hE0 : 0 ≤ E := by positivity
  have hG0 : 0 ≤ G := by positivity
  have k1 : (e1 * g1 + e2 * g2) ^ 2 ≤ E * G := cauchy2 e1 e2 g1 g2
  have k2 : E * G ≤ E * (r / σ ^ 2) * (σ ^ 2 * F) := by
    have : E * (r / σ ^ 2) * (σ ^ 2 * F) = E * (F * r) := by field_simp
    rw [this]
    exact mul_le_mul_of_nonneg_left h hE0
  have hx : 0 ≤ E * (r / σ ^ 2) := by positivity
  have hy : 0 ≤ σ ^ 2 * F := by positivity
  set X := E * (r / σ ^ 2)
  set Y := σ ^ 2 * F
  have k3 : 2 * (e1 * g1 + e2 * g2) ≤ X + Y := by
    have : (2 * (e1 * g1 + e2 * g2)) ^ 2 ≤ (X + Y) ^ 2 := by nlinarith [sq_nonneg (X - Y)]
    exact (abs_le_of_sq_le_sq' this (by positivity)).2
  have k4 : Y * (r / σ ^ 2) = F * r := by
    simp only [Y]
    field_simp
  have : (E + Y) * (1 + r / σ ^ 2) = E + Y + X + F * r := by rw [← k4]; ring
  rw [this]
  nlinarith

/-- The difference of two affine maps anywhere. -/
theorem everywhere (l : List ((ℝ × ℝ) × (ℝ × ℝ))) (hl : l ≠ []) (σ : ℝ) (hσ : 0 < σ) (hs : Spread l σ) (m m' : Affine) (p : ℝ × ℝ) :
    sqDist (m.app p) (m'.app p) ≤ apart l m.app m'.app / l.length * (1 + sqDist p (centre l) / σ ^ 2) := by
  have hn : (0 : ℝ) < l.length := by exact_mod_cast List.length_pos_of_ne_nil hl
  have h1 := apart_ge l hl σ hs m m'
  have hr : 0 ≤ sqDist p (centre l) := by unfold sqDist; positivity
  have h2 : sqDist (m.app (centre l)) (m'.app (centre l)) + σ ^ 2 * slopes m m' ≤ apart l m.app m'.app / l.length := by
    rw [le_div_iff₀ hn]
    linarith
  refine le_trans ?_ (mul_le_mul_of_nonneg_right h2 (by positivity))
  have h3 := add_sq (e1 := (m.app (centre l)).1 - (m'.app (centre l)).1) (e2 := (m.app (centre l)).2 - (m'.app (centre l)).2)
    (g1 := (m.m11 - m'.m11) * (p.1 - (centre l).1) + (m.m12 - m'.m12) * (p.2 - (centre l).2))
    (g2 := (m.m21 - m'.m21) * (p.1 - (centre l).1) + (m.m22 - m'.m22) * (p.2 - (centre l).2))
    (F := slopes m m') (r := sqDist p (centre l)) hσ (by
      have a := cauchy2 (m.m11 - m'.m11) (m.m12 - m'.m12) (p.1 - (centre l).1) (p.2 - (centre l).2)
      have b := cauchy2 (m.m21 - m'.m21) (m.m22 - m'.m22) (p.1 - (centre l).1) (p.2 - (centre l).2)
      unfold slopes sqDist
      linarith) (by unfold slopes; positivity) hr
  refine le_trans (le_of_eq ?_) h3
  simp only [sqDist, Affine.app]
  ring

/-! ### The fit -/

/-- The map of a correction. -/
noncomputable def mapOf (c : Corr) (p : ℝ × ℝ) : ℝ × ℝ := apply c p.1 p.2

theorem best_solution {l : List Pair} (hd : (gram design3 l).det ≠ 0) :
    Best (cats l) ⟨(gram design3 l)⁻¹.mulVec (moments design3 (·.x2) l) 0, (gram design3 l)⁻¹.mulVec (moments design3 (·.y2) l) 0,
      (gram design3 l)⁻¹.mulVec (moments design3 (·.x2) l) 1, (gram design3 l)⁻¹.mulVec (moments design3 (·.x2) l) 2,
      (gram design3 l)⁻¹.mulVec (moments design3 (·.y2) l) 1, (gram design3 l)⁻¹.mulVec (moments design3 (·.y2) l) 2⟩ := by
  intro m
  have a := solve_optimal hd (·.x2) ![m.t1, m.m11, m.m12]
  have b := solve_optimal hd (·.y2) ![m.t2, m.m21, m.m22]
  simp only [pred3] at a b
  unfold misfit cats
  rw [List.map_map, List.map_map]
  simp only [Function.comp_def, sqDist, Affine.app]
  rw [sum_map_add', sum_map_add']
  simpa using add_le_add a b

theorem fit_best {l : List Pair} {c : Corr} (h : fit fresh l = .ok c) :
    ∃ m : Affine, Best (cats l) m ∧ mapOf c = m.app ∧ ¬ OnLine (firsts l) := by
  obtain ⟨ax, ay, hd, rfl, rfl, hdec, h0x, h0y, -, hr⟩ := fit_unfold h
  refine ⟨_, best_solution hd, ?_, fun e => hd ((gram3_iff l).2 e)⟩
  funext p
  have hs := decompose_spec hdec (Or.inr (by simp [fresh, cosd_zero, sind_zero])) p
  unfold mapOf
  rw [apply_lin, hs, h0x, h0y]
  unfold Affine.app
  ext
  · simp only; ring
  · simp only; ring

theorem fit_ne_nil {l : List Pair} (h : ¬ OnLine (firsts l)) : cats l ≠ [] := by
  intro e
  have : l = [] := List.map_eq_nil_iff.1 e
  subst this
  exact h ⟨1, 0, 0, by simp, by simp [firsts]⟩

theorem rms_eq {l : List Pair} {c : Corr} (h : fit fresh l = .ok c) : c.rms = Real.sqrt (misfit (cats l) (mapOf c) / l.length) := by
  rw [(C22_optimal l c h).2.2]
  unfold misfit cats mapOf
  rw [List.map_map]
  rfl

theorem misfit_le (l : List ((ℝ × ℝ) × (ℝ × ℝ))) (F : ℝ × ℝ → ℝ × ℝ) (ε : ℝ) (h : ∀ q ∈ l, sqDist q.2 (F q.1) ≤ ε ^ 2) :
    misfit l F ≤ l.length * ε ^ 2 := by
  unfold misfit
  have := List.sum_le_card_nsmul (l.map fun q => sqDist q.2 (F q.1)) (ε ^ 2) (by
    intro x hx
    obtain ⟨q, hq, rfl⟩ := List.mem_map.1 hx
    exact h q hq)
  simpa using this

/-- **C131** The squares of the errors are shared: for every affine map the sum of squares of the errors of the data is the number of
data times the square of the rms reported, plus the sum of squares of the error of the fitted transformation at the data. -/
theorem C131_shared (l : List Pair) (c : Corr) (h : fit fresh l = .ok c) (m : Affine) :
    misfit (cats l) m.app = l.length * c.rms ^ 2 + apart (cats l) (mapOf c) m.app := by
  obtain ⟨b, hb, e, ho⟩ := fit_best h
  have hn : (0 : ℝ) < l.length := by
    have := List.length_pos_of_ne_nil (fit_ne_nil ho)
    rw [cats, List.length_map] at this
    exact_mod_cast this
  rw [pythagoras hb m, ← e, rms_eq h, Real.sq_sqrt (div_nonneg (misfit_nonneg _ _) hn.le)]
  field_simp

/-- **C131** The mean of the first positions goes exactly to the mean of the second positions. -/
theorem C131_centre (l : List Pair) (c : Corr) (h : fit fresh l = .ok c) : mapOf c (centre (cats l)) = centre2 (cats l) := by
  obtain ⟨b, hb, e, ho⟩ := fit_best h
  have hl := fit_ne_nil ho
  have hn : ((cats l).length : ℝ) ≠ 0 := by
    have := List.length_pos_of_ne_nil hl
    positivity
  obtain ⟨s1, s2⟩ := sums hb
  have key : ∀ (t u v : ℝ) (f : (ℝ × ℝ) × (ℝ × ℝ) → ℝ) (l : List ((ℝ × ℝ) × (ℝ × ℝ))),
      (l.map fun q => f q - (t + u * q.1.1 + v * q.1.2)).sum =
        (l.map f).sum - (l.length * t + u * (l.map fun q => q.1.1).sum + v * (l.map fun q => q.1.2).sum) := by
    intro t u v f l
    induction l with
    | nil => simp
    | cons a l ih =>
      simp only [List.map_cons, List.sum_cons, List.length_cons]
      rw [ih]
      push_cast
      ring
  simp only [Affine.app] at s1 s2
  rw [key _ _ _ fun q => q.2.1] at s1
  rw [key _ _ _ fun q => q.2.2] at s2
  rw [e]
  unfold Affine.app centre centre2
  ext
  · simp only
    field_simp
    linarith
  · simp only
    field_simp
    linarith

/-- **C131** Errors of at most `ε`: the rms reported is at most `ε`, and the fitted transformation is off by at most
`ε √(1 + (r/σ)²)` at distance `r` from the mean of the data, which spread by at least `σ` in every direction. -/
theorem C131_noise (l : List Pair) (c : Corr) (h : fit fresh l = .ok c) (m : Affine) (ε : ℝ) (hε : 0 ≤ ε)
    (hd : ∀ q ∈ l, sqDist (q.x2, q.y2) (m.app (q.x1, q.y1)) ≤ ε ^ 2) :
    c.rms ≤ ε ∧ ∀ σ : ℝ, 0 < σ → Spread (cats l) σ → ∀ p : ℝ × ℝ,
      sqDist (mapOf c p) (m.app p) ≤ ε ^ 2 * (1 + sqDist p (centre (cats l)) / σ ^ 2) := by
  obtain ⟨b, hb, e, ho⟩ := fit_best h
  have hl := fit_ne_nil ho
  have hn : (0 : ℝ) < (cats l).length := by exact_mod_cast List.length_pos_of_ne_nil hl
  have hlen : ((cats l).length : ℝ) = l.length := by simp [cats]
  have hm : misfit (cats l) m.app ≤ (cats l).length * ε ^ 2 := by
    apply misfit_le
    intro q hq
    obtain ⟨p, hp, rfl⟩ := List.mem_map.1 hq
    exact hd p hp
  have hs := C131_shared l c h m
  rw [← hlen] at hs
  have ha := apart_nonneg (cats l) (mapOf c) m.app
  constructor
  · have : c.rms ^ 2 ≤ ε ^ 2 := by
      have := mul_nonneg hn.le (sq_nonneg c.rms)
      by_contra hc
      push Not at hc
      nlinarith
    exact (abs_le_of_sq_le_sq' this hε).2
  · intro σ hσ hsp p
    rw [e] at ha hs ⊢
    refine le_trans (everywhere (cats l) hl σ hσ hsp b m p) (mul_le_mul_of_nonneg_right ?_ ?_)
    · rw [div_le_iff₀ hn]
      nlinarith [mul_nonneg hn.le (sq_nonneg c.rms)]
    · unfold sqDist
      positivity

/-- **C131** The fitted transformation is the only affine map that fits as well. -/
theorem C131_unique (l : List Pair) (c : Corr) (h : fit fresh l = .ok c) (m : Affine)
    (hm : misfit (cats l) m.app ≤ misfit (cats l) (mapOf c)) (p : ℝ × ℝ) : mapOf c p = m.app p := by
  obtain ⟨b, hb, e, ho⟩ := fit_best h
  have h1 := pythagoras hb m
  rw [e] at hm ⊢
  have ha : apart (cats l) b.app m.app = 0 := le_antisymm (by linarith) (apart_nonneg _ _ _)
  have hz : ∀ q ∈ l, b.app (q.x1, q.y1) = m.app (q.x1, q.y1) := by
    intro q hq
    have h2 : sqDist (b.app (q.x1, q.y1)) (m.app (q.x1, q.y1)) ≤ 0 := by
      rw [← ha]
      refine List.single_le_sum ?_ _ (List.mem_map.2 ⟨((q.x1, q.y1), (q.x2, q.y2)), List.mem_map.2 ⟨q, hq, rfl⟩, rfl⟩)
      intro x hx
      obtain ⟨q, -, rfl⟩ := List.mem_map.1 hx
      unfold sqDist
      positivity
    unfold sqDist at h2
    ext
    · nlinarith [sq_nonneg ((b.app (q.x1, q.y1)).1 - (m.app (q.x1, q.y1)).1), sq_nonneg ((b.app (q.x1, q.y1)).2 - (m.app (q.x1, q.y1)).2)]
    · nlinarith [sq_nonneg ((b.app (q.x1, q.y1)).1 - (m.app (q.x1, q.y1)).1), sq_nonneg ((b.app (q.x1, q.y1)).2 - (m.app (q.x1, q.y1)).2)]
  by_contra hne
  apply ho
  by_cases hx : (b.t1 - m.t1, b.m11 - m.m11, b.m12 - m.m12) = (0, 0, 0)
  · by_cases hy : (b.t2 - m.t2, b.m21 - m.m21, b.m22 - m.m22) = (0, 0, 0)
    · exfalso
      apply hne
      simp only [Prod.mk.injEq, sub_eq_zero] at hx hy
      unfold Affine.app
      rw [hx.1, hx.2.1, hx.2.2, hy.1, hy.2.1, hy.2.2]
    · refine ⟨_, _, _, hy, ?_⟩
      intro q hq
      obtain ⟨r, hr, rfl⟩ := List.mem_map.1 hq
      have := congrArg Prod.snd (hz r hr)
      simp only [Affine.app] at this
      simp only
      linarith
  · refine ⟨_, _, _, hx, ?_⟩
    intro q hq
    obtain ⟨r, hr, rfl⟩ := List.mem_map.1 hq
    have := congrArg Prod.fst (hz r hr)
    simp only [Affine.app] at this
    simp only
    linarith

/-- **C131** The fit succeeds when the errors are small against the spread: positions spread by `σ`, errors of at most `ε`, and a true map whose
trace is larger than `√2 ε/σ`. -/
theorem C131_succeeds (l : List Pair) (hl : l ≠ []) (m : Affine) (ε σ : ℝ) (hσ : 0 < σ) (hs : Spread (cats l) σ)
    (hd : ∀ q ∈ l, sqDist (q.x2, q.y2) (m.app (q.x1, q.y1)) ≤ ε ^ 2) (ht : 2 * ε ^ 2 < σ ^ 2 * (m.m11 + m.m22) ^ 2) :
    ∃ c, fit fresh l = .ok c := by
  have hcl : cats l ≠ [] := by simpa [cats] using hl
  have hn : (0 : ℝ) < (cats l).length := by exact_mod_cast List.length_pos_of_ne_nil hcl
  have ho : ¬ OnLine (firsts l) := by
    rintro ⟨a, b, c, hne, hq⟩
    have hz : ∀ q ∈ cats l, a + b * q.1.1 + c * q.1.2 = 0 := by
      intro q hq'
      obtain ⟨r, hr, rfl⟩ := List.mem_map.1 hq'
      exact hq _ (List.mem_map.2 ⟨r, hr, rfl⟩)
    have h1 := split_sum (cats l) hcl (a + b * (centre (cats l)).1 + c * (centre (cats l)).2) b c
    have h0 : ((cats l).map fun q => (a + b * (centre (cats l)).1 + c * (centre (cats l)).2 +
        (b * (q.1.1 - (centre (cats l)).1) + c * (q.1.2 - (centre (cats l)).2))) ^ 2).sum = 0 := by
      apply List.sum_eq_zero
      intro x hx
      obtain ⟨q, hq', rfl⟩ := List.mem_map.1 hx
      have := hz q hq'
      have e : a + b * (centre (cats l)).1 + c * (centre (cats l)).2 +
        (b * (q.1.1 - (centre (cats l)).1) + c * (q.1.2 - (centre (cats l)).2)) = 0 := by linarith
      rw [e]
      norm_num
    rw [h0] at h1
    have h2 := hs b c
    have h3 : 0 ≤ (cats l).length * (a + b * (centre (cats l)).1 + c * (centre (cats l)).2) ^ 2 := by positivity
    have h4 : (cats l).length * σ ^ 2 * (b ^ 2 + c ^ 2) ≤ 0 := by linarith
    have h5 : b ^ 2 + c ^ 2 ≤ 0 := by
      by_contra hc
      push Not at hc
      have : 0 < (cats l).length * σ ^ 2 * (b ^ 2 + c ^ 2) := by positivity
      linarith
    have hb : b = 0 := by nlinarith [sq_nonneg b, sq_nonneg c]
    have hc : c = 0 := by nlinarith [sq_nonneg b, sq_nonneg c]
    obtain ⟨q, hq'⟩ := List.exists_mem_of_ne_nil _ hcl
    have := hz q hq'
    rw [hb, hc] at this
    exact hne (by rw [hb, hc, show a = 0 by linarith])
  have hdet : (gram design3 l).det ≠ 0 := fun e => ho ((gram3_iff l).1 e)
  have hb := best_solution hdet
  set ax := (gram design3 l)⁻¹.mulVec (moments design3 (·.x2) l) with hax
  set ay := (gram design3 l)⁻¹.mulVec (moments design3 (·.y2) l) with hay
  have htr : ax 1 + ay 2 ≠ 0 := by
    intro e
    have h1 := pythagoras hb m
    have hm : misfit (cats l) m.app ≤ (cats l).length * ε ^ 2 := by
      apply misfit_le
      intro q hq
      obtain ⟨p, hp, rfl⟩ := List.mem_map.1 hq
      exact hd p hp
    have h2 := apart_ge (cats l) hcl σ hs ⟨ax 0, ay 0, ax 1, ax 2, ay 1, ay 2⟩ m
    have h3 := misfit_nonneg (cats l) (⟨ax 0, ay 0, ax 1, ax 2, ay 1, ay 2⟩ : Affine).app
    have h4 : σ ^ 2 * slopes ⟨ax 0, ay 0, ax 1, ax 2, ay 1, ay 2⟩ m ≤ ε ^ 2 := by
      have h5 : (0 : ℝ) ≤ sqDist ((⟨ax 0, ay 0, ax 1, ax 2, ay 1, ay 2⟩ : Affine).app (centre (cats l))) (m.app (centre (cats l))) := by
        unfold sqDist
        positivity
      by_contra hc
      push Not at hc
      nlinarith
    have h6 : (m.m11 + m.m22) ^ 2 ≤ 2 * slopes ⟨ax 0, ay 0, ax 1, ax 2, ay 1, ay 2⟩ m := by
      unfold slopes
      dsimp only
      have e' : ay 2 = -ax 1 := by linarith
      rw [e']
      nlinarith [sq_nonneg ((ax 1 - m.m11) - (-ax 1 - m.m22)), sq_nonneg (ax 2 - m.m12), sq_nonneg (ay 1 - m.m21)]
    have h7 : σ ^ 2 * (m.m11 + m.m22) ^ 2 ≤ σ ^ 2 * (2 * slopes ⟨ax 0, ay 0, ax 1, ax 2, ay 1, ay 2⟩ m) :=
      mul_le_mul_of_nonneg_left h6 (by positivity)
    linarith
  obtain ⟨⟨r, sxx, syy, sxy⟩, hdec⟩ := (decompose_ok_iff fresh.rot_deg ax ay).2 htr
  obtain ⟨rms, hf⟩ := Verif.Lemmas.SimpleCorr.fit_ok hdet hax.symm hay.symm hdec
  exact ⟨_, hf⟩

/-- Four points measured with errors of 1/10: the hypotheses can be met. -/
example : ∃ (l : List Pair) (m : Affine), l ≠ [] ∧ Spread (cats l) 1 ∧ (∀ q ∈ l, sqDist (q.x2, q.y2) (m.app (q.x1, q.y1)) ≤ (1 / 10) ^ 2) ∧
    2 * (1 / 10 : ℝ) ^ 2 < 1 ^ 2 * (m.m11 + m.m22) ^ 2 ∧ ¬ ∃ m' : Affine, ∀ q ∈ l, (q.x2, q.y2) = m'.app (q.x1, q.y1) := by
  refine ⟨[⟨1, 1, 1 + 1 / 10, 1⟩, ⟨-1, 1, -1, 1⟩, ⟨-1, -1, -1, -1⟩, ⟨1, -1, 1, -1⟩], ⟨0, 0, 1, 0, 0, 1⟩, by simp, ?_, ?_, by norm_num, ?_⟩
  · intro u v
    norm_num [cats, centre]
    linarith
  · intro q hq
    simp only [List.mem_cons, List.not_mem_nil, or_false] at hq
    rcases hq with rfl | rfl | rfl | rfl <;> norm_num [sqDist, Affine.app]
  · rintro ⟨m', h⟩
    simp only [List.mem_cons, List.not_mem_nil, or_false, forall_eq_or_imp, forall_eq, Affine.app, Prod.mk.injEq] at h
    obtain ⟨⟨a, -⟩, ⟨b, -⟩, ⟨c, -⟩, ⟨d, -⟩⟩ := h
    linarith

end Verif.Props.FitNoise
