import Verif.Model.PerfReport
import Verif.Props.Int2ptl

/-!
# C87: errors, radii, numbers of images and the report of `analyze_pos_performance`
-/

namespace Verif.Props
open Verif.Py Verif.Model.Xy2qs Verif.Model.Int2ptl Verif.Model.PerfReport Verif.Spec Verif.Lemmas.Xy2qs Verif.Lemmas.Trig

namespace Pfx

/-- The distance of the fibre from the axis of its positioner when the second motor is at `p` degrees. -/
noncomputable def arm (c : Cal) (p : ℝ) : ℝ := Real.sqrt (c.r1 ^ 2 + c.r2 ^ 2 + 2 * c.r1 * c.r2 * Real.cos ((p + c.pOff) * Real.pi / 180))

theorem arm_tip (c : Cal) (t p : ℝ) : arm c p = dist2 (Int2ptl.tip c t p) (c.x, c.y) := by
  unfold arm dist2 Int2ptl.tip
  congr 1
  have e : (p + c.pOff) * Real.pi / 180 = (t + c.tOff + p + c.pOff) * Real.pi / 180 - (t + c.tOff) * Real.pi / 180 := by ring
  rw [e, Real.cos_sub]
  generalize (t + c.tOff + p + c.pOff) * Real.pi / 180 = a
  generalize (t + c.tOff) * Real.pi / 180 = b
  have h1 := Real.sin_sq_add_cos_sq a
  have h2 := Real.sin_sq_add_cos_sq b
  have e1 : c.r1 ^ 2 = c.r1 ^ 2 * (Real.sin b ^ 2 + Real.cos b ^ 2) := by rw [h2, mul_one]
  have e2 : c.r2 ^ 2 = c.r2 ^ 2 * (Real.sin a ^ 2 + Real.cos a ^ 2) := by rw [h1, mul_one]
  rw [e1, e2]
  dsimp only
  ring

theorem hypot_dist2 (p q : ℝ × ℝ) : hypot (p.1 - q.1) (p.2 - q.2) = dist2 p q := rfl

theorem dist2_comm (p q : ℝ × ℝ) : dist2 p q = dist2 q p := by
  unfold dist2
  congr 1
  ring

theorem flat_scale (x y : ℝ) : hypot x y * (ptl2flat x y).1 = r2s (hypot x y) * x ∧ hypot x y * (ptl2flat x y).2 = r2s (hypot x y) * y := by
  have hc : Real.cos (atan2 y x) = Model.Trig.cosd (Model.Trig.arctan2d y x) := by
    rw [Model.Trig.arctan2d, cosd_same (put360_same _), Model.Trig.cosd, radians_degrees]
  have hs : Real.sin (atan2 y x) = Model.Trig.sind (Model.Trig.arctan2d y x) := by
    rw [Model.Trig.arctan2d, sind_same (put360_same _), Model.Trig.sind, radians_degrees]
  have hx := cosd_arctan2d x y
  have hy := sind_arctan2d x y
  simp only [ptl2flat, hc, hs]
  constructor
  · rw [← mul_assoc, mul_comm (hypot x y), mul_assoc, hx]
  · rw [← mul_assoc, mul_comm (hypot x y), mul_assoc, hy]

theorem hypot_flat {x y : ℝ} (h : hypot x y ≤ 450) : hypot (ptl2flat x y).1 (ptl2flat x y).2 = r2s (hypot x y) := by
  have hp := r2s_pos (hypot_nonneg x y) h
  simp only [ptl2flat]
  generalize r2s (hypot x y) = s at hp
  unfold hypot
  rw [show (s * Real.cos (atan2 y x)) ^ 2 + (s * Real.sin (atan2 y x)) ^ 2 = s ^ 2 * (Real.sin (atan2 y x) ^ 2 + Real.cos (atan2 y x) ^ 2) by ring,
    Real.sin_sq_add_cos_sq, mul_one, Real.sqrt_sq hp.le]

theorem flat_inj {p q : ℝ × ℝ} (hp : radius p ≤ 431) (hq : radius q ≤ 431) (h : ptl2flat p.1 p.2 = ptl2flat q.1 q.2) : p = q := by
  have hp' : hypot p.1 p.2 ≤ 431 := hp
  have hq' : hypot q.1 q.2 ≤ 431 := hq
  have h1 := hypot_flat (x := p.1) (y := p.2) (by linarith)
  have h2 := hypot_flat (x := q.1) (y := q.2) (by linarith)
  rw [h, h2] at h1
  have hr : hypot p.1 p.2 = hypot q.1 q.2 := by
    rcases lt_trichotomy (hypot p.1 p.2) (hypot q.1 q.2) with h' | h' | h'
    · have := (r2s_slope _ _ (hypot_nonneg p.1 p.2) h'.le (by linarith)).1
      linarith
    · exact h'
    · have := (r2s_slope _ _ (hypot_nonneg q.1 q.2) h'.le (by linarith)).1
      linarith
  obtain ⟨a1, a2⟩ := flat_scale p.1 p.2
  obtain ⟨b1, b2⟩ := flat_scale q.1 q.2
  have hpos := r2s_pos (hypot_nonneg q.1 q.2) (by linarith)
  rw [hr, h] at a1 a2
  ext
  · exact mul_left_cancel₀ hpos.ne' (a1.symm.trans b1)
  · exact mul_left_cancel₀ hpos.ne' (a2.symm.trans b2)

theorem dist2_zero {p q : ℝ × ℝ} : dist2 p q = 0 ↔ p = q := by
  unfold dist2
  rw [Real.sqrt_eq_zero (by positivity)]
  constructor
  · intro h
    have h1 : (p.1 - q.1) ^ 2 = 0 := by nlinarith [sq_nonneg (p.1 - q.1), sq_nonneg (p.2 - q.2)]
    have h2 : (p.2 - q.2) ^ 2 = 0 := by nlinarith [sq_nonneg (p.1 - q.1), sq_nonneg (p.2 - q.2)]
    rw [sq_eq_zero_iff, sub_eq_zero] at h1 h2
    exact Prod.ext h1 h2
  · rintro rfl
    ring

/-- What `calc_errors` computes for a row. -/
noncomputable def outOf (r : Pt) : Out :=
  finish r.cal (ptl2flat r.meas.1 r.meas.2)
    (ptl2flat (flat2ptl (Int2ptl.tip r.cal r.t r.p).1 (Int2ptl.tip r.cal r.t r.p).2).1 (flat2ptl (Int2ptl.tip r.cal r.t r.p).1 (Int2ptl.tip r.cal r.t r.p).2).2)
    (ptl2flat r.req.1 r.req.2)

theorem calcErrors_eq (rows : List Pt) : calcErrors rows = .ok (rows.map outOf) := by
  have hcol : ∀ (f : Pt → ℝ) (d : Pt), rows.map f = Int2ptl.col rows.length fun i => f (rows.getD i d) := by
    intro f d
    unfold Int2ptl.col
    apply List.ext_getElem
    · simp
    · intro i h1 h2
      simp only [List.length_map] at h1
      rw [List.getElem_map, List.getElem_map, List.getElem_range, List.getD_eq_getElem?_getD, List.getElem?_eq_getElem h1]
      rfl
  let d : Pt := ⟨(0, 0), (0, 0), 0, 0, ⟨0, 0, 0, 0, 0, 0⟩⟩
  have hint : int2ptl (rows.map (·.t)) (rows.map (·.p)) (rows.map (·.cal.r1)) (rows.map (·.cal.r2)) (rows.map (·.cal.tOff))
      (rows.map (·.cal.pOff)) (rows.map (·.cal.x)) (rows.map (·.cal.y)) =
      .ok (rows.map fun r => (flat2ptl (Int2ptl.tip r.cal r.t r.p).1 (Int2ptl.tip r.cal r.t r.p).2).1,
        rows.map fun r => (flat2ptl (Int2ptl.tip r.cal r.t r.p).1 (Int2ptl.tip r.cal r.t r.p).2).2) := by
    have := Int2ptl.int2ptl_run rows.length (fun i => (rows.getD i d).t) (fun i => (rows.getD i d).p) (fun i => (rows.getD i d).cal)
    simp only [hcol _ d]
    exact this
  have hb : ∀ (f g : Pt → ℝ), bcast2 ptl2flat (rows.map f) (rows.map g) = .ok (rows.map fun r => ptl2flat (f r) (g r)) := by
    intro f g
    unfold bcast2
    rw [if_pos (by simp), List.zipWith_map, List.zipWith_self]
  unfold calcErrors
  rw [hint, hb, hb]
  simp only [bind, Except.bind, pure, Except.pure]
  rw [hb]
  dsimp only
  congr 1
  rw [List.zip_map', List.zip_map']
  have : ∀ (l : List Pt) (f : Pt → (ℝ × ℝ) × (ℝ × ℝ) × ℝ × ℝ), (l.zip (l.map f)).map (fun x => finish x.1.cal x.2.1 x.2.2.1 x.2.2.2) =
      l.map fun r => finish r.cal (f r).1 (f r).2.1 (f r).2.2 := by
    intro l f
    induction l with
    | nil => rfl
    | cons a l ih => rw [List.map_cons, List.zip_cons_cons, List.map_cons, ih]; rfl
  rw [this]
  rfl

end Pfx

open Pfx

/-- C87: for every row the error of the requested target is the distance of the measured from the requested point in flattened coordinates,
zero exactly if they are the same point; the error of the tracked target is the distance from the tip of the arms to 5 microns; the two differ
at most by the distance of the tip from the requested point, and the same 5 microns. -/
theorem C87_errors (rows : List Pt) :
    ∃ out, calcErrors rows = .ok out ∧ List.Forall₂ (fun r o =>
      o.errReq = dist2 (ptl2flat r.meas.1 r.meas.2) (ptl2flat r.req.1 r.req.2) ∧
      (radius r.meas ≤ 431 → radius r.req ≤ 431 → (o.errReq = 0 ↔ r.meas = r.req)) ∧
      (radius (Int2ptl.tip r.cal r.t r.p) ≤ 431 →
        |o.errTracked - dist2 (ptl2flat r.meas.1 r.meas.2) (Int2ptl.tip r.cal r.t r.p)| ≤ 5 / 1000 ∧
        |o.errTracked - o.errReq| ≤ dist2 (ptl2flat r.req.1 r.req.2) (Int2ptl.tip r.cal r.t r.p) + 5 / 1000)) rows out := by
  refine ⟨_, calcErrors_eq rows, ?_⟩
  rw [List.forall₂_map_right_iff]
  apply List.forall₂_same.2
  intro r _
  have e1 : (outOf r).errReq = dist2 (ptl2flat r.meas.1 r.meas.2) (ptl2flat r.req.1 r.req.2) := rfl
  refine ⟨e1, ?_, ?_⟩
  · intro h1 h2
    rw [e1, dist2_zero]
    constructor
    · exact flat_inj h1 h2
    · intro h; rw [h]
  · intro h
    have hb := Int2ptl.flat_ptl_flat _ _ (show radius ((Int2ptl.tip r.cal r.t r.p).1, (Int2ptl.tip r.cal r.t r.p).2) ≤ 431 from h)
    have e2 : (outOf r).errTracked = dist2 (ptl2flat r.meas.1 r.meas.2)
        (ptl2flat (flat2ptl (Int2ptl.tip r.cal r.t r.p).1 (Int2ptl.tip r.cal r.t r.p).2).1 (flat2ptl (Int2ptl.tip r.cal r.t r.p).1 (Int2ptl.tip r.cal r.t r.p).2).2) := rfl
    rw [e1, e2]
    rw [Prod.mk.eta] at hb
    generalize ptl2flat (flat2ptl (Int2ptl.tip r.cal r.t r.p).1 (Int2ptl.tip r.cal r.t r.p).2).1 (flat2ptl (Int2ptl.tip r.cal r.t r.p).1 (Int2ptl.tip r.cal r.t r.p).2).2 = f at hb ⊢
    generalize Int2ptl.tip r.cal r.t r.p = q at hb ⊢
    generalize ptl2flat r.meas.1 r.meas.2 = m
    generalize ptl2flat r.req.1 r.req.2 = g
    have t1 := Int2ptl.dist2_triangle m q f
    have t2 := Int2ptl.dist2_triangle m f q
    have t3 := Int2ptl.dist2_triangle m g q
    have t4 := Int2ptl.dist2_triangle m q g
    rw [dist2_comm q f] at t1
    rw [dist2_comm q g] at t4
    constructor <;> rw [abs_le] <;> constructor <;> linarith

/-- C87: the radius of the tracked target is the distance of the fibre from the axis of the positioner, which depends on the second angle
only, to 5 microns; that of the requested target is the distance of this from the axis; the measured point written out differs from the one
read by at most 5 microns. -/
theorem C87_radii (rows : List Pt) (out : List Out) (h : calcErrors rows = .ok out) :
    List.Forall₂ (fun r o =>
      (radius (Int2ptl.tip r.cal r.t r.p) ≤ 431 → |o.radTracked - arm r.cal r.p| ≤ 5 / 1000) ∧
      o.radReq = dist2 (ptl2flat r.req.1 r.req.2) (r.cal.x, r.cal.y) ∧
      (radius r.meas ≤ 431 → dist2 o.ptlMeas r.meas ≤ 5 / 1000)) rows out := by
  rw [calcErrors_eq] at h
  injection h with h
  subst h
  rw [List.forall₂_map_right_iff]
  apply List.forall₂_same.2
  intro r _
  refine ⟨?_, rfl, ?_⟩
  · intro h
    have hb := Int2ptl.flat_ptl_flat _ _ (show radius ((Int2ptl.tip r.cal r.t r.p).1, (Int2ptl.tip r.cal r.t r.p).2) ≤ 431 from h)
    rw [arm_tip r.cal r.t r.p]
    have e2 : (outOf r).radTracked = dist2
        (ptl2flat (flat2ptl (Int2ptl.tip r.cal r.t r.p).1 (Int2ptl.tip r.cal r.t r.p).2).1 (flat2ptl (Int2ptl.tip r.cal r.t r.p).1 (Int2ptl.tip r.cal r.t r.p).2).2) (r.cal.x, r.cal.y) := rfl
    rw [e2]
    rw [Prod.mk.eta] at hb
    generalize ptl2flat (flat2ptl (Int2ptl.tip r.cal r.t r.p).1 (Int2ptl.tip r.cal r.t r.p).2).1 (flat2ptl (Int2ptl.tip r.cal r.t r.p).1 (Int2ptl.tip r.cal r.t r.p).2).2 = f at hb ⊢
    generalize Int2ptl.tip r.cal r.t r.p = q at hb ⊢
    have t1 := Int2ptl.dist2_triangle f q (r.cal.x, r.cal.y)
    have t2 := Int2ptl.dist2_triangle q f (r.cal.x, r.cal.y)
    rw [dist2_comm q f] at t2
    rw [abs_le]
    constructor <;> linarith
  · intro h
    have := (C12_uv_flat r.meas.1 r.meas.2 h).2
    have e : (outOf r).ptlMeas = flat2ptl (ptl2flat r.meas.1 r.meas.2).1 (ptl2flat r.meas.1 r.meas.2).2 := rfl
    rw [e, this]
    obtain ⟨a, ρ, -, -, -, -, -, -, -, -, -, h'⟩ := C12_qs_round_trip r.meas.1 r.meas.2 h
    exact h'

/-- A positioner at 100 mm from the centre, with arms of 3 mm, stays within the hypotheses whatever the angles. -/
example (t p : ℝ) : radius (Int2ptl.tip ⟨3, 3, 0, 0, 100, 0⟩ t p) ≤ 431 := by
  have h := arm_tip ⟨3, 3, 0, 0, 100, 0⟩ t p
  have h1 : arm ⟨3, 3, 0, 0, 100, 0⟩ p ≤ 6 := by
    unfold arm
    rw [Real.sqrt_le_left (by norm_num)]
    have := Real.cos_le_one ((p + 0) * Real.pi / 180)
    dsimp only
    linarith
  rw [h] at h1
  have h2 := Int2ptl.dist2_triangle (Int2ptl.tip ⟨3, 3, 0, 0, 100, 0⟩ t p) (100, 0) (0, 0)
  have h3 : dist2 ((100, 0) : ℝ × ℝ) (0, 0) = 100 := by
    unfold dist2
    rw [show ((100, 0) : ℝ × ℝ).1 = 100 from rfl, show ((100, 0) : ℝ × ℝ).2 = 0 from rfl]
    norm_num
    rw [show (10000 : ℝ) = 100 ^ 2 by norm_num, Real.sqrt_sq (by norm_num)]
  have h4 : radius (Int2ptl.tip ⟨3, 3, 0, 0, 100, 0⟩ t p) = dist2 (Int2ptl.tip ⟨3, 3, 0, 0, 100, 0⟩ t p) (0, 0) := by
    unfold radius dist2
    simp
  rw [h4]
  dsimp only at h1
  linarith

/-! ### Numbers of images -/

/-- C87: the number of images of a row is the number of iterations since the row before it, unknown for the first row of the table and where
the iteration is zero. -/
theorem C87_images (rows : List Shot) (h : rows ≠ []) :
    ∃ ns, numImages rows = .ok ns ∧ ns.length = rows.length ∧ ns[0]? = some (-1) ∧
    ∀ i a b, rows[i]? = some a → rows[i + 1]? = some b → ns[i + 1]? = some (if b.2 = 0 then -1 else b.2 - a.2) := by
  have he : rows.isEmpty = false := by rw [← Bool.not_eq_true, List.isEmpty_iff]; exact h
  unfold numImages
  rw [he]
  refine ⟨_, rfl, ?_, ?_, ?_⟩
  · have := List.length_pos_iff.2 h
    simp only [List.length_zipWith, List.length_cons, List.length_tail]
    omega
  · cases rows with
    | nil => exact absurd rfl h
    | cons a t => simp
  · intro i a b ha hb
    rw [List.getElem?_zipWith, List.getElem?_cons_succ, List.getElem?_zipWith, ha, List.getElem?_tail, hb]

/-- C87: in a table in order, without two rows of the same exposure and iteration, a row that is not the first one of its exposure has a positive
number of images, and there is no row of the exposure within them. -/
theorem C87_images_within (rows : List Shot) (hs : rows.Pairwise fun a b => a.1 < b.1 ∨ a.1 = b.1 ∧ a.2 < b.2) (h0 : ∀ r ∈ rows, 0 ≤ r.2)
    (ns : List ℤ) (h : numImages rows = .ok ns) (i : ℕ) (b : Shot) (n : ℤ) (hb : rows[i]? = some b) (hn : ns[i]? = some n)
    (hfirst : ∃ r ∈ rows, r.1 = b.1 ∧ r.2 < b.2) :
    0 < n ∧ (b.1, b.2 - n) ∈ rows ∧ ∀ r ∈ rows, r.1 = b.1 → r.2 ≤ b.2 - n ∨ b.2 ≤ r.2 := by
  have hne : rows ≠ [] := by rintro rfl; simp at hb
  obtain ⟨ns', e, -, -, hall⟩ := C87_images rows hne
  rw [h] at e
  injection e with e
  subst e
  obtain ⟨r, hr, hr1, hr2⟩ := hfirst
  obtain ⟨hi, hbi⟩ := List.getElem?_eq_some_iff.1 hb
  obtain ⟨j, hj, hrj⟩ := List.getElem_of_mem hr
  have hpw := List.pairwise_iff_getElem.1 hs
  have hji : j < i := by
    rcases lt_trichotomy j i with h' | h' | h'
    · exact h'
    · subst h'; rw [hrj] at hbi; rw [hbi] at hr2; exact absurd hr2 (lt_irrefl _)
    · have := hpw i j hi hj h'
      rw [hbi, hrj] at this
      rcases this with h | ⟨-, h⟩
      · rw [hr1] at h; exact absurd h (lt_irrefl _)
      · exact absurd (hr2.trans h) (lt_irrefl _)
  obtain ⟨k, rfl⟩ : ∃ k, i = k + 1 := ⟨i - 1, by omega⟩
  have hk : k < rows.length := by omega
  have hval := hall k rows[k] b (List.getElem?_eq_getElem hk) hb
  rw [hn] at hval
  injection hval with hval
  have hkb := hpw k (k + 1) hk hi (by omega)
  rw [hbi] at hkb
  have hkr : k = j ∨ (rows[j]'hj).1 < rows[k].1 ∨ (rows[j]'hj).1 = rows[k].1 ∧ (rows[j]'hj).2 < rows[k].2 := by
    rcases Nat.lt_or_ge j k with h' | h'
    · exact Or.inr (hpw j k hj hk h')
    · exact Or.inl (by omega)
  have hke : rows[k].1 = b.1 := by
    rcases hkb with h' | ⟨h', -⟩
    · rcases hkr with rfl | h'' | ⟨h'', -⟩
      · rw [hrj, hr1] at h'; exact absurd h' (lt_irrefl _)
      · rw [hrj, hr1] at h''; exact absurd (h''.trans h') (lt_irrefl _)
      · rw [hrj, hr1] at h''; exact h''.symm
    · exact h'
  have hk2 : rows[k].2 < b.2 := by
    rcases hkb with h' | ⟨-, h'⟩
    · rw [hke] at h'; exact absurd h' (lt_irrefl _)
    · exact h'
  have hk0 := h0 _ (List.getElem_mem hk)
  rw [if_neg (by omega)] at hval
  have hbn : b.2 - n = rows[k].2 := by omega
  refine ⟨by omega, ?_, ?_⟩
  · rw [hbn, ← hke]
    exact List.getElem_mem hk
  · intro r' hr' he
    obtain ⟨m, hm, rfl⟩ := List.getElem_of_mem hr'
    rw [hbn]
    rcases lt_trichotomy m k with h' | h' | h'
    · have := hpw m k hm hk h'
      rw [hke, he] at this
      rcases this with h'' | ⟨-, h''⟩
      · exact absurd h'' (lt_irrefl _)
      · exact Or.inl h''.le
    · subst h'; exact Or.inl (le_refl _)
    · rcases Nat.lt_or_ge (k + 1) m with h'' | h''
      · have := hpw (k + 1) m hi hm h''
        rw [hbi, he] at this
        rcases this with h3 | ⟨-, h3⟩
        · exact absurd h3 (lt_irrefl _)
        · exact Or.inr h3.le
      · obtain rfl : m = k + 1 := by omega
        rw [hbi]
        exact Or.inr (le_refl _)

/-- **C87** (finding) the first row of a later exposure, if its iteration is not zero, gets the difference from the last iteration of the exposure
before, which may be zero, negative, or the value that stands for an unknown number. -/
theorem C87_images_across (e : ℤ) (i j : ℤ) (hj : j ≠ 0) : numImages [(e, i), (e + 1, j)] = .ok [-1, j - i] := by
  simp [numImages, hj]

/-- The three cases. -/
example : numImages [(1, 0), (1, 5), (2, 1), (3, 1)] = .ok [-1, 5, -4, 0] ∧ numImages [(1, 5), (2, 4)] = .ok [-1, -1] := by decide

/-! ### The report -/

/-- C87: the plots fit into the rows and columns chosen, of which there are at most three columns, and neither a row nor a column is empty;
without plots it is an error. -/
theorem C87_dims (n : ℕ) : (n = 0 → dims n = .error .zeroDivision) ∧
    (0 < n → ∃ r c, dims n = .ok (r, c) ∧ n ≤ r * c ∧ 0 < r ∧ 0 < c ∧ c ≤ 3 ∧ (r - 1) * c < n ∧ r * (c - 1) < n) := by
  constructor
  · rintro rfl; rfl
  · intro hn
    unfold dims
    dsimp only
    rw [if_neg (by omega)]
    refine ⟨_, _, rfl, ?_⟩
    set r := (n + 2) / 3 with hr
    have hr0 : 0 < r := by omega
    have h1 : r * 3 ≤ n + 2 := Nat.div_mul_le_self _ _
    have h2 : n + 2 < 3 * r + 3 := by omega
    set c := (n + r - 1) / r with hc
    have h3 : c * r ≤ n + r - 1 := Nat.div_mul_le_self _ _
    have h4 : n + r - 1 < r * (c + 1) := by
      have := Nat.lt_mul_div_succ (n + r - 1) hr0
      rw [← hc] at this
      exact this
    have h5 : r * (c + 1) = r * c + r := by ring
    have h6 : c * r = r * c := by ring
    have hc0 : 0 < c := by
      rcases Nat.eq_zero_or_pos c with h | h
      · rw [h] at h4; simp at h4; omega
      · exact h
    have hc3 : c ≤ 3 := by
      by_contra h
      have : r * 4 ≤ r * c := Nat.mul_le_mul_left _ (by omega)
      omega
    refine ⟨by omega, hr0, hc0, hc3, ?_, ?_⟩
    · rcases Nat.eq_or_lt_of_le hc3 with h | h
      · rw [h]; omega
      · obtain ⟨k, hk⟩ : ∃ k, r = k + 1 := ⟨r - 1, by omega⟩
        rw [hk] at h1 ⊢
        have : k * c ≤ k * 2 := Nat.mul_le_mul_left _ (by omega)
        rw [Nat.add_sub_cancel]
        omega
    · obtain ⟨k, hk⟩ : ∃ k, c = k + 1 := ⟨c - 1, by omega⟩
      rw [hk] at h6 h3 ⊢
      rw [Nat.add_sub_cancel]
      have : r * (k + 1) = r * k + r := by ring
      omega

/-- C87: a single submove is named as it is. -/
theorem C87_submove (s : ℕ) : submovesStr [s] true = .ok (toString s).toList ∧ submovesStr [s] false = .ok ("Submove: ".toList ++ (toString s).toList) := by
  have h : (toString s).toList = Nat.toDigits 10 s := by
    show (Nat.repr s).toList = _
    unfold Nat.repr
    simp
  rw [h]
  have e : joinStr ['-'] [str s] = str s := by simp [joinStr, List.intercalate]
  have e' : joinStr [',', ' '] [str s] = str s := by simp [joinStr, List.intercalate]
  constructor
  · show Except.ok (joinStr ['-'] [str s]) = _
    rw [e]; rfl
  · show Except.ok ("Submove".toList ++ [] ++ [':', ' '] ++ joinStr [',', ' '] [str s]) = _
    rw [e']; rfl

/-- **C87** (finding) of several submoves only the first one is named, also where the text is in the plural. -/
theorem C87_submoves_lost (s t : ℕ) (rest : List ℕ) :
    submovesStr (s :: t :: rest) true = submovesStr [s] true ∧ submovesStr (s :: t :: rest) false = .ok ("Submoves: ".toList ++ (toString s).toList) := by
  have h : (toString s).toList = str s := by
    show (Nat.repr s).toList = _
    unfold Nat.repr str
    simp
  have e : joinStr ['-'] [str s] = str s := by simp [joinStr, List.intercalate]
  have hl : (s :: t :: rest).length > 1 := by simp
  constructor
  · have : submovesStr [s] true = .ok (joinStr ['-'] [str s]) := rfl
    rw [this, e]
    unfold submovesStr
    simp
  · rw [h]
    unfold submovesStr
    simp

/-- C87: the text for a set of exposures does not depend on order or repetitions, is never longer than the list of all of them, and is this list
unless there are more than two. -/
theorem C87_condensed (vals : List ℕ) (b : Bool) :
    (∀ vals' : List ℕ, (∀ x, x ∈ vals ↔ x ∈ vals') → condensed vals b = condensed vals' b) ∧
    (let all := [if b then '-' else ','].intercalate ((vals.toFinset.sort (· ≤ ·)).map fun n => (toString n).toList)
     (condensed vals b).length ≤ all.length ∧ (vals.toFinset.card ≤ 2 → condensed vals b = all)) := by
  have hstr : (fun n : ℕ => (toString n).toList) = str := by
    funext n
    show (Nat.repr n).toList = _
    unfold Nat.repr str
    simp
  constructor
  · intro vals' h
    have : vals.toFinset = vals'.toFinset := by ext x; simp [h x]
    unfold condensed
    rw [this]
  · dsimp only
    rw [hstr]
    have hsep : (if b = true then ['-'] else [',']) = [if b = true then '-' else ','] := by cases b <;> rfl
    unfold condensed joinStr
    dsimp only
    rw [hsep]
    generalize [if b = true then '-' else ','] = sep
    constructor
    · split
      · rename_i h; exact h.2.le
      · exact le_refl _
    · intro h
      rw [if_neg]
      rw [Finset.length_sort]
      omega

/-- C87: where the short form is used it gives the first exposure, the number of those left out and the last one; it is used if and only if there are
more than two and it is shorter. -/
theorem C87_short (a z : ℕ) (mid : List ℕ) (hs : (a :: (mid ++ [z])).Pairwise (· < ·)) (b : Bool) :
    let sep := [if b then '-' else ',']
    let txt := fun n : ℕ => (toString n).toList
    let short := txt a ++ sep ++ ("(".toList ++ txt mid.length ++ "-more)".toList) ++ sep ++ txt z
    let all := sep.intercalate ((a :: (mid ++ [z])).map txt)
    condensed (a :: (mid ++ [z])) b = if mid ≠ [] ∧ short.length < all.length then short else all := by
  have hstr : (fun n : ℕ => (toString n).toList) = str := by
    funext n
    show (Nat.repr n).toList = _
    unfold Nat.repr str
    simp
  have hsort : (a :: (mid ++ [z])).toFinset.sort (· ≤ ·) = a :: (mid ++ [z]) :=
    (List.toFinset_sort _ (hs.imp (fun h => h.ne))).2 (hs.imp (fun h => h.le))
  have hsep : (if b = true then ['-'] else [',']) = [if b = true then '-' else ','] := by cases b <;> rfl
  intro sep' txt
  have htxt : txt = str := hstr
  clear_value txt
  subst htxt
  subst sep'
  dsimp only
  unfold condensed joinStr
  dsimp only
  rw [hsort, hsep]
  generalize (if b = true then '-' else ',') = sep
  have hlen : (a :: (mid ++ [z])).length = mid.length + 2 := by simp
  have hlast : (a :: (mid ++ [z])).getLastD 0 = z := by
    rw [← List.cons_append, List.getLastD_eq_getLast?, List.getLast?_append]; rfl
  have hgt : (a :: (mid ++ [z])).length > 2 ↔ mid ≠ [] := by
    rw [hlen, ← List.length_pos_iff]; omega
  rw [hlast]
  simp only [hgt]
  rw [hlen]
  have hshort : [sep].intercalate [str ((a :: (mid ++ [z])).headD 0), "(".toList ++ str (mid.length + 2 - 2) ++ "-more)".toList, str z] =
      str a ++ [sep] ++ ("(".toList ++ str mid.length ++ "-more)".toList) ++ [sep] ++ str z := by
    simp [List.intercalate]
  rw [hshort]

/-- **C87** (finding) different sets of exposures can have the same text, which is the name of the output files: it is determined by the first,
the last and the number of exposures. -/
theorem C87_same_name : condensed [10001, 10002, 10008, 10009] true = condensed [10001, 10003, 10007, 10009] true ∧
    condensed [10001, 10002, 10008, 10009] true = "10001-(2-more)-10009".toList := by
  have h1 : [10001, 10002, 10008, 10009].toFinset.sort (· ≤ ·) = [10001, 10002, 10008, 10009] := (List.toFinset_sort _ (by decide)).2 (by decide)
  have h2 : [10001, 10003, 10007, 10009].toFinset.sort (· ≤ ·) = [10001, 10003, 10007, 10009] := (List.toFinset_sort _ (by decide)).2 (by decide)
  unfold condensed
  rw [h1, h2]
  decide

/-- `sorted` meets the hypothesis of the next theorem. -/
example (ρ : Type) : ∃ order : List (ρ × ℝ) → List (ρ × ℝ), ∀ l, (order l).Perm l ∧ (order l).Pairwise fun a b => b.2 ≤ a.2 := by
  classical
  refine ⟨List.insertionSort fun a b => b.2 ≤ a.2, fun l => ⟨List.perm_insertionSort _ _, ?_⟩⟩
  have : Std.Total (fun a b : ρ × ℝ => b.2 ≤ a.2) := ⟨fun a b => le_total _ _⟩
  have : IsTrans (ρ × ℝ) (fun a b => b.2 ≤ a.2) := ⟨fun a b c h1 h2 => h2.trans h1⟩
  exact List.pairwise_insertionSort _ _

/-- C87: the rows listed with the largest errors are those that count, each at most as often as it is in the table, in the order of their errors;
no row left out has a larger error than one listed, and as many are listed as asked for or as there are. -/
theorem C87_top {ρ : Type} (order : List (ρ × ℝ) → List (ρ × ℝ)) (ho : ∀ l, (order l).Perm l ∧ (order l).Pairwise fun a b => b.2 ≤ a.2)
    (keep : ρ → Bool) (n : ℕ) (rows : List (ρ × ℝ)) :
    (top order keep n rows).Pairwise (fun a b => b.2 ≤ a.2) ∧ (top order keep n rows).length = min n (rows.filter fun r => keep r.1).length ∧
    ∃ rest, (top order keep n rows ++ rest).Perm (rows.filter fun r => keep r.1) ∧ ∀ a ∈ top order keep n rows, ∀ b ∈ rest, b.2 ≤ a.2 := by
  unfold top
  obtain ⟨h1, h2⟩ := ho (rows.filter fun r => keep r.1)
  refine ⟨h2.sublist (List.take_sublist _ _), by rw [List.length_take, h1.length_eq], (order (rows.filter fun r => keep r.1)).drop n, ?_, ?_⟩
  · rw [List.take_append_drop]; exact h1
  · intro a ha b hb
    rw [← List.take_append_drop n (order (rows.filter fun r => keep r.1)), List.pairwise_append] at h2
    exact h2.2.2 a ha b hb

end Verif.Props
