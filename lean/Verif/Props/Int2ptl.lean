import Verif.Model.Int2ptl
import Verif.Props.Pos2ptl
import Verif.Props.Xy2qs

/-!
# Property C76: from internal angles to petal coordinates and back (`int2ptl`, `ptl2int`)
-/

namespace Verif.Props.Int2ptl
open Verif.Py Verif.Model.Xy2tp Verif.Model.Pos2ptl Verif.Model.Xy2qs Verif.Model.Int2ptl Verif.Spec Verif.Lemmas.Xy2tp Verif.Lemmas
open Verif.Lemmas.Xy2qs Verif.Lemmas.Trig Verif.Props

/-- Where the fibre is, in the flattened petal, when the motors are at `t` and `p` degrees. -/
noncomputable def tip (c : Cal) (t p : ℝ) : ℝ × ℝ :=
  (c.x + (c.r1 * Real.cos ((t + c.tOff) * Real.pi / 180) + c.r2 * Real.cos ((t + c.tOff + p + c.pOff) * Real.pi / 180)),
   c.y + (c.r1 * Real.sin ((t + c.tOff) * Real.pi / 180) + c.r2 * Real.sin ((t + c.tOff + p + c.pOff) * Real.pi / 180)))

theorem tip_tp2xy (c : Cal) (t p : ℝ) :
    tip c t p = ((tp2xy (t + c.tOff, p + c.pOff) c.r1 c.r2).1 + c.x, (tp2xy (t + c.tOff, p + c.pOff) c.r1 c.r2).2 + c.y) := by
  have e1 : radians (t + c.tOff) = (t + c.tOff) * Real.pi / 180 := by unfold radians; ring
  have e2 : radians (t + c.tOff) + radians (p + c.pOff) = (t + c.tOff + p + c.pOff) * Real.pi / 180 := by unfold radians; ring
  unfold tp2xy tip
  dsimp only
  rw [e2, e1]
  congr 1 <;> ring

/-- The columns of a table of calibrations. -/
def col (n : ℕ) (f : ℕ → ℝ) : List ℝ := (List.range n).map f

theorem int2ptl_run (n : ℕ) (t p : ℕ → ℝ) (c : ℕ → Cal) :
    int2ptl (col n t) (col n p) (col n fun i => (c i).r1) (col n fun i => (c i).r2) (col n fun i => (c i).tOff)
      (col n fun i => (c i).pOff) (col n fun i => (c i).x) (col n fun i => (c i).y) =
      .ok (col n fun i => (flat2ptl (tip (c i) (t i) (p i)).1 (tip (c i) (t i) (p i)).2).1,
        col n fun i => (flat2ptl (tip (c i) (t i) (p i)).1 (tip (c i) (t i) (p i)).2).2) := by
  unfold int2ptl
  have h1 : int2loc (col n t) (col n p) (col n fun i => (c i).r1) (col n fun i => (c i).r2) (col n fun i => (c i).tOff)
      (col n fun i => (c i).pOff) = .ok (col n fun i => (tp2xy (t i + (c i).tOff, p i + (c i).pOff) (c i).r1 (c i).r2).1,
        col n fun i => (tp2xy (t i + (c i).tOff, p i + (c i).pOff) (c i).r1 (c i).r2).2) := by
    simp only [col, int2loc, int2ext, addOffset, ext2loc, bcast2_range, List.map_map]
    simp only [bind, Except.bind, List.map_map, Function.comp_def, bcast2_range]
    rfl
  rw [h1]
  simp only [col, loc2flat, addOffset, bcast2_range, bind, Except.bind, pure, Except.pure, List.map_map, Function.comp_def, tip_tp2xy]

/-- Going from flattened to petal coordinates and back, for a point within 431 mm. -/
theorem flat_ptl_flat (x y : ℝ) (h : radius (x, y) ≤ 431) :
    dist2 (ptl2flat (flat2ptl x y).1 (flat2ptl x y).2) (x, y) ≤ 5 / 1000 := by
  have hr : radius (x, y) = hypot x y := rfl
  rw [hr] at h
  have h0 := hypot_nonneg x y
  have hb := r2s_s2r (hypot x y) h0 h
  have hs := s2r_pos h0 (by linarith : hypot x y ≤ 450)
  have hc : ∀ a b : ℝ, Real.cos (atan2 a b) = Model.Trig.cosd (Model.Trig.arctan2d a b) := fun a b => by
    rw [Model.Trig.arctan2d, cosd_same (put360_same _), Model.Trig.cosd, radians_degrees]
  have hsn : ∀ a b : ℝ, Real.sin (atan2 a b) = Model.Trig.sind (Model.Trig.arctan2d a b) := fun a b => by
    rw [Model.Trig.arctan2d, sind_same (put360_same _), Model.Trig.sind, radians_degrees]
  have e1 : flat2ptl x y = (s2r (hypot x y) * Model.Trig.cosd (Model.Trig.arctan2d y x),
      s2r (hypot x y) * Model.Trig.sind (Model.Trig.arctan2d y x)) := by
    simp only [flat2ptl, hc, hsn]
  rw [e1]
  simp only [ptl2flat]
  rw [hypot_polar hs.le, hc, hsn, arctan2d_polar hs, cosd_same (put360_same _), sind_same (put360_same _)]
  unfold dist2
  have e : (r2s (s2r (hypot x y)) * Model.Trig.cosd (Model.Trig.arctan2d y x) - x) ^ 2 +
      (r2s (s2r (hypot x y)) * Model.Trig.sind (Model.Trig.arctan2d y x) - y) ^ 2 = (r2s (s2r (hypot x y)) - hypot x y) ^ 2 := by
    have hcs := sq_cosd_sind (Model.Trig.arctan2d y x)
    have hx' := cosd_arctan2d x y
    have hy' := sind_arctan2d x y
    generalize Model.Trig.arctan2d y x = q at *
    generalize r2s (s2r (hypot x y)) = s
    generalize hypot x y = r at *
    rw [← hx', ← hy']
    calc _ = (s - r) ^ 2 * (Model.Trig.cosd q ^ 2 + Model.Trig.sind q ^ 2) := by ring
      _ = _ := by rw [hcs, mul_one]
  dsimp only
  rw [e, Real.sqrt_sq_eq_abs]
  exact hb

/-- **C76** Any number of positioners, each with its own calibration: `int2ptl` gives for each the point of the petal which lies, in
flattened coordinates, at the tip of its two arms, to 5 microns. -/
theorem C76_int2ptl (n : ℕ) (t p : ℕ → ℝ) (c : ℕ → Cal) :
    ∃ x y : ℕ → ℝ, int2ptl (col n t) (col n p) (col n fun i => (c i).r1) (col n fun i => (c i).r2) (col n fun i => (c i).tOff)
      (col n fun i => (c i).pOff) (col n fun i => (c i).x) (col n fun i => (c i).y) = .ok (col n x, col n y) ∧
    ∀ i, (∃ a s, 0 ≤ s ∧ tip (c i) (t i) (p i) = (s * Real.cos a, s * Real.sin a) ∧ (x i, y i) = (s2r s * Real.cos a, s2r s * Real.sin a)) ∧
      (radius (tip (c i) (t i) (p i)) ≤ 431 → dist2 (ptl2flat (x i) (y i)) (tip (c i) (t i) (p i)) ≤ 5 / 1000) := by
  refine ⟨_, _, int2ptl_run n t p c, fun i => ⟨?_, fun h => flat_ptl_flat _ _ h⟩⟩
  refine ⟨atan2 (tip (c i) (t i) (p i)).2 (tip (c i) (t i) (p i)).1, hypot (tip (c i) (t i) (p i)).1 (tip (c i) (t i) (p i)).2,
    hypot_nonneg _ _, ?_, rfl⟩
  have hc := cosd_arctan2d (tip (c i) (t i) (p i)).1 (tip (c i) (t i) (p i)).2
  have hs := sind_arctan2d (tip (c i) (t i) (p i)).1 (tip (c i) (t i) (p i)).2
  rw [Model.Trig.arctan2d, cosd_same (put360_same _), Model.Trig.cosd, radians_degrees] at hc
  rw [Model.Trig.arctan2d, sind_same (put360_same _), Model.Trig.sind, radians_degrees] at hs
  rw [hc, hs]

/-- What `ptl2int` does with one point: a solution of the inverse kinematics in the positioner's own ranges, less its offsets. -/
theorem ptl2int_run (n : ℕ) (x y : ℕ → ℝ) (c : ℕ → Cal) (guess : Option (ℕ → ℝ)) (tol : ℝ) (hr : ∀ i < n, (c i).r1 ≠ 0 ∧ (c i).r2 ≠ 0) :
    ∃ (t p : ℕ → ℝ) (u : ℕ → Bool), ptl2int (col n x) (col n y) (col n fun i => (c i).r1) (col n fun i => (c i).r2)
      (col n fun i => (c i).tOff) (col n fun i => (c i).pOff) (col n fun i => (c i).x) (col n fun i => (c i).y) (guess.map (col n)) [tol] =
      .ok (col n t, col n p, (List.range n).map u) ∧
    ∀ i < n, xy2tp ((ptl2flat (x i) (y i)).1 - (c i).x) ((ptl2flat (x i) (y i)).2 - (c i).y) (c i).r1 (c i).r2
      (extRanges (c i).tOff (c i).pOff) (guess.map fun g => g i + (c i).tOff) tol = .ok ((t i + (c i).tOff, p i + (c i).pOff), u i) := by
  have hex : ∀ i, ∃ r : (ℝ × ℝ) × Bool, i < n → xy2tp ((ptl2flat (x i) (y i)).1 - (c i).x) ((ptl2flat (x i) (y i)).2 - (c i).y)
      (c i).r1 (c i).r2 (extRanges (c i).tOff (c i).pOff) (guess.map fun g => g i + (c i).tOff) tol = .ok r := by
    intro i
    by_cases hi : i < n
    · obtain ⟨tp, fl, h⟩ := (C01_total ((ptl2flat (x i) (y i)).1 - (c i).x) ((ptl2flat (x i) (y i)).2 - (c i).y) (c i).r1 (c i).r2
        (extRanges (c i).tOff (c i).pOff) (guess.map fun g => g i + (c i).tOff) tol).2 (by
          rintro (h | h)
          · exact (hr i hi).1 h
          · exact (hr i hi).2 h)
      exact ⟨(tp, fl), fun _ => h⟩
    · exact ⟨((0, 0), false), fun h => absurd h hi⟩
  choose r hr' using hex
  refine ⟨fun i => (r i).1.1 - (c i).tOff, fun i => (r i).1.2 - (c i).pOff, fun i => (r i).2, ?_, fun i hi => ?_⟩
  · have hloop : ∀ G : List (Option ℝ), extendList G n = .ok ((List.range n).map fun i => guess.map fun g => g i + (c i).tOff) →
        loc2ext (col n fun i => (ptl2flat (x i) (y i)).1 - (c i).x) (col n fun i => (ptl2flat (x i) (y i)).2 - (c i).y)
        (col n fun i => (c i).r1) (col n fun i => (c i).r2) (col n fun i => (c i).tOff) (col n fun i => (c i).pOff) G [tol]
        = .ok (col n fun i => (r i).1.1, col n fun i => (r i).1.2, (List.range n).map fun i => (r i).2) := by
      intro G hG
      have hlen : ∀ f, (col n f).length = n := by simp [col]
      unfold loc2ext
      simp only [hlen, hG]
      simp only [col, extendList_range, extendList_single]
      simp only [bind, Except.bind]
      rw [forRange_ok n _ r]
      · simp only [List.map_map, Function.comp_def]
        rfl
      · intro i hi
        simp only [getIdx_range n i hi]
        exact hr' i hi
    have hflat : bcast2 ptl2flat (col n x) (col n y) = .ok ((List.range n).map fun i => ptl2flat (x i) (y i)) := by
      unfold col; rw [bcast2_range]
    have hx : flat2loc (((List.range n).map fun i => ptl2flat (x i) (y i)).map Prod.fst) (col n fun i => (c i).x) =
        .ok (col n fun i => (ptl2flat (x i) (y i)).1 - (c i).x) := by
      unfold flat2loc addOffset col
      simp only [List.map_map, Function.comp_def, bcast2_range]
      rfl
    have hy : flat2loc (((List.range n).map fun i => ptl2flat (x i) (y i)).map Prod.snd) (col n fun i => (c i).y) =
        .ok (col n fun i => (ptl2flat (x i) (y i)).2 - (c i).y) := by
      unfold flat2loc addOffset col
      simp only [List.map_map, Function.comp_def, bcast2_range]
      rfl
    unfold ptl2int
    simp only [hflat, hx, hy, bind, Except.bind]
    unfold loc2int
    cases guess with
    | none =>
      simp only [Option.map_none, bind, Except.bind, pure, Except.pure]
      rw [hloop [none] (by rw [extendList_single]; rfl)]
      simp only [col, ext2int, addOffset, List.map_map, Function.comp_def, bcast2_range]
      rfl
    | some g =>
      have hg : int2ext (col n g) (col n fun i => (c i).tOff) = .ok (col n fun i => g i + (c i).tOff) := by
        unfold int2ext addOffset col; rw [bcast2_range]
      simp only [Option.map_some, bind, Except.bind, pure, Except.pure, hg]
      rw [hloop ((col n fun i => g i + (c i).tOff).map some) (by
        unfold col
        rw [List.map_map, extendList_range]
        rfl)]
      simp only [col, ext2int, addOffset, List.map_map, Function.comp_def, bcast2_range]
      rfl
  · rw [sub_add_cancel, sub_add_cancel]
    exact hr' i hi

theorem epsilon_pos : 0 < epsilon := by unfold epsilon; positivity

/-- **C76** `ptl2int` answers for any number of positioners, in order, with angles inside the travel ranges; where it does not say
unreachable the arms put the fibre on the requested point of the flattened petal, and `int2ptl` brings it back to within 5 microns
(points within 431 mm of the centre, off the rims of the patrol area). -/
theorem C76_there_and_back (n : ℕ) (x y : ℕ → ℝ) (c : ℕ → Cal) (guess : Option (ℕ → ℝ)) (tol : ℝ)
    (hr : ∀ i < n, contraction ≤ (c i).r1 ∧ contraction ≤ (c i).r2) :
    ∃ (t p : ℕ → ℝ) (u : ℕ → Bool) (x' y' : ℕ → ℝ),
      ptl2int (col n x) (col n y) (col n fun i => (c i).r1) (col n fun i => (c i).r2) (col n fun i => (c i).tOff)
        (col n fun i => (c i).pOff) (col n fun i => (c i).x) (col n fun i => (c i).y) (guess.map (col n)) [tol] =
        .ok (col n t, col n p, (List.range n).map u) ∧
      int2ptl (col n t) (col n p) (col n fun i => (c i).r1) (col n fun i => (c i).r2) (col n fun i => (c i).tOff)
        (col n fun i => (c i).pOff) (col n fun i => (c i).x) (col n fun i => (c i).y) = .ok (col n x', col n y') ∧
      ∀ i < n, (-180 < t i ∧ t i ≤ 180 ∧ -20 ≤ p i ∧ p i ≤ 200) ∧
        (u i = false → dist2 (tip (c i) (t i) (p i)) (ptl2flat (x i) (y i)) ≤ contraction ∧
          (radius (x i, y i) ≤ 431 →
            |(c i).r1 - (c i).r2| + contraction ≤ dist2 (ptl2flat (x i) (y i)) ((c i).x, (c i).y) →
            dist2 (ptl2flat (x i) (y i)) ((c i).x, (c i).y) ≤ (c i).r1 + (c i).r2 - contraction →
            dist2 (x' i, y' i) (x i, y i) ≤ 5 / 1000)) := by
  have hc := contraction_pos
  obtain ⟨t, p, u, h1, h2⟩ := ptl2int_run n x y c guess tol fun i hi =>
    ⟨ne_of_gt (lt_of_lt_of_le hc (hr i hi).1), ne_of_gt (lt_of_lt_of_le hc (hr i hi).2)⟩
  refine ⟨t, p, u, _, _, h1, int2ptl_run n t p c, fun i hi => ⟨?_, fun hu => ⟨?_, fun k1 k2 k3 => ?_⟩⟩⟩
  · obtain ⟨a, b⟩ := C02_in_range (h2 i hi)
    have he := epsilon_pos
    have he' : epsilon < 1 := by unfold epsilon; norm_num
    unfold InRange extRanges defaultT defaultP at a b
    dsimp only at a b
    rw [min_eq_left (by linarith), max_eq_right (by linarith)] at a b
    refine ⟨by linarith [a.1], by linarith [a.2], by linarith [b.1], by linarith [b.2]⟩
  · have := h2 i hi
    rw [hu] at this
    have h3 := C01_unflagged_reaches (hr i hi).1 (hr i hi).2 this
    rw [tip_tp2xy]
    unfold dist2 at h3 ⊢
    dsimp only at h3 ⊢
    convert h3 using 3 <;> ring
  · have := h2 i hi
    rw [hu] at this
    have e : radius ((ptl2flat (x i) (y i)).1 - (c i).x, (ptl2flat (x i) (y i)).2 - (c i).y) =
        dist2 (ptl2flat (x i) (y i)) ((c i).x, (c i).y) := rfl
    have h3 := C01_unflagged_exact (hr i hi).1 (hr i hi).2 (by rw [e]; exact k2) (by rw [e]; exact k3) this
    rw [tip_tp2xy, h3]
    dsimp only
    rw [sub_add_cancel, sub_add_cancel, (C12_uv_flat (x i) (y i) k1).2]
    obtain ⟨a, ρ, -, -, -, -, -, -, -, -, -, h⟩ := C12_qs_round_trip (x i) (y i) k1
    exact h

theorem dist2_triangle (p q r : ℝ × ℝ) : dist2 p r ≤ dist2 p q + dist2 q r := by
  rw [dist2_eq, dist2_eq, dist2_eq]
  have := norm_add_le (toC p - toC q) (toC q - toC r)
  rwa [sub_add_sub_cancel] at this

/-- **C76** The other way round: the angles found for the position computed from some angles put the fibre where it was, to 5 microns,
where they are not said to be unreachable. -/
theorem C76_back_and_there (n : ℕ) (t p : ℕ → ℝ) (c : ℕ → Cal) (guess : Option (ℕ → ℝ)) (tol : ℝ)
    (hr : ∀ i < n, contraction ≤ (c i).r1 ∧ contraction ≤ (c i).r2) :
    ∃ (x y t' p' : ℕ → ℝ) (u : ℕ → Bool),
      int2ptl (col n t) (col n p) (col n fun i => (c i).r1) (col n fun i => (c i).r2) (col n fun i => (c i).tOff)
        (col n fun i => (c i).pOff) (col n fun i => (c i).x) (col n fun i => (c i).y) = .ok (col n x, col n y) ∧
      ptl2int (col n x) (col n y) (col n fun i => (c i).r1) (col n fun i => (c i).r2) (col n fun i => (c i).tOff)
        (col n fun i => (c i).pOff) (col n fun i => (c i).x) (col n fun i => (c i).y) (guess.map (col n)) [tol] =
        .ok (col n t', col n p', (List.range n).map u) ∧
      ∀ i < n, u i = false → radius (tip (c i) (t i) (p i)) ≤ 431 →
        dist2 (tip (c i) (t' i) (p' i)) (tip (c i) (t i) (p i)) ≤ contraction + 5 / 1000 := by
  obtain ⟨x, y, h1, h2⟩ := C76_int2ptl n t p c
  obtain ⟨t', p', u, x', y', h3, -, h4⟩ := C76_there_and_back n x y c guess tol hr
  refine ⟨x, y, t', p', u, h1, h3, fun i hi hu hrad => ?_⟩
  exact le_trans (dist2_triangle _ (ptl2flat (x i) (y i)) _) (add_le_add ((h4 i hi).2 hu).1 ((h2 i).2 hrad))

/-- A positioner 200 mm from the centre with arms of 3 mm: the tip with theta 0 and phi 90 is at (203, 3), off the rims and well within
431 mm. -/
example : let c : Cal := ⟨3, 3, 0, 0, 200, 0⟩
    contraction ≤ c.r1 ∧ contraction ≤ c.r2 ∧ tip c 0 90 = (203, 3) ∧ radius (tip c 0 90) ≤ 431 := by
  intro c
  have hc := contraction_le_one
  have e : tip c 0 90 = (203, 3) := by
    unfold tip
    simp only [c]
    rw [show ((0:ℝ) + 0 + 90 + 0) * Real.pi / 180 = Real.pi / 2 by ring]
    simp
    norm_num
  refine ⟨by show _ ≤ (3:ℝ); linarith, by show _ ≤ (3:ℝ); linarith, e, ?_⟩
  rw [e]
  unfold radius
  rw [Real.sqrt_le_left (by norm_num)]
  norm_num

end Verif.Props.Int2ptl
