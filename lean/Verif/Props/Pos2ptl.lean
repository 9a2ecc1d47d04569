import Verif.Model.Pos2ptl
import Verif.Props.Xy2tp
import Verif.Lemmas.Pos2ptl

/-!
# Properties C07 - C09: positioner frames (`transform/pos2ptl.py`)
-/

namespace Verif.Props
open Verif.Py Verif.Model.Xy2tp Verif.Model.Pos2ptl Verif.Spec Verif.Lemmas.Xy2tp Verif.Lemmas

/-! ## C07 -/

/-- C07, single positioner: the elbow configuration with phi in 0..180 is
recovered without a guess. -/
theorem C07_xy2tp_round_trip {r1 r2 : ℝ} (h1 : contraction ≤ r1) (h2 : contraction ≤ r2)
    {rg : Ranges} (hw : width rg.t < 360) {tol : ℝ}
    {tp : ℝ × ℝ} (hct : InRange rg.t tp.1) (hcp : InRange rg.p tp.2)
    (hφ : 0 ≤ tp.2 ∧ tp.2 ≤ 180)
    (hl : |r1 - r2| + contraction ≤ radius (tp2xy tp r1 r2))
    (hu : radius (tp2xy tp r1 r2) ≤ r1 + r2 - contraction) :
    xy2tp (tp2xy tp r1 r2).1 (tp2xy tp r1 r2).2 r1 r2 rg none tol = .ok (tp, false) := by
  have hc := contraction_pos
  set x := (tp2xy tp r1 r2).1
  set y := (tp2xy tp r1 r2).2
  have haim : aim x y r1 r2 = toC (tp2xy tp r1 r2) := aim_eq hl hu
  have hp := rawPrimary_tip (x := x) (y := y) h1 h2
  have hn := aim_ne (x := x) (y := y) h1 h2
  have hφ' := rawPrimary_phi x y r1 r2
  -- phi
  have e2 : (rawPrimary x y r1 r2).2 = tp.2 := by
    have hnorm : ‖toC (tp2xy tp r1 r2)‖ = ‖toC (tp2xy (rawPrimary x y r1 r2) r1 r2)‖ := by
      rw [hp, haim]
    rw [norm_tip, norm_tip] at hnorm
    have hsq := congrArg (· ^ 2) hnorm
    simp only [normSq_link] at hsq
    have hcos : Real.cos (radians tp.2) = Real.cos (radians (rawPrimary x y r1 r2).2) := by
      have hpos : 0 < 2 * r1 * r2 := by
        have : 0 < r1 := by linarith
        have : 0 < r2 := by linarith
        positivity
      have : 2 * r1 * r2 * Real.cos (radians tp.2)
        = 2 * r1 * r2 * Real.cos (radians (rawPrimary x y r1 r2).2) := by linarith
      exact mul_left_cancel₀ hpos.ne' this
    have hpi := Real.pi_pos
    have inI : ∀ a : ℝ, 0 ≤ a ∧ a ≤ 180 → radians a ∈ Set.Icc 0 Real.pi := by
      intro a ha
      unfold radians
      constructor
      · have := ha.1; positivity
      · calc a * (Real.pi / 180) ≤ 180 * (Real.pi / 180) := by
              have := ha.2; gcongr
          _ = Real.pi := by ring
    have := Real.injOn_cos (inI _ hφ) (inI _ hφ') hcos
    unfold radians at this
    have hne : Real.pi / 180 ≠ 0 := by positivity
    exact (mul_right_cancel₀ hne this).symm
  have e1 : SameAngle tp.1 (rawPrimary x y r1 r2).1 := by
    rw [← u_same]
    have := hp.trans haim
    rw [toC_tp2xy, toC_tp2xy, e2] at this
    have hne : (r1:ℂ) + r2 * u tp.2 ≠ 0 := by
      intro h0
      have h3 : aim x y r1 r2 = 0 := by
        rw [haim, toC_tp2xy, show (r1:ℂ) * u tp.1 + r2 * (u tp.1 * u tp.2)
          = u tp.1 * (r1 + r2 * u tp.2) by ring, h0, mul_zero]
      exact hn h3
    refine mul_right_cancel₀ hne ?_
    linear_combination -this
  have hf : (mkOpt (rawPrimary x y r1 r2) rg).rangeFail = false :=
    mkOpt_reach (tp' := tp) e1 ⟨0, by rw [e2]; simp⟩ hct hcp
  have hin := mkOpt_inRange (rawPrimary x y r1 r2) rg
  have q1 : (mkOpt (rawPrimary x y r1 r2) rg).tp.1 = tp.1 :=
    sameAngle_unique (sameAngle_trans (mkOpt_ok hf).1 (sameAngle_symm e1))
      (by unfold width at hw; linarith) hin.1 hct
  have q2 : (mkOpt (rawPrimary x y r1 r2) rg).tp.2 = tp.2 := by
    show (wrapIntoRange _ _ _).1 = _
    rw [e2, wrap_id hcp.1 hcp.2]
  have hann : annulusFail (hypot x y) r1 r2 = false := by
    unfold annulusFail
    rw [decide_eq_false_iff_not, not_or, not_lt, not_lt]
    unfold hypot; unfold radius at hl hu
    constructor <;> linarith
  rw [xy2tp_none (by linarith) (by linarith), hann, hf, Prod.ext q1 q2]; rfl

/-- C07: for any number of positioners, each with its own calibration, internal
angles inside the default travel survive int -> loc -> int without a guess,
provided phi_ext = phi + OFFSET_P is in 0..180 and the tip is off the rims. -/
theorem C07_int_loc_int (n : Nat) (t p r1 r2 tOff pOff : Nat → ℝ) (tol : ℝ)
    (h : ∀ i < n, contraction ≤ r1 i ∧ contraction ≤ r2 i ∧
      -180 + epsilon ≤ t i ∧ t i ≤ 180 ∧ -20 ≤ p i ∧ p i ≤ 200 ∧
      0 ≤ p i + pOff i ∧ p i + pOff i ≤ 180 ∧
      |r1 i - r2 i| + contraction ≤ radius (tp2xy (t i + tOff i, p i + pOff i) (r1 i) (r2 i)) ∧
      radius (tp2xy (t i + tOff i, p i + pOff i) (r1 i) (r2 i)) ≤ r1 i + r2 i - contraction) :
    let arr := fun f : Nat → ℝ => (List.range n).map f
    ∃ x y, int2loc (arr t) (arr p) (arr r1) (arr r2) (arr tOff) (arr pOff) = .ok (x, y) ∧
      loc2int x y (arr r1) (arr r2) (arr tOff) (arr pOff) none [tol]
        = .ok (arr t, arr p, List.replicate n false) := by
  intro arr
  let X := fun i => (tp2xy (t i + tOff i, p i + pOff i) (r1 i) (r2 i)).1
  let Y := fun i => (tp2xy (t i + tOff i, p i + pOff i) (r1 i) (r2 i)).2
  refine ⟨arr X, arr Y, ?_, ?_⟩
  · simp only [arr, int2loc, int2ext, addOffset, ext2loc, bcast2_range, List.map_map]
    simp only [bind, Except.bind, List.map_map, Function.comp_def, bcast2_range]
    rfl
  · have hloop : loc2ext (arr X) (arr Y) (arr r1) (arr r2) (arr tOff) (arr pOff) [none] [tol]
        = .ok (arr (fun i => t i + tOff i), arr (fun i => p i + pOff i),
          List.replicate n false) := by
      have hlen : (arr X).length = n := by simp [arr]
      unfold loc2ext
      simp only [hlen]
      simp only [arr, extendList_range, extendList_single]
      simp only [bind, Except.bind]
      rw [forRange_ok n _ (fun i => ((t i + tOff i, p i + pOff i), false))]
      · simp only [List.map_map, Function.comp_def]
        simp [pure, Except.pure, List.map_const']
      · intro i hi
        obtain ⟨a1, a2, a3, a4, a5, a6, a7, a8, a9, a10⟩ := h i hi
        have hw := width_extRanges (tOff i) (pOff i)
        simp only [getIdx_range n i hi]
        exact C07_xy2tp_round_trip (tp := (t i + tOff i, p i + pOff i)) a1 a2 hw.1
          (hw.2.2.1 _ a3 a4) (hw.2.2.2 _ a5 a6) ⟨a7, a8⟩ a9 a10
    unfold loc2int
    simp only [bind, Except.bind, pure, Except.pure]
    rw [hloop]
    simp only [arr, ext2int, addOffset, List.map_map, Function.comp_def, bcast2_range]
    simp

/-- C07: with the true internal theta as guess every in-travel configuration is
recovered, also those with phi_ext outside 0..180. -/
theorem C07_int_loc_int_guess (n : Nat) (t p r1 r2 tOff pOff : Nat → ℝ) (tol : ℝ) (htol : 0 ≤ tol)
    (h : ∀ i < n, contraction ≤ r1 i ∧ contraction ≤ r2 i ∧
      -180 + epsilon ≤ t i ∧ t i ≤ 180 ∧ -20 ≤ p i ∧ p i ≤ 200 ∧
      |r1 i - r2 i| + contraction ≤ radius (tp2xy (t i + tOff i, p i + pOff i) (r1 i) (r2 i)) ∧
      radius (tp2xy (t i + tOff i, p i + pOff i) (r1 i) (r2 i)) ≤ r1 i + r2 i - contraction) :
    let arr := fun f : Nat → ℝ => (List.range n).map f
    ∃ x y, int2loc (arr t) (arr p) (arr r1) (arr r2) (arr tOff) (arr pOff) = .ok (x, y) ∧
      loc2int x y (arr r1) (arr r2) (arr tOff) (arr pOff) (some (arr t)) [tol]
        = .ok (arr t, arr p, List.replicate n false) := by
  intro arr
  let X := fun i => (tp2xy (t i + tOff i, p i + pOff i) (r1 i) (r2 i)).1
  let Y := fun i => (tp2xy (t i + tOff i, p i + pOff i) (r1 i) (r2 i)).2
  refine ⟨arr X, arr Y, ?_, ?_⟩
  · simp only [arr, int2loc, int2ext, addOffset, ext2loc, bcast2_range, List.map_map]
    simp only [bind, Except.bind, List.map_map, Function.comp_def, bcast2_range]
    rfl
  · have hloop : loc2ext (arr X) (arr Y) (arr r1) (arr r2) (arr tOff) (arr pOff)
        ((List.range n).map (fun i => some (t i + tOff i))) [tol]
        = .ok (arr (fun i => t i + tOff i), arr (fun i => p i + pOff i),
          List.replicate n false) := by
      have hlen : (arr X).length = n := by simp [arr]
      unfold loc2ext
      simp only [hlen]
      simp only [arr, extendList_range, extendList_single]
      simp only [bind, Except.bind]
      rw [forRange_ok n _ (fun i => ((t i + tOff i, p i + pOff i), false))]
      · simp only [List.map_map, Function.comp_def]
        simp [pure, Except.pure, List.map_const']
      · intro i hi
        obtain ⟨a1, a2, a3, a4, a5, a6, a9, a10⟩ := h i hi
        have hw := width_extRanges (tOff i) (pOff i)
        simp only [getIdx_range n i hi]
        exact C05_guess_round_trip (tp := (t i + tOff i, p i + pOff i)) a1 a2
          (by linarith [hw.1]) hw.2.1 htol
          (hw.2.2.1 _ a3 a4) (hw.2.2.2 _ a5 a6) a9 a10
    unfold loc2int
    simp only [bind, Except.bind, pure, Except.pure, int2ext, addOffset, arr, bcast2_range,
      List.map_map, Function.comp_def]
    simp only [arr] at hloop
    rw [hloop]
    simp only [ext2int, addOffset, List.map_map, Function.comp_def, bcast2_range]
    simp

/-- The hypotheses of both C07 theorems hold e.g. for arms of length 1 at
(theta, phi) = (0, 90), offsets 0. -/
example : contraction ≤ (1:ℝ) ∧ -180 + epsilon ≤ (0:ℝ) ∧
    |(1:ℝ) - 1| + contraction ≤ radius (tp2xy (0 + 0, 90 + 0) 1 1) ∧
    radius (tp2xy (0 + 0, 90 + 0) 1 1) ≤ 1 + 1 - contraction := by
  have hc : contraction ≤ 1 / 100 := by unfold contraction epsilon; norm_num
  have he : epsilon ≤ 1 := by unfold epsilon; norm_num
  have e : tp2xy (0 + 0, 90 + 0) 1 1 = (1, 1) := by
    unfold tp2xy radians
    have e1 : (90 + 0:ℝ) * (Real.pi / 180) = Real.pi / 2 := by ring
    have e2 : (0 + 0:ℝ) * (Real.pi / 180) = 0 := by ring
    dsimp only
    rw [e2, e1, zero_add]; simp
  have hr : radius (1, 1) = Real.sqrt 2 := by unfold radius; norm_num
  have hs1 : 1 ≤ Real.sqrt 2 := by
    rw [show (1:ℝ) = Real.sqrt 1 by simp]; exact Real.sqrt_le_sqrt (by norm_num)
  have hs2 : Real.sqrt 2 ≤ 3 / 2 := by
    rw [Real.sqrt_le_left (by norm_num)]; norm_num
  rw [e, hr]
  refine ⟨by linarith, by linarith, ?_, by linarith⟩
  rw [sub_self, abs_zero]; linarith

/-! ## C08 -/

/-- C08: the move ends at the final angle, honours the direction, and is the
plain difference whenever that already goes in the requested direction;
against the natural direction it stays below one turn, except that a whole
number of turns keeps its number of turns.  Together the clauses determine the
result. -/
theorem C08_delta_angle (s f d : ℝ) :
    SameAngle (s + deltaAngle1 s f d) f ∧
    (0 < d → 0 ≤ deltaAngle1 s f d) ∧
    (d < 0 → deltaAngle1 s f d ≤ 0) ∧
    (d = 0 → deltaAngle1 s f d = f - s) ∧
    (0 < d * (f - s) → deltaAngle1 s f d = f - s) ∧
    (d * (f - s) < 0 → ¬ SameAngle f s → |deltaAngle1 s f d| < 360) ∧
    (SameAngle f s → |deltaAngle1 s f d| = |f - s|) := by
  rw [deltaAngle1_val]
  have sp := sameAngle_fmod_pos s f
  have sm := sameAngle_fmod_neg s f
  have hp := fmod_pos (f - s)
  have hm := fmod_neg (f - s)
  have s0 : SameAngle (s + (f - s)) f := ⟨0, by simp⟩
  by_cases hw : SameAngle f s
  · have s1 : SameAngle (s + -(f - s)) f := by
      obtain ⟨k, hk⟩ := hw; exact ⟨-2 * k, by rw [hk]; push_cast; ring⟩
    rw [if_pos hw]
    split_ifs with h1 h2
    · refine ⟨s0, fun h => ?_, fun h => ?_, fun _ => rfl, fun _ => rfl, fun h => ?_, fun _ => rfl⟩
      · linarith
      · linarith
      · rw [h1] at h; simp at h
    · refine ⟨?_, fun _ => abs_nonneg _, fun h => ?_, fun h => absurd h h1, fun h => ?_,
        fun _ h => absurd hw h, fun _ => abs_abs _⟩
      · rcases abs_choice (f - s) with h | h <;> rw [h]
        · exact s0
        · exact s1
      · linarith
      · exact abs_of_pos ((mul_pos_iff_of_pos_left h2).1 h)
    · have hd : d < 0 := lt_of_le_of_ne (not_lt.1 h2) h1
      refine ⟨?_, fun h => absurd h h2, fun _ => by linarith [abs_nonneg (f - s)],
        fun h => absurd h h1, fun h => ?_, fun _ h => absurd hw h, fun _ => by rw [abs_neg, abs_abs]⟩
      · rcases abs_choice (f - s) with h | h <;> rw [h]
        · exact s1
        · rw [neg_neg]; exact s0
      · rw [abs_of_neg (by nlinarith)]; ring
  · rw [if_neg hw]
    split_ifs with h1 h2
    · refine ⟨s0, fun h => ?_, fun h => ?_, fun _ => rfl, fun _ => rfl, fun h => ?_, fun _ => rfl⟩
      · rcases h1 with h1 | h1
        · linarith
        · exact ((mul_pos_iff_of_pos_left h).1 h1).le
      · rcases h1 with h1 | h1
        · linarith
        · nlinarith
      · rcases h1 with h1 | h1
        · rw [h1] at h; simp at h
        · linarith
    · rw [not_or] at h1
      refine ⟨sp, fun _ => hp.1, fun h => by linarith, fun h => absurd h h1.1,
        fun h => absurd h h1.2, fun _ _ => ?_, fun h => absurd h hw⟩
      rw [abs_of_nonneg hp.1]; exact hp.2
    · rw [not_or] at h1
      refine ⟨sm, fun h => absurd h h2, fun _ => hm.1, fun h => absurd h h1.1,
        fun h => absurd h h1.2, fun _ _ => ?_, fun h => absurd h hw⟩
      rw [abs_of_nonpos hm.1]; linarith [hm.2]

/-- C08, arrays: equally long arrays (a scalar direction or final angle counts
too) are treated element by element. -/
theorem C08_delta_angle_array (n : Nat) (s f d : Nat → ℝ) (d0 : ℝ) :
    let arr := fun g : Nat → ℝ => (List.range n).map g
    deltaAngle (arr s) (arr f) (arr d) = .ok (arr (fun i => deltaAngle1 (s i) (f i) (d i))) ∧
    deltaAngle (arr s) (arr f) [d0] = .ok (arr (fun i => deltaAngle1 (s i) (f i) d0)) := by
  have hz : ∀ e : Nat → ℝ, List.zipWith (fun sf d => deltaAngle1 sf.1 sf.2 d)
      ((List.range n).map (fun i => (s i, f i))) ((List.range n).map e)
      = (List.range n).map (fun i => deltaAngle1 (s i) (f i) (e i)) := by
    intro e; rw [List.zipWith_map, List.zipWith_self]
  constructor
  · unfold deltaAngle
    rw [bcast2_range, bcast2_range]
    simp only [bind, Except.bind, List.length_map, ne_eq, not_true_eq_false, if_false, hz]
  · unfold deltaAngle
    rw [bcast2_single, bcast2_range]
    simp only [bind, Except.bind, List.length_map, List.map_map, Function.comp_def, ne_eq,
      not_true_eq_false, if_false, hz]

/-- C08 (disagreement with the docstring "All of the above inputs can be either
a scalar or a vector"): a scalar start with a longer array of final angles and a
scalar direction always raises `IndexError`. -/
theorem C08_scalar_start_vector_final_raises (s d : ℝ) (f : List ℝ) (h : 2 ≤ f.length) :
    deltaAngle [s] f [d] = .error .indexError := by
  unfold deltaAngle bcast2
  have h1 : ¬ ([s] : List ℝ).length = f.length := by simp; omega
  rw [if_pos (by simp), if_neg h1]
  simp [bind, Except.bind]
  omega

/-- C08 (disagreement with the docstring "0 -> 720, direction -1 --> 720"): the
code returns -720. -/
theorem C08_docstring_turns : deltaAngle1 0 720 (-1) = -720 := by
  rw [deltaAngle1_val, if_pos ⟨2, by norm_num⟩, if_neg (by norm_num), if_neg (by norm_num)]
  norm_num

example : (-1:ℝ) * (800 - 0) < 0 ∧ ¬ SameAngle 800 0 := by
  refine ⟨by norm_num, ?_⟩
  rintro ⟨k, hk⟩
  have : (800:ℝ) = ((360 * k : ℤ) : ℝ) := by push_cast; linarith
  have : (800:ℤ) = 360 * k := by exact_mod_cast this
  omega

/-! ## C09 -/

/-- C09: the offset frames undo each other, element by element, for every array
and every scalar or equally long offset. -/
theorem C09_offsets_inverse (u off : List ℝ) (h : off.length = u.length ∨ off.length = 1) :
    (∃ v, loc2flat u off = .ok v ∧ flat2loc v off = .ok u) ∧
    (∃ v, flat2loc u off = .ok v ∧ loc2flat v off = .ok u) ∧
    (∃ v, int2ext u off = .ok v ∧ ext2int v off = .ok u) ∧
    (∃ v, ext2int u off = .ok v ∧ int2ext v off = .ok u) := by
  obtain ⟨v, a, b⟩ := offset_inverse u off h
  have h' : (off.map (fun o => -o)).length = u.length ∨ (off.map (fun o => -o)).length = 1 := by
    simpa using h
  obtain ⟨w, c, d⟩ := offset_inverse u (off.map (fun o => -o)) h'
  have e : (off.map (fun o => -o)).map (fun o => -o) = off := by
    simp
  rw [e] at d
  exact ⟨⟨v, a, b⟩, ⟨w, c, d⟩, ⟨v, a, b⟩, ⟨w, c, d⟩⟩

/-- C09: offsets are applied element by element. -/
theorem C09_offsets_pointwise (n : Nat) (u o : Nat → ℝ) :
    loc2flat ((List.range n).map u) ((List.range n).map o)
      = .ok ((List.range n).map (fun i => u i + o i)) ∧
    flat2loc ((List.range n).map u) ((List.range n).map o)
      = .ok ((List.range n).map (fun i => u i - o i)) := by
  constructor
  · exact bcast2_range _ _ _ _
  · unfold flat2loc addOffset
    rw [List.map_map, bcast2_range]
    rfl

/-- The value point `i` of `n` should use from a parameter given per point, or
(any other length) the first one. -/
def ownOrFirst {α : Type*} (L : List α) (n i : Nat) : Option α :=
  if L.length = n then L[i]? else L.head?

/-- C09: in the kinematic loop output `i` is the inverse kinematics of point `i`
with its own parameters when the parameter array has one entry per point, and
with the *first* entry, silently, when it has any other length. -/
theorem C09_loop (x y r1 r2 tOff pOff tol : List ℝ) (g : List (Option ℝ)) (T P : List ℝ)
    (U : List Bool) (h : loc2ext x y r1 r2 tOff pOff g tol = .ok (T, P, U)) :
    T.length = x.length ∧ P.length = x.length ∧ U.length = x.length ∧
    ∀ i < x.length, ∃ xi yi a b tf pf gi tl t p fl,
      x[i]? = some xi ∧ y[i]? = some yi ∧
      ownOrFirst r1 x.length i = some a ∧ ownOrFirst r2 x.length i = some b ∧
      ownOrFirst tOff x.length i = some tf ∧ ownOrFirst pOff x.length i = some pf ∧
      ownOrFirst g x.length i = some gi ∧ ownOrFirst tol x.length i = some tl ∧
      T[i]? = some t ∧ P[i]? = some p ∧ U[i]? = some fl ∧
      xy2tp xi yi a b ⟨(-180 + epsilon + tf, 180 + tf), (-20 + pf, 200 + pf)⟩ gi tl
        = .ok ((t, p), fl) := by
  unfold loc2ext at h
  obtain ⟨r1', e1, h⟩ := bind_ok h
  obtain ⟨r2', e2, h⟩ := bind_ok h
  obtain ⟨to', e3, h⟩ := bind_ok h
  obtain ⟨po', e4, h⟩ := bind_ok h
  obtain ⟨g', e5, h⟩ := bind_ok h
  obtain ⟨tl', e6, h⟩ := bind_ok h
  obtain ⟨out, e7, h⟩ := bind_ok h
  injection h with h
  injection h with hT h
  injection h with hP hU
  obtain ⟨hl, hall⟩ := forRange_inv _ _ _ e7
  subst hT hP hU
  refine ⟨by simpa using hl, by simpa using hl, by simpa using hl, fun i hi => ?_⟩
  obtain ⟨v, hv, hs⟩ := hall i hi
  obtain ⟨tf, f3, hs⟩ := bind_ok hs
  obtain ⟨pf, f4, hs⟩ := bind_ok hs
  obtain ⟨xi, f1, hs⟩ := bind_ok hs
  obtain ⟨yi, f2, hs⟩ := bind_ok hs
  obtain ⟨a, f5, hs⟩ := bind_ok hs
  obtain ⟨b, f6, hs⟩ := bind_ok hs
  obtain ⟨gi, f7, hs⟩ := bind_ok hs
  obtain ⟨tl, f8, hs⟩ := bind_ok hs
  have ext : ∀ {α : Type} {L L' : List α} {w : α}, extendList L x.length = .ok L' →
      getIdx L' i = .ok w → ownOrFirst L x.length i = some w := by
    intro α L L' w hL hw
    have hw := getIdx_ok hw
    unfold extendList at hL
    unfold ownOrFirst
    split at hL
    · next hne =>
      rw [if_neg hne]
      cases L with
      | nil => cases hL
      | cons c L =>
        injection hL with hL
        rw [← hL, List.getElem?_replicate, if_pos hi] at hw
        exact hw
    · next hne =>
      rw [if_pos (not_not.1 hne)]
      injection hL with hL
      rw [hL]; exact hw
  exact ⟨xi, yi, a, b, tf, pf, gi, tl, v.1.1, v.1.2, v.2, getIdx_ok f1, getIdx_ok f2, ext e1 f5,
    ext e2 f6, ext e3 f3, ext e4 f4, ext e5 f7, ext e6 f8, by simp [hv], by simp [hv],
    by simp [hv], hs⟩

/-- A per-point parameter array of the wrong length is accepted, not rejected. -/
example (a b : ℝ) : extendList [a, b] 3 = .ok [a, a, a] := rfl

example : ∃ r, loc2ext [1, 2] [1, 1] [1] [1] [0] [0] [none] [30] = .ok r := by
  obtain ⟨tp, fl, h⟩ := (C01_total 1 1 1 1 (extRanges 0 0) none 30).2 (by norm_num)
  obtain ⟨tp', fl', h'⟩ := (C01_total 2 1 1 1 (extRanges 0 0) none 30).2 (by norm_num)
  unfold loc2ext
  simp only [show ([1, 2] : List ℝ).length = 2 from rfl, extendList_single]
  simp only [bind, Except.bind]
  rw [forRange_ok 2 _ (fun i => if i = 0 then (tp, fl) else (tp', fl'))]
  · exact ⟨_, rfl⟩
  · intro i hi
    simp only [getIdx_range 2 i hi]
    match i, hi with
    | 0, _ => exact h
    | 1, _ => exact h'

end Verif.Props
