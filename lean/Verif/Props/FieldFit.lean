import Verif.Model.FieldFit
import Verif.Props.SimpleCorr

/-!
# C67–C70: guide star fit of the field model
-/

namespace Verif.Props.FieldFit
open Verif.Py Verif.Model.Trig Verif.Model.Radec2tan Verif.Model.SimpleCorr Verif.Model.FieldFit Verif.Lemmas.SimpleCorr
  Verif.Lemmas.LinAlg Verif.Lemmas.Trig Verif.Lemmas.Sky Verif.Spec Verif.Props Classical

/-! ### Specification -/

/-- Where a star at tangent plane position `p` is seen when the pointing moves by `o` (hour angle and declination
in degrees). -/
noncomputable def seen (o p : ℝ × ℝ) : ℝ × ℝ := hadec2xy (xy2hadec p (0, 0)) o

/-- Pointing offset after `n` corrections by the mean difference. -/
noncomputable def offset (l : List Pair) : ℕ → ℝ × ℝ
  | 0 => (0, 0)
  | n + 1 =>
    let o := offset l n
    (o.1 - ((l.map fun q => q.x2 - (seen o (q.x1, q.y1)).1).sum / l.length) * (180 / Real.pi),
     o.2 - ((l.map fun q => q.y2 - (seen o (q.x1, q.y1)).2).sum / l.length) * (180 / Real.pi))

/-- The symmetric scale matrix times the rotation. -/
noncomputable def linear (deg sxx syy sxy : ℝ) (p : ℝ × ℝ) : ℝ × ℝ :=
  let r := rigid deg 0 0 p
  (sxx * r.1 + sxy * r.2, sxy * r.1 + syy * r.2)

/-- A linear map. -/
def mat (m : Affine) (p : ℝ × ℝ) : ℝ × ℝ := (m.m11 * p.1 + m.m12 * p.2, m.m21 * p.1 + m.m22 * p.2)

/-! ### Auxiliary facts -/

theorem linear_eq (deg sxx syy sxy : ℝ) (p : ℝ × ℝ) : linear deg sxx syy sxy p = lin deg sxx syy sxy p := by
  unfold linear lin rigid rot2deg
  rw [cosd_eq, sind_eq]
  simp

theorem offset_eq (l : List Pair) (n : ℕ) : (offsetStep l)^[n] (0, 0) = offset l n := by
  induction n with
  | zero => rfl
  | succ n ih =>
    rw [Function.iterate_succ_apply', ih]
    simp only [offset, offsetStep, degrees, mean, List.length_map]
    rfl

theorem interpret_eq {rot : ℝ} {ax ay : Fin 3 → ℝ} (h1 : ay 1 ≠ ax 2) (h2 : ax 1 + ay 2 ≠ 0) :
    ∃ r sxx syy sxy, decompose rot ax ay = .ok (r, sxx, syy, sxy) ∧
      interpret ax ay = (some r, some sxx, some syy, some sxy) := by
  unfold decompose interpret fdiv
  have hs : hypot (ax 1 + ay 2) (ay 1 - ax 2) ≠ 0 := fun e => h2 (hypot_eq_zero.1 e).1
  have hsa : (ay 1 - ax 2) / hypot (ax 1 + ay 2) (ay 1 - ax 2) ≠ 0 := div_ne_zero (sub_ne_zero.2 h1) hs
  have hca : (ax 1 + ay 2) / hypot (ax 1 + ay 2) (ay 1 - ax 2) ≠ 0 := div_ne_zero h2 hs
  dsimp only
  simp only [if_neg hs, if_neg hsa, if_neg hca, if_pos hsa]
  exact ⟨_, _, _, _, rfl, rfl⟩

theorem interpret_syy {ax ay : Fin 3 → ℝ} (h : ay 1 = ax 2) : (interpret ax ay).2.2.1 = none := by
  unfold interpret fdiv
  dsimp only
  by_cases hs : hypot (ax 1 + ay 2) (ay 1 - ax 2) = 0
  · simp only [if_pos hs]
  · have h0 : (ay 1 - ax 2) / hypot (ax 1 + ay 2) (ay 1 - ax 2) = 0 := by rw [h, sub_self, zero_div]
    simp only [if_neg hs, if_pos h0]

theorem interpret_sxx {ax ay : Fin 3 → ℝ} (h : ax 1 + ay 2 = 0) : (interpret ax ay).2.1 = none := by
  unfold interpret fdiv
  dsimp only
  by_cases hs : hypot (ax 1 + ay 2) (ay 1 - ax 2) = 0
  · simp only [if_pos hs]
  · have h0 : (ax 1 + ay 2) / hypot (ax 1 + ay 2) (ay 1 - ax 2) = 0 := by rw [h, zero_div]
    simp only [if_neg hs, if_pos h0]

theorem firsts_moved (l : List Pair) (o : ℝ × ℝ) : firsts (movedPairs l o) = l.map fun q => seen o (q.x1, q.y1) := by
  unfold firsts movedPairs
  rw [List.map_map]
  rfl

theorem tanFit_eq (l : List Pair) : tanFit l =
    if (gram design3 (movedPairs l (offset l 4))).det = 0 then .error .linAlgError else
      .ok (let l' := movedPairs l (offset l 4)
        let ax := (gram design3 l')⁻¹.mulVec (moments design3 (·.x2) l')
        let ay := (gram design3 l')⁻¹.mulVec (moments design3 (·.y2) l')
        { dha := (offset l 4).1 + -degrees (ax 0), ddec := (offset l 4).2 + -degrees (ay 0), rotDeg := (interpret ax ay).1,
          sxx := (interpret ax ay).2.1, syy := (interpret ax ay).2.2.1, sxy := (interpret ax ay).2.2.2,
          nstars := l.length,
          rmsArcsec := degrees (Real.sqrt (mean (l'.map fun q => (q.x2 - (ax 0 + ax 1 * q.x1 + ax 2 * q.y1)) ^ 2 +
            (q.y2 - (ay 0 + ay 1 * q.x1 + ay 2 * q.y1)) ^ 2))) * 3600 }) := by
  unfold tanFit linInv
  rw [offset_eq]
  dsimp only
  split_ifs
  · rfl
  · simp only [bind, Except.bind, pure, Except.pure]
    congr 2
    unfold movedPairs; simp

/-! ### C67 -/

/-- **C67** The fit fails (LinAlgError) exactly when the stars, seen from the pointing found by four
corrections with the mean difference, lie on one line; in particular with fewer than three stars. -/
theorem C67_fails_iff (l : List Pair) :
    (tanFit l = .error .linAlgError ↔ OnLine (l.map fun q => seen (offset l 4) (q.x1, q.y1))) ∧
    (l.length < 3 → tanFit l = .error .linAlgError) := by
  have key : tanFit l = .error .linAlgError ↔ OnLine (l.map fun q => seen (offset l 4) (q.x1, q.y1)) := by
    rw [← firsts_moved, ← gram3_iff, tanFit_eq]
    split_ifs with h <;> simp [h]
  refine ⟨key, fun h => key.2 ?_⟩
  have two : ∀ a b : ℝ × ℝ, OnLine [a, b] := by
    rintro ⟨a1, a2⟩ ⟨b1, b2⟩
    by_cases h : (a1, a2) = (b1, b2)
    · obtain ⟨rfl, rfl⟩ := Prod.mk.inj h
      refine ⟨-a1, 1, 0, by simp, ?_⟩
      intro q hq
      simp at hq
      subst hq; simp
    · refine ⟨a2 * b1 - a1 * b2, b2 - a2, a1 - b1, ?_, ?_⟩
      · intro e
        simp only [Prod.mk.injEq] at e
        exact h (Prod.ext (by simp only; linarith) (by simp only; linarith))
      · intro q hq
        simp only [List.mem_cons, List.not_mem_nil, or_false] at hq
        rcases hq with rfl | rfl <;> simp only <;> ring
  have sub : ∀ {s t : List (ℝ × ℝ)}, OnLine t → s ⊆ t → OnLine s := by
    rintro s t ⟨a, b, c, hne, h⟩ hs
    exact ⟨a, b, c, hne, fun q hq => h q (hs hq)⟩
  match l, h with
  | [], _ => exact sub (two (0, 0) (0, 0)) (by simp)
  | [a], _ => exact sub (two (seen (offset [a] 4) (a.x1, a.y1)) (seen (offset [a] 4) (a.x1, a.y1))) (by simp)
  | [a, b], _ => exact two _ _

/-- **C67** When the fitted scales are numbers, the scale and rotation matrix together with the extra
offset is the affine map that brings the stars, seen from the pointing after four corrections, closest
to the second catalogue; the extra offset is added to the pointing with opposite sign; the rms is the one
of this map, in arcsec. -/
theorem C67_least_squares (l : List Pair) (r : TanFit) (deg sxx syy sxy : ℝ) (h : tanFit l = .ok r)
    (h1 : r.rotDeg = some deg) (h2 : r.sxx = some sxx) (h3 : r.syy = some syy) (h4 : r.sxy = some sxy) :
    ∃ t : ℝ × ℝ, r.dha = (offset l 4).1 - t.1 * (180 / Real.pi) ∧ r.ddec = (offset l 4).2 - t.2 * (180 / Real.pi) ∧
      (∀ m : Affine, (l.map fun q => sqDist (q.x2, q.y2) (t + linear deg sxx syy sxy (seen (offset l 4) (q.x1, q.y1)))).sum ≤
        (l.map fun q => sqDist (q.x2, q.y2) (m.app (seen (offset l 4) (q.x1, q.y1)))).sum) ∧
      r.rmsArcsec = Real.sqrt ((l.map fun q => sqDist (q.x2, q.y2)
        (t + linear deg sxx syy sxy (seen (offset l 4) (q.x1, q.y1)))).sum / l.length) * (180 / Real.pi) * 3600 ∧
      r.nstars = l.length := by
  rw [tanFit_eq] at h
  split_ifs at h with hd
  dsimp only at h
  simp only [Except.ok.injEq] at h
  generalize hl : movedPairs l (offset l 4) = l' at h hd
  generalize hx : (gram design3 l')⁻¹.mulVec (moments design3 (·.x2) l') = ax at h
  generalize hy : (gram design3 l')⁻¹.mulVec (moments design3 (·.y2) l') = ay at h
  subst h
  simp only at h1 h2 h3 h4
  have n1 : ay 1 ≠ ax 2 := fun e => by rw [interpret_syy e] at h3; cases h3
  have n2 : ax 1 + ay 2 ≠ 0 := fun e => by rw [interpret_sxx e] at h2; cases h2
  obtain ⟨a, b, c, d, hdec, hi⟩ := interpret_eq (rot := 0) n1 n2
  rw [hi] at h1 h2 h3 h4
  simp only [Option.some.injEq] at h1 h2 h3 h4
  subst h1 h2 h3 h4
  have hap : ∀ q : Pair, ((ax 0, ay 0) : ℝ × ℝ) + linear a b c d (q.x1, q.y1) = (pred design3 ax q, pred design3 ay q) := by
    intro q
    rw [linear_eq, decompose_spec hdec (Or.inl n1), pred3, pred3]
    ext
    · simp only [Prod.fst_add]; ring
    · simp only [Prod.snd_add]; ring
  have tr : ∀ F : Pair → ℝ × ℝ → ℝ, (l.map fun q => F q (seen (offset l 4) (q.x1, q.y1))) =
      l.map fun q => F q (moved (offset l 4) q) := fun F => rfl
  have tr2 : ∀ g : ℝ × ℝ → ℝ × ℝ, (l.map fun q => sqDist (q.x2, q.y2) (g (seen (offset l 4) (q.x1, q.y1)))).sum =
      (l'.map fun q => sqDist (q.x2, q.y2) (g (q.x1, q.y1))).sum := by
    intro g
    rw [← hl]
    unfold movedPairs
    rw [List.map_map]
    rfl
  refine ⟨(ax 0, ay 0), by simp only [degrees]; ring, by simp only [degrees]; ring, ?_, ?_, rfl⟩
  · intro m
    rw [tr2 (fun p => (ax 0, ay 0) + linear a b c d p), tr2 m.app]
    simp only [hap, sqDist, Affine.app]
    rw [sum_map_add', sum_map_add']
    have e1 := solve_optimal hd (·.x2) ![m.t1, m.m11, m.m12]
    have e2 := solve_optimal hd (·.y2) ![m.t2, m.m21, m.m22]
    rw [hx] at e1
    rw [hy] at e2
    simp only [pred3 ![m.t1, m.m11, m.m12], pred3 ![m.t2, m.m21, m.m22]] at e1 e2
    simpa using add_le_add e1 e2
  · rw [tr2 (fun p => (ax 0, ay 0) + linear a b c d p)]
    simp only [degrees, mean]
    rw [← hl]
    simp only [hap, sqDist, pred3, List.length_map, movedPairs]

/-- Exact data about the centre: every second position is the image of the first under `m`, the
first positions have mean zero, lie in the unit disc and not on one line. -/
structure Centred (m : Affine) (l : List Pair) : Prop where
  exact : ∀ q ∈ l, (q.x2, q.y2) = mat m (q.x1, q.y1)
  meanX : (l.map (·.x1)).sum = 0
  meanY : (l.map (·.y1)).sum = 0
  disc : ∀ q ∈ l, q.x1 ^ 2 + q.y1 ^ 2 ≤ 1
  spread : ¬ OnLine (firsts l)

theorem moved_zero {q : Pair} (h : q.x1 ^ 2 + q.y1 ^ 2 ≤ 1) : moved (0, 0) q = (q.x1, q.y1) := tan_id (q.x1, q.y1) h

theorem centred_offset {m : Affine} {l : List Pair} (h : Centred m l) : offset l 4 = (0, 0) := by
  have hz : offsetStep l (0, 0) = (0, 0) := by
    unfold offsetStep mean
    have e1 : (l.map fun q => q.x2 - (moved (0, 0) q).1) = l.map fun q => (m.m11 - 1) * q.x1 + m.m12 * q.y1 := by
      apply List.map_congr_left
      intro q hq
      have := congrArg Prod.fst (h.exact q hq)
      simp only [mat] at this
      rw [moved_zero (h.disc q hq), this]
      ring
    have e2 : (l.map fun q => q.y2 - (moved (0, 0) q).2) = l.map fun q => m.m21 * q.x1 + (m.m22 - 1) * q.y1 := by
      apply List.map_congr_left
      intro q hq
      have := congrArg Prod.snd (h.exact q hq)
      simp only [mat] at this
      rw [moved_zero (h.disc q hq), this]
      ring
    rw [e1, e2, sum_map_add', sum_map_add', List.sum_map_mul_left, List.sum_map_mul_left, List.sum_map_mul_left,
      List.sum_map_mul_left, h.meanX, h.meanY]
    simp [degrees]
  rw [← offset_eq]
  exact Function.iterate_fixed hz 4

theorem centred_moved {m : Affine} {l : List Pair} (h : Centred m l) : movedPairs l (offset l 4) = l := by
  rw [centred_offset h]
  unfold movedPairs
  conv_rhs => rw [← List.map_id l]
  apply List.map_congr_left
  intro q hq
  rw [moved_zero (h.disc q hq)]
  rfl

theorem centred_fit {m : Affine} {l : List Pair} (h : Centred m l) : tanFit l = .ok
    { dha := 0, ddec := 0, rotDeg := (interpret ![0, m.m11, m.m12] ![0, m.m21, m.m22]).1,
      sxx := (interpret ![0, m.m11, m.m12] ![0, m.m21, m.m22]).2.1,
      syy := (interpret ![0, m.m11, m.m12] ![0, m.m21, m.m22]).2.2.1,
      sxy := (interpret ![0, m.m11, m.m12] ![0, m.m21, m.m22]).2.2.2, nstars := l.length, rmsArcsec := 0 } := by
  have hd : (gram design3 l).det ≠ 0 := fun e => h.spread ((gram3_iff l).1 e)
  have hex : ExactData ⟨0, 0, m.m11, m.m12, m.m21, m.m22⟩ l := by
    intro q hq
    rw [h.exact q hq]
    simp [Affine.app, mat]
  obtain ⟨hx, hy⟩ := exact_coeffs hd hex
  rw [tanFit_eq, centred_moved h, centred_offset h, if_neg hd]
  simp only [hx, hy]
  congr 2
  · simp [degrees]
  · simp [degrees]
  · have : (l.map fun q => (q.x2 - (![0, m.m11, m.m12] 0 + ![0, m.m11, m.m12] 1 * q.x1 + ![0, m.m11, m.m12] 2 * q.y1)) ^ 2 +
        (q.y2 - (![0, m.m21, m.m22] 0 + ![0, m.m21, m.m22] 1 * q.x1 + ![0, m.m21, m.m22] 2 * q.y1)) ^ 2) = l.map fun _ => (0:ℝ) := by
      apply List.map_congr_left
      intro q hq
      have h1 := congrArg Prod.fst (h.exact q hq)
      have h2 := congrArg Prod.snd (h.exact q hq)
      simp only [mat] at h1 h2
      simp only [Matrix.cons_val_zero, Matrix.cons_val_one, Matrix.cons_val]
      rw [h1, h2]; ring
    rw [this]
    simp [mean, degrees]

theorem apply_zero {deg sxx syy sxy : ℝ} {p : ℝ × ℝ} (hp : p.1 ^ 2 + p.2 ^ 2 ≤ 1) (n : ℕ) (rms : ℝ) :
    (⟨0, 0, sxx, syy, sxy, deg, n, rms⟩ : TanCorr).apply p.1 p.2 = lin deg sxx syy sxy p := by
  unfold TanCorr.apply lin
  rw [tan_id p hp]

/-- **C67** Exact data about the centre, with some rotation that is not a quarter turn: the fit
finds no pointing offset and rms 0, and the correction maps every position (in the unit disc) as the data do. -/
theorem C67_exact (m : Affine) (l : List Pair) (h : Centred m l) (h1 : m.m12 ≠ m.m21) (h2 : m.m11 + m.m22 ≠ 0) :
    ∃ r deg sxx syy sxy, tanFit l = .ok r ∧ r.dha = 0 ∧ r.ddec = 0 ∧ r.rmsArcsec = 0 ∧ r.nstars = l.length ∧
      r.rotDeg = some deg ∧ r.sxx = some sxx ∧ r.syy = some syy ∧ r.sxy = some sxy ∧
      ∀ p : ℝ × ℝ, p.1 ^ 2 + p.2 ^ 2 ≤ 1 →
        (⟨r.dha, r.ddec, sxx, syy, sxy, deg, r.nstars, r.rmsArcsec⟩ : TanCorr).apply p.1 p.2 = mat m p := by
  obtain ⟨a, b, c, d, hdec, hi⟩ := interpret_eq (rot := 0) (ax := ![0, m.m11, m.m12]) (ay := ![0, m.m21, m.m22])
    (by simpa using h1.symm) (by simpa using h2)
  refine ⟨_, a, b, c, d, centred_fit h, rfl, rfl, rfl, rfl, by rw [hi], by rw [hi], by rw [hi], by rw [hi], fun p hp => ?_⟩
  dsimp only
  rw [apply_zero hp, decompose_spec hdec (Or.inl (by simpa using h1.symm))]
  simp [mat]

/-- **C67 disagreement**: without rotation the fitted `syy` is NaN, after a quarter turn (or mirror) `sxx` is NaN,
although the data are exact. -/
theorem C67_nan (m : Affine) (l : List Pair) (h : Centred m l) :
    ∃ r, tanFit l = .ok r ∧ (m.m12 = m.m21 → r.syy = none) ∧ (m.m11 + m.m22 = 0 → r.sxx = none) := by
  refine ⟨_, centred_fit h, fun e => interpret_syy (by simpa using e.symm), fun e => interpret_sxx (by simpa using e)⟩

/-- Four stars around the centre. -/
noncomputable def square (m : Affine) : List Pair :=
  [(1, 0), (0, 1), (-1, 0), (0, -1)].map fun p : ℝ × ℝ => ⟨p.1 / 100, p.2 / 100, (mat m p).1 / 100, (mat m p).2 / 100⟩

theorem square_centred (m : Affine) : Centred m (square m) where
  exact := by
    intro q hq
    obtain ⟨p, -, rfl⟩ := List.mem_map.1 hq
    simp only [mat]
    ext <;> simp only <;> ring
  meanX := by norm_num [square]
  meanY := by norm_num [square]
  disc := by
    intro q hq
    simp only [square, List.map_cons, List.map_nil, List.mem_cons, List.not_mem_nil, or_false] at hq
    rcases hq with rfl | rfl | rfl | rfl <;> norm_num
  spread := by
    rintro ⟨a, b, c, hne, h⟩
    have h1 := h (1 / 100, 0) (by simp [firsts, square])
    have h2 := h (-1 / 100, 0) (by simp [firsts, square])
    have h3 := h (0, 1 / 100) (by simp [firsts, square])
    simp only at h1 h2 h3
    exact hne (by rw [show a = 0 by linarith, show b = 0 by linarith, show c = 0 by linarith])

/-- **C67 disagreement**: two identical catalogues give no usable correction. -/
theorem C67_identity_nan : ∃ (l : List Pair) (r : TanFit), (∀ q ∈ l, (q.x2, q.y2) = (q.x1, q.y1)) ∧ l.length = 4 ∧
    tanFit l = .ok r ∧ r.syy = none := by
  let m : Affine := ⟨0, 0, 1, 0, 0, 1⟩
  obtain ⟨r, h1, h2, -⟩ := C67_nan m (square m) (square_centred m)
  refine ⟨_, r, fun q hq => ?_, by simp [square], h1, h2 rfl⟩
  rw [(square_centred m).exact q hq]
  simp [mat, m]

/-- The hypotheses of `C67_exact` can be met: four stars, rotated and stretched. -/
example : ∃ m l, Centred m l ∧ m.m12 ≠ m.m21 ∧ m.m11 + m.m22 ≠ 0 ∧ l.length = 4 :=
  ⟨⟨0, 0, 1, -1, 1, 1⟩, _, square_centred _, by norm_num, by norm_num, by simp [square]⟩

end Verif.Props.FieldFit
