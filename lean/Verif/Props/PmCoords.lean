import Verif.Model.PmCoords
import Verif.Props.PetalTest
import Verif.Props.RayRun
import Mathlib.Analysis.SpecialFunctions.Pow.Real

/-!
# Properties of the comparison of desimeter with platemaker (`bin/plot_pm_coords`)
-/

set_option linter.unusedSectionVars false
set_option linter.unusedSimpArgs false

namespace Verif.Props.PmCoords

open Verif.Py Verif.Model.PmCoords

/-! ## Specification -/

/-- The flags for which a target is left out, as the numbers of the bits on the wiki page of the
positioner flags: CTRLDISABLED 16, COMERROR 18, OVERLAP 19, FROZEN 20, UNREACHABLE 21,
NONFUNCTIONAL 24, REJECTED 25. -/
def Excluded (flags : ℕ) : Prop := ∃ b ∈ ({16, 18, 19, 20, 21, 24, 25} : Set ℕ), flags.testBit b = true

/-- A row has a measured fibre position. -/
def Measured (c : CoordRow) : Prop :=
  (∃ a, c.fiberRa = some a) ∧ (∃ a, c.fiberDec = some a) ∧ (∃ a, c.fiberX = some a ∧ a ≠ 0) ∧ ∃ a, c.fiberY = some a

/-- The distance of two points. -/
noncomputable def dist (p q : ℝ × ℝ) : ℝ := Real.sqrt ((p.1 - q.1) ^ 2 + (p.2 - q.2) ^ 2)

/-- `f` is the last entry of `fa` at a location. -/
def LastAt (fa : List FaRow) (l : ℤ) (f : FaRow) : Prop :=
  ∃ a b, fa = a ++ f :: b ∧ 1000 * f.petal + f.device = l ∧ ∀ g ∈ b, 1000 * g.petal + g.device ≠ l

/-! ## Flags -/

theorem has_iff (n k : ℕ) : has n (2 ^ k) = true ↔ n.testBit k = true := by
  unfold has
  rw [decide_eq_true_iff, Nat.and_two_pow]
  cases n.testBit k <;> simp

theorem tested_iff (n : ℕ) : (tested.any fun b => has n b) = true ↔ Excluded n := by
  unfold tested Excluded
  simp only [List.any_cons, List.any_nil, Bool.or_false, Bool.or_eq_true, has_iff, Set.mem_insert_iff, Set.mem_singleton_iff]
  constructor
  · rintro (h | h | h | h | h | h | h)
    exacts [⟨19, by simp, h⟩, ⟨20, by simp, h⟩, ⟨21, by simp, h⟩, ⟨16, by simp, h⟩, ⟨18, by simp, h⟩, ⟨24, by simp, h⟩,
      ⟨25, by simp, h⟩]
  · rintro ⟨b, rfl | rfl | rfl | rfl | rfl | rfl | rfl, h⟩ <;> simp [h]

/-- **C114** A row is flagged when it is a target and one of seven bits of its flags is set. -/
theorem C114_flagged (r : CoordRow × FaRow) :
    flagged r = true ↔ r.2.objtype = "TGT".toList ∧ Excluded r.1.flags := by
  unfold flagged target
  rw [Bool.and_eq_true, tested_iff, decide_eq_true_iff, and_comm]

/-- **C114** (finding) A sky fibre, or a fibre without a target, is never flagged, whatever its flags. -/
theorem C114_sky_not_flagged (r : CoordRow × FaRow) (h : r.2.objtype ≠ "TGT".toList) : flagged r = false := by
  rw [Bool.eq_false_iff]
  intro hf
  exact h ((C114_flagged r).1 hf).1

/-- **C114** (finding) A target whose only flag is FIBERBROKEN (bit 17) is not flagged. -/
theorem C114_broken (r : CoordRow × FaRow) (h : r.1.flags = 2 ^ 17) : flagged r = false := by
  rw [Bool.eq_false_iff]
  intro hf
  obtain ⟨b, hb, ht⟩ := ((C114_flagged r).1 hf).2
  rw [h, Nat.testBit_two_pow] at ht
  simp only [Set.mem_insert_iff, Set.mem_singleton_iff] at hb
  have := of_decide_eq_true ht
  omega

/-! ## The join -/

theorem usable_iff (c : CoordRow) : usable c = true ↔ Measured c := by
  unfold usable Measured
  simp only [Bool.and_eq_true, Option.isSome_iff_exists, @decide_eq_true_iff _ (Classical.dec _)]
  constructor
  · rintro ⟨⟨⟨⟨h1, h2⟩, ⟨a, h3⟩⟩, h4⟩, h5⟩
    exact ⟨h1, h2, ⟨a, h3, fun h => h5 (by rw [h3, h])⟩, h4⟩
  · rintro ⟨h1, h2, ⟨a, h3, h5⟩, h4⟩
    exact ⟨⟨⟨⟨h1, h2⟩, ⟨a, h3⟩⟩, h4⟩, fun h => h5 (by rw [h3] at h; exact Option.some.inj h)⟩

theorem getLast_filter (p : FaRow → Bool) (l : List FaRow) (f : FaRow) :
    (l.filter p).getLast? = some f ↔ ∃ a b, l = a ++ f :: b ∧ p f = true ∧ ∀ g ∈ b, ¬ p g = true := by
  constructor
  · intro h
    obtain ⟨ys, hys⟩ := List.getLast?_eq_some_iff.1 h
    obtain ⟨a, b, hab, ha, hb⟩ := List.filter_eq_append_iff.1 hys
    obtain ⟨b1, b2, hb12, hn, hf, hr⟩ := List.filter_eq_cons_iff.1 hb
    refine ⟨a ++ b1, b2, by rw [hab, hb12]; simp, hf, ?_⟩
    exact List.filter_eq_nil_iff.1 hr
  · rintro ⟨a, b, rfl, hf, hb⟩
    rw [List.filter_append, List.filter_cons_of_pos hf, List.filter_eq_nil_iff.2 hb]
    simp

theorem faRow_iff (fa : List FaRow) (l : ℤ) (f : FaRow) : faRow fa l = .ok f ↔ LastAt fa l f := by
  have h : faRow fa l = .ok f ↔ (fa.filter fun f => decide (location f.petal f.device = l)).getLast? = some f := by
    unfold faRow
    split
    · next g hg => rw [hg]; exact ⟨fun h => by rw [Except.ok.inj h], fun h => by rw [Option.some.inj h]⟩
    · next hg => rw [hg]; exact ⟨fun h => (nomatch h), fun h => (nomatch h)⟩
  rw [h, getLast_filter]
  unfold LastAt location
  simp only [decide_eq_true_iff, mul_comm]

theorem faRow_error (fa : List FaRow) (l : ℤ) (h : ∀ f ∈ fa, 1000 * f.petal + f.device ≠ l) : faRow fa l = .error .keyError := by
  unfold faRow
  rw [List.filter_eq_nil_iff.2 fun f hf => by
    rw [decide_eq_true_iff]; unfold location; rw [mul_comm]; exact h f hf]
  rfl

theorem faRow_cases (fa : List FaRow) (l : ℤ) : (∃ f, faRow fa l = .ok f) ∨ faRow fa l = .error .keyError := by
  unfold faRow
  split
  · exact .inl ⟨_, rfl⟩
  · exact .inr rfl

/-- **C114** The rows are the ones with a measured fibre position, in the order of the coordinates
file, each with the last row of the fiberassign table at the same location. -/
theorem C114_joined (coords : List CoordRow) (fa : List FaRow) (rows : List (CoordRow × FaRow)) (h : joined coords fa = .ok rows) :
    (rows.map Prod.fst).Sublist coords ∧ (∀ c, c ∈ rows.map Prod.fst ↔ c ∈ coords ∧ Measured c) ∧
      ∀ r ∈ rows, LastAt fa (1000 * r.1.petal + r.1.device) r.2 := by
  unfold joined at h
  have h2 := (RayRun.mapM_iff _ _ _).1 h
  have key : List.Forall₂ (fun c r => c = r.1 ∧ LastAt fa (1000 * r.1.petal + r.1.device) r.2) (coords.filter usable) rows := by
    refine h2.imp fun c r hc => ?_
    obtain ⟨f, hf, hr⟩ := (RayRun.bind_iff _ _ _).1 hc
    have := Except.ok.inj hr
    subst this
    refine ⟨rfl, ?_⟩
    have := (faRow_iff _ _ _).1 hf
    unfold location at this
    rwa [mul_comm] at this
  have hfst : rows.map Prod.fst = coords.filter usable := by
    clear h h2
    generalize coords.filter usable = l at key
    induction key with
    | nil => rfl
    | cons h _ ih => rw [List.map_cons, ih, h.1]
  refine ⟨by rw [hfst]; exact List.filter_sublist, fun c => by rw [hfst, List.mem_filter, usable_iff], fun r hr => ?_⟩
  obtain ⟨c, _, hc⟩ := FpMetrology.forall₂_mem' key hr
  exact hc.2

/-- **C114** The script ends with a `KeyError` exactly when a row with a measured fibre position has
a location which is not in the fiberassign table. -/
theorem C114_key_error (coords : List CoordRow) (fa : List FaRow) :
    joined coords fa = .error .keyError ↔
      ∃ c ∈ coords, Measured c ∧ ∀ f ∈ fa, 1000 * f.petal + f.device ≠ 1000 * c.petal + c.device := by
  constructor
  · intro h
    by_contra hne
    push Not at hne
    have hall : ∀ c ∈ coords.filter usable, ∃ r, (do let f ← faRow fa (location c.petal c.device); .ok (c, f) :
        Except PyErr (CoordRow × FaRow)) = .ok r := by
      intro c hc
      obtain ⟨hc1, hc2⟩ := List.mem_filter.1 hc
      obtain ⟨f, hf, hl⟩ := hne c hc1 ((usable_iff c).1 hc2)
      rcases faRow_cases fa (location c.petal c.device) with ⟨g, hg⟩ | he
      · exact ⟨(c, g), by rw [hg]; rfl⟩
      · exfalso
        unfold faRow at he
        split at he
        · cases he
        · next hn =>
          rw [List.getLast?_eq_none_iff, List.filter_eq_nil_iff] at hn
          apply hn f hf
          rw [decide_eq_true_iff]
          unfold location
          omega
    obtain ⟨rows, hrows⟩ := FpMetrology.mapM_ok_of hall
    unfold joined at h
    rw [hrows] at h
    cases h
  · rintro ⟨c, hc, hm, hf⟩
    unfold joined
    refine PetalTest.mapM_error _ ?_ ?_
    · intro d hd e he
      rcases faRow_cases fa (location d.petal d.device) with ⟨g, hg⟩ | hg
      · rw [hg] at he; cases he
      · rw [hg] at he; cases he; rfl
    · refine ⟨c, List.mem_filter.2 ⟨hc, (usable_iff c).2 hm⟩, .keyError, ?_⟩
      rw [faRow_error fa _ fun f h => by unfold location; rw [mul_comm c.petal]; exact hf f h]
      rfl

/-! ## The table which is written -/

theorem below_offset (p q : Option (ℝ × ℝ)) (m : ℝ) :
    below (offset p q) m = true ↔ ∃ a b, p = some a ∧ q = some b ∧ dist a b < m := by
  unfold below offset dist
  cases p with
  | none => simp
  | some a =>
    cases q with
    | none => simp
    | some b => simp only [@decide_eq_true_iff _ (Classical.dec _)]; simp

theorem above_offset (p q : Option (ℝ × ℝ)) (m : ℝ) :
    above (offset p q) m = true ↔ ∃ a b, p = some a ∧ q = some b ∧ m ≤ dist a b := by
  unfold above offset dist
  cases p with
  | none => simp
  | some a =>
    cases q with
    | none => simp
    | some b => simp only [@decide_eq_true_iff _ (Classical.dec _)]; simp

/-- **C114** The table has a row for each fibre which is not an excluded target and for which the two
positions are closer than 0.1 mm, and no other row. -/
theorem C114_written (rows : List (CoordRow × FaRow)) (dm : List (Option (ℝ × ℝ))) (o : Out) :
    o ∈ written rows dm ↔ ∃ (i : ℕ) (r : CoordRow × FaRow) (a b : ℝ × ℝ), rows[i]? = some r ∧ dm[i]? = some (some a) ∧ r.1.req = some b ∧
      dist a b < 0.1 ∧ ¬ (r.2.objtype = "TGT".toList ∧ Excluded r.1.flags) ∧ o = ⟨some b, some a⟩ := by
  unfold written
  simp only [List.mem_map, List.mem_filter, Bool.and_eq_true, Bool.not_eq_true', below_offset]
  constructor
  · rintro ⟨p, ⟨hp, hf, a, b, ha, hb, hd⟩, rfl⟩
    obtain ⟨i, hi⟩ := List.mem_iff_getElem?.1 hp
    obtain ⟨h1, h2⟩ := List.getElem?_zip_eq_some.1 hi
    refine ⟨i, p.1, a, b, h1, by rw [h2, ha], hb, hd, ?_, by rw [ha, hb]⟩
    rw [← C114_flagged, hf]
    simp
  · rintro ⟨i, r, a, b, hi, hj, hb, hd, hf, rfl⟩
    refine ⟨(r, some a), ⟨List.mem_iff_getElem?.2 ⟨i, List.getElem?_zip_eq_some.2 ⟨hi, hj⟩⟩, ?_, a, b, rfl, hb, hd⟩, by rw [hb]⟩
    rw [Bool.eq_false_iff]
    exact fun h => hf ((C114_flagged r).1 h)

/-- **C114** All positions of the table are numbers, and the two differ by less than 0.1 mm in each coordinate. -/
theorem C114_close (rows : List (CoordRow × FaRow)) (dm : List (Option (ℝ × ℝ))) (o : Out) (h : o ∈ written rows dm) :
    ∃ a b, o.pm = some b ∧ o.dm = some a ∧ |a.1 - b.1| < 0.1 ∧ |a.2 - b.2| < 0.1 := by
  obtain ⟨i, r, a, b, _, _, _, hd, _, rfl⟩ := (C114_written rows dm o).1 h
  refine ⟨a, b, rfl, rfl, lt_of_le_of_lt ?_ hd, lt_of_le_of_lt ?_ hd⟩
  · unfold dist
    apply Real.abs_le_sqrt
    nlinarith [sq_nonneg (a.2 - b.2)]
  · unfold dist
    apply Real.abs_le_sqrt
    nlinarith [sq_nonneg (a.1 - b.1)]

/-- **C114** (finding) A sky fibre is written with the good ones whatever its flags, also when its positioner is frozen. -/
theorem C114_sky_written (c : CoordRow) (f : FaRow) (a b : ℝ × ℝ) (hs : f.objtype = "SKY".toList)
    (hb : c.req = some b) (hd : dist a b < 0.1) : written [(c, f)] [some a] = [⟨some b, some a⟩] := by
  have hf : flagged (c, f) = false := C114_sky_not_flagged (c, f) (by
    change f.objtype ≠ _
    rw [hs]; decide)
  have hbe : below (offset (some a) c.req) 0.1 = true := (below_offset _ _ _).2 ⟨a, b, rfl, hb, hd⟩
  unfold written
  rw [List.zip_cons_cons, List.zip_nil_right, List.filter_cons_of_pos (by rw [hf, hbe]; rfl)]
  simp [hb]

/-! ## The classes of targets -/

/-- **C114** A target which is not flagged is either good or bad, not both, when its two positions are numbers. -/
theorem C114_classes (r : CoordRow × FaRow) (a b : ℝ × ℝ) (hb : r.1.req = some b) :
    ok r = (good (r, some a) ^^ bad (r, some a)) ∧ (good (r, some a) && bad (r, some a)) = false := by
  have h1 : below (offset (some a) r.1.req) maxoffset = !(above (offset (some a) r.1.req) maxoffset) := by
    rw [Bool.eq_iff_iff, Bool.not_eq_true', Bool.eq_false_iff]
    rw [Ne, below_offset, above_offset]
    constructor
    · rintro ⟨x, y, hx, hy, hl⟩ ⟨x', y', hx', hy', hl'⟩
      rw [hx] at hx'; rw [hy] at hy'
      cases hx'; cases hy'
      linarith
    · intro h
      refine ⟨a, b, rfl, hb, ?_⟩
      by_contra hn
      exact h ⟨a, b, rfl, hb, by linarith⟩
  unfold ok good bad
  simp only [h1]
  cases target r.2 <;> cases above (offset (some a) r.1.req) maxoffset <;> cases flagged r <;> decide

/-- **C114** A good target is a target without one of the excluded flags for which the two positions are closer than 1 mm. -/
theorem C114_good (r : CoordRow × FaRow) (p : Option (ℝ × ℝ)) :
    good (r, p) = true ↔ r.2.objtype = "TGT".toList ∧ ¬ Excluded r.1.flags ∧ ∃ a b, p = some a ∧ r.1.req = some b ∧ dist a b < 1 := by
  unfold good maxoffset
  simp only [Bool.and_eq_true, below_offset, Bool.not_eq_true', Bool.eq_false_iff, Ne, C114_flagged]
  unfold target
  rw [decide_eq_true_iff]
  tauto

/-- **C114** Every row of one of the four types, with two positions, belongs to exactly one of the five classes drawn in different colours: good, bad and flagged targets, sky, and others. -/
theorem C114_drawn (r : CoordRow × FaRow) (a b : ℝ × ℝ) (hb : r.1.req = some b)
    (ht : r.2.objtype = "TGT".toList ∨ r.2.objtype = "SKY".toList ∨ r.2.objtype = [] ∨ r.2.objtype = "BAD".toList) :
    [good (r, some a), bad (r, some a), flagged r, sky r.2, other r.2].count true = 1 ∧
    (sky r.2 = true ↔ r.2.objtype = "SKY".toList) ∧ (other r.2 = true ↔ r.2.objtype = [] ∨ r.2.objtype = "BAD".toList) := by
  refine ⟨?_, ?_, ?_⟩
  · rcases ht with h | h | h | h
    · have hab : above (offset (some a) r.1.req) maxoffset = !below (offset (some a) r.1.req) maxoffset := by
        rw [hb, Bool.eq_iff_iff, Bool.not_eq_true', Bool.eq_false_iff, Ne, above_offset, below_offset]
        simp
      have h1 : target r.2 = true := by unfold target; rw [h]; rfl
      have h2 : sky r.2 = false := by unfold sky; rw [h]; rfl
      have h3 : other r.2 = false := by unfold other; rw [h]; rfl
      unfold good bad
      dsimp only
      rw [hab, h1, h2, h3]
      cases below (offset (some a) r.1.req) maxoffset <;> cases flagged r <;> rfl
    all_goals
      have h1 : target r.2 = false := by unfold target; rw [h]; rfl
      unfold good bad flagged sky other
      dsimp only
      rw [h1, h, Bool.and_false]
      rfl
  · unfold sky
    rw [decide_eq_true_iff]
  · unfold other
    rw [Bool.or_eq_true, decide_eq_true_iff, decide_eq_true_iff]

/-- **C114** The numbers of flags which are printed count all rows, sky fibres included. -/
theorem C114_counts (rows : List (CoordRow × FaRow)) (k : ℕ) :
    countOf rows (2 ^ k) = (rows.map fun r => r.1.flags).countP (fun n => n.testBit k) := by
  unfold countOf
  rw [List.countP_map, List.countP_eq_length_filter]
  congr 1
  apply List.filter_congr
  intro r _
  rw [Bool.eq_iff_iff, has_iff]
  rfl

/-- **C114** "CTRLDISABLED but FUNCTIONAL": bit 16 is set and bit 24 is not. -/
theorem C114_disabled (rows : List (CoordRow × FaRow)) :
    disabledFunctional rows = (rows.map fun r => r.1.flags).countP (fun n => n.testBit 16 && !n.testBit 24) := by
  unfold disabledFunctional
  rw [List.countP_map, List.countP_eq_length_filter]
  congr 1
  apply List.filter_congr
  intro r _
  have h : decide (r.1.flags &&& 2 ^ 24 = 0) = !(r.1.flags.testBit 24) := by
    rw [Nat.and_two_pow]
    cases r.1.flags.testBit 24 <;> decide
  have h2 : has r.1.flags (2 ^ 16) = r.1.flags.testBit 16 := by rw [Bool.eq_iff_iff, has_iff]
  rw [h, h2]
  rfl

/-! ## The rms -/

theorem sum_lt (l : List ℝ) (hl : l ≠ []) (h : ∀ x ∈ l, |x| < 1) : (l.map (· ^ 2)).sum < (l.length : ℝ) := by
  induction l with
  | nil => exact absurd rfl hl
  | cons a l ih =>
    have ha : a ^ 2 < 1 := by
      have := h a (by simp)
      rw [← sq_abs]
      nlinarith [abs_nonneg a]
    rw [List.map_cons, List.sum_cons, List.length_cons]
    push_cast
    rcases eq_or_ne l [] with rfl | hne
    · simpa using ha
    · have := ih hne fun x hx => h x (List.mem_cons_of_mem _ hx)
      linarith

theorem rms_lt (l : List ℝ) (h : ∀ x ∈ l, |x| < 1) (v : ℝ) (hv : rms l = some v) : 0 ≤ v ∧ v < 1 := by
  unfold rms at hv
  split at hv
  · cases hv
  · next hne =>
    have := Option.some.inj hv
    subst this
    refine ⟨Real.sqrt_nonneg _, ?_⟩
    have hpos : (0:ℝ) < l.length := by exact_mod_cast List.length_pos_iff.2 hne
    rw [Real.sqrt_lt' one_pos, div_lt_iff₀ hpos]
    simpa using sum_lt l hne h

theorem goodDx_lt (rows : List (CoordRow × FaRow)) (dm : List (Option (ℝ × ℝ))) (d : ℝ × ℝ) (hd : d ∈ goodDx rows dm) :
    |d.1| < 1 ∧ |d.2| < 1 := by
  unfold goodDx at hd
  rw [List.mem_filterMap] at hd
  obtain ⟨⟨r, p⟩, hp, hm⟩ := hd
  obtain ⟨_, _, a, b, ha, hb, hlt⟩ := (C114_good r p).1 (List.mem_filter.1 hp).2
  simp only [ha, hb] at hm
  have := Option.some.inj hm
  subst this
  unfold dist at hlt
  constructor
  · exact lt_of_le_of_lt (Real.abs_le_sqrt (by nlinarith [sq_nonneg (a.2 - b.2)])) hlt
  · exact lt_of_le_of_lt (Real.abs_le_sqrt (by nlinarith [sq_nonneg (a.1 - b.1)])) hlt

/-- **C114** The rms of the differences which is printed for the good targets is below 1 mm for all
data, however large the differences are; it is NaN exactly when there is no good target. -/
theorem C114_rms (rows : List (CoordRow × FaRow)) (dm : List (Option (ℝ × ℝ))) :
    (∀ v, (printed rows dm).1 = some v → 0 ≤ v ∧ v < 1) ∧ (∀ v, (printed rows dm).2 = some v → 0 ≤ v ∧ v < 1) ∧
      ((printed rows dm).1 = none ↔ ∀ p ∈ rows.zip dm, good p = false) := by
  refine ⟨fun v hv => rms_lt _ ?_ v hv, fun v hv => rms_lt _ ?_ v hv, ?_⟩
  · intro x hx
    obtain ⟨d, hd, rfl⟩ := List.mem_map.1 hx
    exact (goodDx_lt rows dm d hd).1
  · intro x hx
    obtain ⟨d, hd, rfl⟩ := List.mem_map.1 hx
    exact (goodDx_lt rows dm d hd).2
  · unfold printed rms
    have hn : ((goodDx rows dm).map Prod.fst = []) ↔ ∀ p ∈ rows.zip dm, good p = false := by
      rw [List.map_eq_nil_iff]
      unfold goodDx
      rw [List.filterMap_eq_nil_iff]
      constructor
      · intro h p hp
        rw [Bool.eq_false_iff]
        intro hg
        have := h p (List.mem_filter.2 ⟨hp, hg⟩)
        obtain ⟨_, _, a, b, ha, hb, _⟩ := (C114_good p.1 p.2).1 hg
        rw [ha, hb] at this
        cases this
      · intro h p hp
        obtain ⟨h1, h2⟩ := List.mem_filter.1 hp
        rw [h p h1] at h2
        cases h2
    rw [← hn]
    dsimp only
    constructor
    · intro h
      by_contra hne
      rw [if_neg hne] at h
      cases h
    · intro h
      rw [if_pos h]

/-! ## Examples -/

/-- A target at location 3042. -/
noncomputable def exC : CoordRow := ⟨some 10, some 20, some 5, some 6, 3, 42, some (5, 6), 0⟩
def exF : FaRow := ⟨3, 42, "TGT".toList⟩

example : Measured exC := ⟨⟨_, rfl⟩, ⟨_, rfl⟩, ⟨5, rfl, by norm_num⟩, ⟨_, rfl⟩⟩

example : LastAt [exF] 3042 exF := ⟨[], [], rfl, by decide, by simp⟩

example : ∃ rows, joined [exC] [exF] = .ok rows ∧ rows = [(exC, exF)] := by
  refine ⟨_, ?_, rfl⟩
  unfold joined
  have : [exC].filter usable = [exC] := by
    rw [List.filter_cons_of_pos ((usable_iff exC).2 ⟨⟨_, rfl⟩, ⟨_, rfl⟩, ⟨5, rfl, by norm_num⟩, ⟨_, rfl⟩⟩)]
    rfl
  rw [this]
  rfl

/-- The target is written: its two positions differ by 0.05 mm. -/
example : (⟨some (5, 6), some (5.05, 6)⟩ : Out) ∈ written [(exC, exF)] [some (5.05, 6)] := by
  rw [C114_written]
  refine ⟨0, (exC, exF), (5.05, 6), (5, 6), rfl, rfl, rfl, ?_, ?_, rfl⟩
  · unfold dist
    rw [Real.sqrt_lt' (by norm_num)]
    norm_num
  · rintro ⟨_, b, _, h⟩
    simp [exC] at h

end Verif.Props.PmCoords
