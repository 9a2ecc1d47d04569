import Verif.Model.BinErrors
import Mathlib.Tactic.Linarith
import Mathlib.Tactic.NormNum
import Mathlib.Tactic.FieldSimp
import Mathlib.Tactic.Ring
import Mathlib.Data.List.Sort
import Mathlib.Algebra.Order.Floor.Ring

/-!
# C113: counts of positioners within error thresholds over time
-/

set_option linter.unusedSectionVars false

namespace Verif.Props.BinErrors
open Verif.Py Verif.Model.BinErrors

variable {κ : Type} [DecidableEq κ]

/-- The day that ends at `d`. -/
def InDay (d x : ℝ) : Prop := d - 86400 < x ∧ x ≤ d

/-! ## Dates -/

theorem periods_lt (t : List (Row κ)) : (periods t).Pairwise (· < ·) := List.sortedLT_iff_pairwise.1 (Finset.sortedLT_sort _)

theorem mem_periods (t : List (Row κ)) (d : ℝ) : d ∈ periods t ↔ ∃ r ∈ t, r.date = d := by
  unfold periods
  rw [Finset.mem_sort, List.mem_toFinset, List.mem_map]

theorem periods_mono (t : List (Row κ)) {i j : ℕ} {a b : ℝ} (hi : (periods t)[i]? = some a) (hj : (periods t)[j]? = some b) (h : i < j) : a < b := by
  obtain ⟨hi', rfl⟩ := List.getElem?_eq_some_iff.1 hi
  obtain ⟨hj', rfl⟩ := List.getElem?_eq_some_iff.1 hj
  exact List.pairwise_iff_getElem.1 (periods_lt t) i j hi' hj' h

/-- No row has a date between two neighbours. -/
theorem between (t : List (Row κ)) {i : ℕ} {a b : ℝ} (hi : (periods t)[i]? = some a) (hj : (periods t)[i + 1]? = some b) {r : Row κ} (hr : r ∈ t)
    (h : r.date ≤ b) : r.date ≤ a ∨ r.date = b := by
  obtain ⟨k, hk⟩ := List.mem_iff_getElem?.1 ((mem_periods t r.date).2 ⟨r, hr, rfl⟩)
  rcases lt_trichotomy k (i + 1) with h1 | h1 | h1
  · rcases (Nat.lt_succ_iff.1 h1).lt_or_eq with h2 | h2
    · exact Or.inl (periods_mono t hk hi h2).le
    · subst h2
      rw [hk] at hi
      exact Or.inl (Option.some.inj hi).le
  · subst h1
    rw [hk] at hj
    exact Or.inr (Option.some.inj hj)
  · exact absurd (periods_mono t hj hk h1) (not_lt.2 h)

theorem first_le (t : List (Row κ)) {a : ℝ} (h0 : (periods t)[0]? = some a) {r : Row κ} (hr : r ∈ t) : a ≤ r.date := by
  obtain ⟨k, hk⟩ := List.mem_iff_getElem?.1 ((mem_periods t r.date).2 ⟨r, hr, rfl⟩)
  rcases Nat.eq_zero_or_pos k with h1 | h1
  · subst h1
    rw [h0] at hk
    exact (Option.some.inj hk).le
  · exact (periods_mono t h0 hk h1).le

theorem mem_sub (t : List (Row κ)) (d : ℝ) (r : Row κ) : r ∈ subtable t false d ↔ r ∈ t ∧ InDay d r.date := by
  classical
  unfold subtable InDay
  rw [List.mem_filter]
  simp

theorem mem_sub0 (t : List (Row κ)) {d : ℝ} (h0 : (periods t)[0]? = some d) (r : Row κ) : r ∈ subtable t true d ↔ r ∈ t ∧ InDay d r.date := by
  classical
  unfold subtable InDay
  rw [List.mem_filter]
  constructor
  · rintro ⟨h1, h2⟩
    have := first_le t h0 h1
    simp at h2
    exact ⟨h1, by linarith, h2.2⟩
  · rintro ⟨h1, h2, h3⟩
    simp
    exact ⟨h1, by linarith, h3⟩

/-! ## One period -/

/-- Fails in a list of rows. -/
def FailsIn (c : WithTop ℝ) (sub : List (Row κ)) (p : κ) : Prop := ∃ r ∈ sub, r.id = p ∧ ¬ (r.err : WithTop ℝ) ≤ c
/-- Passes in a list of rows. -/
def PassesIn (c : WithTop ℝ) (sub : List (Row κ)) (p : κ) : Prop := (∃ r ∈ sub, r.id = p) ∧ ∀ r ∈ sub, r.id = p → (r.err : WithTop ℝ) ≤ c
/-- Is in a list of rows. -/
def IsIn (sub : List (Row κ)) (p : κ) : Prop := ∃ r ∈ sub, r.id = p

theorem mem_failSet (c : WithTop ℝ) (sub : List (Row κ)) (p : κ) :
    p ∈ ((sub.filter fun r => !passes c r).map Row.id).toFinset ↔ FailsIn c sub p := by
  classical
  unfold FailsIn passes
  simp only [List.mem_toFinset, List.mem_map, List.mem_filter]
  constructor
  · rintro ⟨r, ⟨h1, h2⟩, h3⟩
    exact ⟨r, h1, h3, by simpa using h2⟩
  · rintro ⟨r, h1, h3, h2⟩
    exact ⟨r, ⟨h1, by simpa using h2⟩, h3⟩

theorem mem_passSet (c : WithTop ℝ) (sub : List (Row κ)) (p : κ) :
    p ∈ ((sub.filter (passes c)).map Row.id).toFinset \ ((sub.filter fun r => !passes c r).map Row.id).toFinset ↔ PassesIn c sub p := by
  classical
  rw [Finset.mem_sdiff, mem_failSet]
  unfold FailsIn PassesIn passes
  simp only [List.mem_toFinset, List.mem_map, List.mem_filter]
  constructor
  · rintro ⟨⟨r, ⟨h1, h2⟩, h3⟩, h4⟩
    refine ⟨⟨r, h1, h3⟩, fun r' hr' e => ?_⟩
    by_contra hc
    exact h4 ⟨r', hr', e, hc⟩
  · rintro ⟨⟨r, h1, h3⟩, h4⟩
    refine ⟨⟨r, ⟨h1, by simpa using h4 r h1 h3⟩, h3⟩, ?_⟩
    rintro ⟨r', hr', e, hc⟩
    exact hc (h4 r' hr' e)

theorem isIn_iff (c : WithTop ℝ) (sub : List (Row κ)) (p : κ) : IsIn sub p ↔ PassesIn c sub p ∨ FailsIn c sub p := by
  constructor
  · rintro ⟨r, hr, e⟩
    by_cases h : FailsIn c sub p
    · exact Or.inr h
    · refine Or.inl ⟨⟨r, hr, e⟩, fun r' hr' e' => ?_⟩
      by_contra hc
      exact h ⟨r', hr', e', hc⟩
  · rintro (h | ⟨r, hr, e, -⟩)
    · exact h.1
    · exact ⟨r, hr, e⟩

theorem not_both (c : WithTop ℝ) (sub : List (Row κ)) (p : κ) (h : PassesIn c sub p) : ¬ FailsIn c sub p := by
  rintro ⟨r, hr, e, hc⟩
  exact hc (h.2 r hr e)

theorem status_none (ids : Finset κ) (c : WithTop ℝ) (sub : List (Row κ)) (p : κ) :
    (p ∈ (status ids c sub none).1 ↔ PassesIn c sub p) ∧ (p ∈ (status ids c sub none).2 ↔ FailsIn c sub p) :=
  ⟨mem_passSet c sub p, mem_failSet c sub p⟩

theorem status_some (ids : Finset κ) (c : WithTop ℝ) (sub : List (Row κ)) (q : Finset κ × Finset κ) (hq : q.1 ⊆ ids ∧ q.2 ⊆ ids) (p : κ) :
    (p ∈ (status ids c sub (some q)).1 ↔ PassesIn c sub p ∨ ¬ IsIn sub p ∧ p ∈ q.1) ∧
    (p ∈ (status ids c sub (some q)).2 ↔ FailsIn c sub p ∨ ¬ IsIn sub p ∧ p ∈ q.2) := by
  unfold status
  dsimp only
  have hu : p ∈ ids \ ((((sub.filter (passes c)).map Row.id).toFinset \ ((sub.filter fun r => !passes c r).map Row.id).toFinset) ∪
      ((sub.filter fun r => !passes c r).map Row.id).toFinset) ↔ p ∈ ids ∧ ¬ IsIn sub p := by
    rw [Finset.mem_sdiff, Finset.mem_union, mem_passSet, mem_failSet, ← isIn_iff]
  rw [Finset.mem_union, Finset.mem_union, Finset.mem_inter, Finset.mem_inter, hu, mem_passSet, mem_failSet]
  constructor
  · constructor
    · rintro (h | ⟨h1, h2⟩)
      · exact Or.inl h
      · exact Or.inr ⟨h2.2, h1⟩
    · rintro (h | ⟨h1, h2⟩)
      · exact Or.inl h
      · exact Or.inr ⟨h2, hq.1 h2, h1⟩
  · constructor
    · rintro (h | ⟨h1, h2⟩)
      · exact Or.inl h
      · exact Or.inr ⟨h2.2, h1⟩
    · rintro (h | ⟨h1, h2⟩)
      · exact Or.inl h
      · exact Or.inr ⟨h2, hq.2 h2, h1⟩

theorem status_sub (t : List (Row κ)) (c : WithTop ℝ) (sub : List (Row κ)) (hs : ∀ r ∈ sub, r ∈ t) (prev : Option (Finset κ × Finset κ))
    (hq : ∀ q, prev = some q → q.1 ⊆ (t.map Row.id).toFinset ∧ q.2 ⊆ (t.map Row.id).toFinset) :
    (status (t.map Row.id).toFinset c sub prev).1 ⊆ (t.map Row.id).toFinset ∧ (status (t.map Row.id).toFinset c sub prev).2 ⊆ (t.map Row.id).toFinset := by
  have hin : ∀ p, IsIn sub p → p ∈ (t.map Row.id).toFinset := by
    rintro p ⟨r, hr, rfl⟩
    exact List.mem_toFinset.2 (List.mem_map.2 ⟨r, hs r hr, rfl⟩)
  rcases prev with _ | q
  · exact ⟨fun p hp => hin p ((isIn_iff c sub p).2 (Or.inl ((status_none _ c sub p).1.1 hp))),
      fun p hp => hin p ((isIn_iff c sub p).2 (Or.inr ((status_none _ c sub p).2.1 hp)))⟩
  · have h := hq q rfl
    constructor
    · intro p hp
      rcases (status_some _ c sub q h p).1.1 hp with h1 | h1
      · exact hin p ((isIn_iff c sub p).2 (Or.inl h1))
      · exact h.1 h1.2
    · intro p hp
      rcases (status_some _ c sub q h p).2.1 hp with h1 | h1
      · exact hin p ((isIn_iff c sub p).2 (Or.inr h1))
      · exact h.2 h1.2

/-! ## All periods -/

theorem follow_length (t : List (Row κ)) (c : WithTop ℝ) (q : Finset κ × Finset κ) (ds : List ℝ) : (follow t c q ds).length = ds.length := by
  induction ds generalizing q with
  | nil => rfl
  | cons d ds ih =>
    unfold follow
    dsimp only
    rw [List.length_cons, List.length_cons, ih]

theorem groups_length (t : List (Row κ)) (c : WithTop ℝ) (ds : List ℝ) : (groups t c ds).length = ds.length := by
  rcases ds with _ | ⟨d, ds⟩
  · rfl
  · unfold groups
    dsimp only
    rw [List.length_cons, List.length_cons, follow_length]

theorem follow_step (t : List (Row κ)) (c : WithTop ℝ) (q : Finset κ × Finset κ) (ds : List ℝ) (i : ℕ) (x : Finset κ × Finset κ) (d : ℝ)
    (hx : (q :: follow t c q ds)[i]? = some x) (hd : ds[i]? = some d) :
    (follow t c q ds)[i]? = some (status (t.map Row.id).toFinset c (subtable t false d) (some x)) := by
  induction ds generalizing q i with
  | nil => simp at hd
  | cons a ds ih =>
    unfold follow at hx ⊢
    dsimp only at hx ⊢
    rcases i with _ | i
    · obtain rfl : q = x := by simpa using hx
      obtain rfl : a = d := by simpa using hd
      rfl
    · rw [List.getElem?_cons_succ] at hx hd ⊢
      exact ih _ i hx hd

theorem groups_step (t : List (Row κ)) (c : WithTop ℝ) (ds : List ℝ) (i : ℕ) (x : Finset κ × Finset κ) (d : ℝ)
    (hx : (groups t c ds)[i]? = some x) (hd : ds[i + 1]? = some d) :
    (groups t c ds)[i + 1]? = some (status (t.map Row.id).toFinset c (subtable t false d) (some x)) := by
  rcases ds with _ | ⟨a, ds⟩
  · simp at hd
  · unfold groups at hx ⊢
    dsimp only at hx ⊢
    rw [List.getElem?_cons_succ] at hd ⊢
    exact follow_step t c _ ds i x d hx hd

theorem groups_sub (t : List (Row κ)) (c : WithTop ℝ) (i : ℕ) (x : Finset κ × Finset κ) (hx : (groups t c (periods t))[i]? = some x) :
    x.1 ⊆ (t.map Row.id).toFinset ∧ x.2 ⊆ (t.map Row.id).toFinset := by
  induction i generalizing x with
  | zero =>
    rcases e : periods t with _ | ⟨a, ds⟩
    · rw [e] at hx; simp [groups] at hx
    · have h0 : (periods t)[0]? = some a := by rw [e]; rfl
      rw [e] at hx
      obtain rfl : _ = x := by simpa [groups] using hx
      exact status_sub t c _ (fun r hr => ((mem_sub0 t h0 r).1 hr).1) none (fun q h => by cases h)
  | succ i ih =>
    have hl : i + 1 < (periods t).length := by
      rw [← groups_length t c]
      exact (List.getElem?_eq_some_iff.1 hx).1
    obtain ⟨y, hy⟩ : ∃ y, (groups t c (periods t))[i]? = some y := ⟨_, List.getElem?_eq_getElem (by rw [groups_length]; omega)⟩
    have hs := groups_step t c (periods t) i y _ hy (List.getElem?_eq_getElem hl)
    rw [hx] at hs
    rw [Option.some.inj hs]
    exact status_sub t c _ (fun r hr => ((mem_sub t _ r).1 hr).1) _ (fun q h => by
      obtain rfl := Option.some.inj h
      exact ih y hy)

/-- Rows of a positioner in the day that ends at `d`. -/
def Has (t : List (Row κ)) (d : ℝ) (p : κ) : Prop := ∃ r ∈ t, r.id = p ∧ InDay d r.date
/-- One of them is above the threshold. -/
def Above (c : WithTop ℝ) (t : List (Row κ)) (d : ℝ) (p : κ) : Prop := ∃ r ∈ t, r.id = p ∧ InDay d r.date ∧ ¬ (r.err : WithTop ℝ) ≤ c
/-- None of them is. -/
def Below (c : WithTop ℝ) (t : List (Row κ)) (d : ℝ) (p : κ) : Prop := ∀ r ∈ t, r.id = p → InDay d r.date → (r.err : WithTop ℝ) ≤ c

/-- The last date, up to number `i`, with rows of the positioner in the day before it. -/
def LastDate (t : List (Row κ)) (i : ℕ) (p : κ) (d : ℝ) : Prop :=
  ∃ k ≤ i, (periods t)[k]? = some d ∧ Has t d p ∧ ∀ j e, k < j → j ≤ i → (periods t)[j]? = some e → ¬ Has t e p

/-- **C113** At every date, the positioners failing are those with an error above the threshold in the last day that has data of them, where the days are those that
end at dates of the table; the positioners passing are those with data none of which is above the threshold in that day. -/
theorem C113_status (t : List (Row κ)) (c : WithTop ℝ) (i : ℕ) (x : Finset κ × Finset κ) (hx : (groups t c (periods t))[i]? = some x) (p : κ) :
    (p ∈ x.2 ↔ ∃ d, LastDate t i p d ∧ Above c t d p) ∧ (p ∈ x.1 ↔ ∃ d, LastDate t i p d ∧ Below c t d p) := by
  have key : ∀ (sub : List (Row κ)) (d : ℝ), (∀ r, r ∈ sub ↔ r ∈ t ∧ InDay d r.date) →
      (PassesIn c sub p ↔ Has t d p ∧ Below c t d p) ∧ (FailsIn c sub p ↔ Has t d p ∧ Above c t d p) ∧ (IsIn sub p ↔ Has t d p) := by
    intro sub d hs
    refine ⟨⟨?_, ?_⟩, ⟨?_, ?_⟩, ⟨?_, ?_⟩⟩
    · rintro ⟨⟨r, hr, e⟩, h⟩
      exact ⟨⟨r, ((hs r).1 hr).1, e, ((hs r).1 hr).2⟩, fun r' hr' e' hd => h r' ((hs r').2 ⟨hr', hd⟩) e'⟩
    · rintro ⟨⟨r, hr, e, hd⟩, h⟩
      exact ⟨⟨r, (hs r).2 ⟨hr, hd⟩, e⟩, fun r' hr' e' => h r' ((hs r').1 hr').1 e' ((hs r').1 hr').2⟩
    · rintro ⟨r, hr, e, h⟩
      exact ⟨⟨r, ((hs r).1 hr).1, e, ((hs r).1 hr).2⟩, r, ((hs r).1 hr).1, e, ((hs r).1 hr).2, h⟩
    · rintro ⟨-, r, hr, e, hd, h⟩
      exact ⟨r, (hs r).2 ⟨hr, hd⟩, e, h⟩
    · rintro ⟨r, hr, e⟩
      exact ⟨r, ((hs r).1 hr).1, e, ((hs r).1 hr).2⟩
    · rintro ⟨r, hr, e, hd⟩
      exact ⟨r, (hs r).2 ⟨hr, hd⟩, e⟩
  have hlast : ∀ (i : ℕ) d, (periods t)[i]? = some d → Has t d p → ∀ d', LastDate t i p d' ↔ d' = d := by
    intro i d hd hh d'
    constructor
    · rintro ⟨k, hk, h1, h2, h3⟩
      rcases hk.lt_or_eq with hlt | rfl
      · exact absurd hh (h3 i d hlt le_rfl hd)
      · rw [hd] at h1
        exact (Option.some.inj h1).symm
    · rintro rfl
      exact ⟨i, le_rfl, hd, hh, fun j e h1 h2 => absurd (lt_of_lt_of_le h1 h2) (lt_irrefl _)⟩
  induction i generalizing x with
  | zero =>
    rcases e : periods t with _ | ⟨a, ds⟩
    · rw [e] at hx; simp [groups] at hx
    · have h0 : (periods t)[0]? = some a := by rw [e]; rfl
      rw [e] at hx
      obtain rfl : _ = x := by simpa [groups] using hx
      obtain ⟨k1, k2, k3⟩ := key (subtable t true a) a (mem_sub0 t h0)
      rw [(status_none _ c _ p).1, (status_none _ c _ p).2, k1, k2]
      have h00 : ∀ d, LastDate t 0 p d → d = a ∧ Has t a p := by
        rintro d ⟨k, hk, h1, h2, -⟩
        obtain rfl := Nat.le_zero.1 hk
        rw [h0] at h1
        obtain rfl := Option.some.inj h1
        exact ⟨rfl, h2⟩
      constructor
      · constructor
        · rintro ⟨h1, h2⟩
          exact ⟨a, (hlast 0 a h0 h1 a).2 rfl, h2⟩
        · rintro ⟨d, h1, h2⟩
          obtain ⟨rfl, h3⟩ := h00 d h1
          exact ⟨h3, h2⟩
      · constructor
        · rintro ⟨h1, h2⟩
          exact ⟨a, (hlast 0 a h0 h1 a).2 rfl, h2⟩
        · rintro ⟨d, h1, h2⟩
          obtain ⟨rfl, h3⟩ := h00 d h1
          exact ⟨h3, h2⟩
  | succ i ih =>
    have hl : i + 1 < (periods t).length := by
      rw [← groups_length t c]
      exact (List.getElem?_eq_some_iff.1 hx).1
    obtain ⟨y, hy⟩ : ∃ y, (groups t c (periods t))[i]? = some y := ⟨_, List.getElem?_eq_getElem (by rw [groups_length]; omega)⟩
    obtain ⟨d, hd⟩ : ∃ d, (periods t)[i + 1]? = some d := ⟨_, List.getElem?_eq_getElem hl⟩
    have hs := groups_step t c (periods t) i y _ hy hd
    rw [hx] at hs
    rw [Option.some.inj hs]
    obtain ⟨k1, k2, k3⟩ := key (subtable t false d) d (mem_sub t d)
    obtain ⟨s1, s2⟩ := status_some (t.map Row.id).toFinset c (subtable t false d) y (groups_sub t c i y hy) p
    obtain ⟨i2, i1⟩ := ih y hy
    rw [s1, s2, k1, k2, k3, i1, i2]
    have hno : ¬ Has t d p → ∀ d', LastDate t (i + 1) p d' ↔ LastDate t i p d' := by
      intro hn d'
      constructor
      · rintro ⟨k, hk, h1, h2, h3⟩
        rcases hk.lt_or_eq with hlt | rfl
        · exact ⟨k, Nat.lt_succ_iff.1 hlt, h1, h2, fun j e g1 g2 => h3 j e g1 (by omega)⟩
        · rw [hd] at h1
          obtain rfl := Option.some.inj h1
          exact absurd h2 hn
      · rintro ⟨k, hk, h1, h2, h3⟩
        refine ⟨k, by omega, h1, h2, fun j e g1 g2 g3 => ?_⟩
        rcases g2.lt_or_eq with hlt | rfl
        · exact h3 j e g1 (Nat.lt_succ_iff.1 hlt) g3
        · rw [hd] at g3
          obtain rfl := Option.some.inj g3
          exact hn
    by_cases hh : Has t d p
    · constructor
      · constructor
        · rintro (⟨-, h⟩ | ⟨h, -⟩)
          · exact ⟨d, (hlast _ d hd hh d).2 rfl, h⟩
          · exact absurd hh h
        · rintro ⟨d', h1, h2⟩
          obtain rfl := (hlast _ d hd hh d').1 h1
          exact Or.inl ⟨hh, h2⟩
      · constructor
        · rintro (⟨-, h⟩ | ⟨h, -⟩)
          · exact ⟨d, (hlast _ d hd hh d).2 rfl, h⟩
          · exact absurd hh h
        · rintro ⟨d', h1, h2⟩
          obtain rfl := (hlast _ d hd hh d').1 h1
          exact Or.inl ⟨hh, h2⟩
    · constructor
      · constructor
        · rintro (⟨h, -⟩ | ⟨-, d', h1, h2⟩)
          · exact absurd h hh
          · exact ⟨d', (hno hh d').2 h1, h2⟩
        · rintro ⟨d', h1, h2⟩
          exact Or.inr ⟨hh, d', (hno hh d').1 h1, h2⟩
      · constructor
        · rintro (⟨h, -⟩ | ⟨-, d', h1, h2⟩)
          · exact absurd h hh
          · exact ⟨d', (hno hh d').2 h1, h2⟩
        · rintro ⟨d', h1, h2⟩
          exact Or.inr ⟨hh, d', (hno hh d').1 h1, h2⟩

theorem lastDate_unique (t : List (Row κ)) (i : ℕ) (p : κ) {d d' : ℝ} (h : LastDate t i p d) (h' : LastDate t i p d') : d = d' := by
  obtain ⟨k, h1, h2, h3, h4⟩ := h
  obtain ⟨k', h1', h2', h3', h4'⟩ := h'
  rcases lt_trichotomy k k' with g | g | g
  · exact absurd h3' (h4 k' d' g h1' h2')
  · subst g
    rw [h2] at h2'
    exact Option.some.inj h2'
  · exact absurd h3 (h4' k d g h1 h2)

theorem lastDate_exists (t : List (Row κ)) (i : ℕ) (p : κ) (d : ℝ) (hd : (periods t)[i]? = some d) :
    (∃ e, LastDate t i p e) ↔ ∃ r ∈ t, r.id = p ∧ r.date ≤ d := by
  constructor
  · rintro ⟨e, k, hk, h1, ⟨r, hr, h2, h3⟩, -⟩
    refine ⟨r, hr, h2, h3.2.trans ?_⟩
    rcases hk.lt_or_eq with h | rfl
    · exact (periods_mono t h1 hd h).le
    · rw [hd] at h1
      exact (Option.some.inj h1).ge
  · induction i generalizing d with
    | zero =>
      rintro ⟨r, hr, h2, h3⟩
      have := first_le t hd hr
      exact ⟨d, 0, le_rfl, hd, ⟨r, hr, h2, by linarith, h3⟩, fun j e h1 h2 => absurd (lt_of_lt_of_le h1 h2) (lt_irrefl _)⟩
    | succ i ih =>
      rintro ⟨r, hr, h2, h3⟩
      by_cases hh : Has t d p
      · exact ⟨d, i + 1, le_rfl, hd, hh, fun j e h1 h2 => absurd (lt_of_lt_of_le h1 h2) (lt_irrefl _)⟩
      · have hl : i < (periods t).length := by
          have := (List.getElem?_eq_some_iff.1 hd).1
          omega
        have ha := List.getElem?_eq_getElem hl
        rcases between t ha hd hr h3 with h4 | h4
        · obtain ⟨e, k, g1, g2, g3, g4⟩ := ih _ ha ⟨r, hr, h2, h4⟩
          refine ⟨e, k, by omega, g2, g3, fun j f k1 k2 k3 => ?_⟩
          rcases k2.lt_or_eq with hlt | rfl
          · exact g4 j f k1 (Nat.lt_succ_iff.1 hlt) k3
          · rw [hd] at k3
            obtain rfl := Option.some.inj k3
            exact hh
        · exact absurd ⟨r, hr, h2, by linarith, h3⟩ hh

theorem above_or (c : WithTop ℝ) (t : List (Row κ)) (d : ℝ) (p : κ) : (Above c t d p ∨ Below c t d p) ∧ ¬ (Above c t d p ∧ Below c t d p) := by
  constructor
  · by_cases h : Above c t d p
    · exact Or.inl h
    · refine Or.inr fun r hr e hd => ?_
      by_contra hc
      exact h ⟨r, hr, e, hd, hc⟩
  · rintro ⟨⟨r, hr, e, hd, hc⟩, h⟩
    exact hc (h r hr e hd)

/-- **C113** At every date and for every threshold, each positioner with data up to that date is either passing or failing, never both, and no other is. -/
theorem C113_partition (t : List (Row κ)) (c : WithTop ℝ) (i : ℕ) (x : Finset κ × Finset κ) (d : ℝ) (hx : (groups t c (periods t))[i]? = some x)
    (hd : (periods t)[i]? = some d) : Disjoint x.1 x.2 ∧ ∀ p, p ∈ x.1 ∪ x.2 ↔ ∃ r ∈ t, r.id = p ∧ r.date ≤ d := by
  constructor
  · rw [Finset.disjoint_left]
    intro p h1 h2
    obtain ⟨s2, s1⟩ := C113_status t c i x hx p
    obtain ⟨a, ha, ha'⟩ := s1.1 h1
    obtain ⟨b, hb, hb'⟩ := s2.1 h2
    obtain rfl := lastDate_unique t i p ha hb
    exact (above_or c t a p).2 ⟨hb', ha'⟩
  · intro p
    obtain ⟨s2, s1⟩ := C113_status t c i x hx p
    rw [Finset.mem_union, s1, s2, ← lastDate_exists t i p d hd]
    constructor
    · rintro (⟨e, h, -⟩ | ⟨e, h, -⟩) <;> exact ⟨e, h⟩
    · rintro ⟨e, h⟩
      rcases (above_or c t e p).1 with g | g
      · exact Or.inr ⟨e, h, g⟩
      · exact Or.inl ⟨e, h, g⟩

/-- **C113** A larger threshold has more positioners passing and fewer failing. -/
theorem C113_monotone (t : List (Row κ)) {c c' : WithTop ℝ} (hc : c ≤ c') (i : ℕ) (x y : Finset κ × Finset κ)
    (hx : (groups t c (periods t))[i]? = some x) (hy : (groups t c' (periods t))[i]? = some y) : x.1 ⊆ y.1 ∧ y.2 ⊆ x.2 := by
  constructor
  · intro p hp
    obtain ⟨d, h1, h2⟩ := (C113_status t c i x hx p).2.1 hp
    exact (C113_status t c' i y hy p).2.2 ⟨d, h1, fun r hr e hd => (h2 r hr e hd).trans hc⟩
  · intro p hp
    obtain ⟨d, h1, r, hr, e, hd, h2⟩ := (C113_status t c' i y hy p).1.1 hp
    exact (C113_status t c i x hx p).1.2 ⟨d, h1, r, hr, e, hd, fun h => h2 (h.trans hc)⟩

/-- **C113** If the errors of a positioner within a day are all above the threshold or all not above it, its status is given by its last row. -/
theorem C113_latest (t : List (Row κ)) (c : WithTop ℝ) (i : ℕ) (x : Finset κ × Finset κ) (d : ℝ) (hx : (groups t c (periods t))[i]? = some x)
    (hd : (periods t)[i]? = some d) (r : Row κ) (hr : r ∈ t) (hrd : r.date ≤ d) (hlast : ∀ s ∈ t, s.id = r.id → s.date ≤ d → s.date ≤ r.date)
    (hsame : ∀ s ∈ t, ∀ s' ∈ t, s.id = r.id → s'.id = r.id → |s.date - s'.date| < 86400 → ((s.err : WithTop ℝ) ≤ c ↔ (s'.err : WithTop ℝ) ≤ c)) :
    (r.id ∈ x.1 ↔ (r.err : WithTop ℝ) ≤ c) ∧ (r.id ∈ x.2 ↔ ¬ (r.err : WithTop ℝ) ≤ c) := by
  obtain ⟨hdis, hall⟩ := C113_partition t c i x d hx hd
  have hmem := (hall r.id).2 ⟨r, hr, rfl, hrd⟩
  obtain ⟨e, he⟩ := (lastDate_exists t i r.id d hd).2 ⟨r, hr, rfl, hrd⟩
  obtain ⟨k, hk, hke, ⟨s, hs, hsid, hsd⟩, hno⟩ := he
  have hed : e ≤ d := by
    rcases hk.lt_or_eq with h | rfl
    · exact (periods_mono t hke hd h).le
    · rw [hd] at hke
      exact (Option.some.inj hke).ge
  have hre : r.date ≤ e := by
    by_contra hlt
    obtain ⟨m, hm⟩ := List.mem_iff_getElem?.1 ((mem_periods t r.date).2 ⟨r, hr, rfl⟩)
    have h1 : k < m := by
      by_contra hmk
      rcases (not_lt.1 hmk).lt_or_eq with h | rfl
      · exact hlt (periods_mono t hm hke h).le
      · rw [hm] at hke
        exact hlt (Option.some.inj hke).le
    have h2 : m ≤ i := by
      by_contra him
      exact absurd (periods_mono t hd hm (not_le.1 him)) (not_lt.2 hrd)
    exact hno m r.date h1 h2 hm ⟨r, hr, rfl, by linarith, le_rfl⟩
  have hin : InDay e r.date := ⟨lt_of_lt_of_le hsd.1 (hlast s hs hsid (hsd.2.trans hed)), hre⟩
  have hiff : ∀ s ∈ t, s.id = r.id → InDay e s.date → ((s.err : WithTop ℝ) ≤ c ↔ (r.err : WithTop ℝ) ≤ c) := by
    intro s hs e1 h1
    refine hsame s hs r hr e1 rfl ?_
    rw [abs_lt]
    constructor <;> linarith [h1.1, h1.2, hin.1, hin.2]
  have hl : LastDate t i r.id e := ⟨k, hk, hke, ⟨s, hs, hsid, hsd⟩, hno⟩
  obtain ⟨s2, s1⟩ := C113_status t c i x hx r.id
  by_cases hc : (r.err : WithTop ℝ) ≤ c
  · have : r.id ∈ x.1 := s1.2 ⟨e, hl, fun s hs e1 h1 => (hiff s hs e1 h1).2 hc⟩
    exact ⟨⟨fun _ => hc, fun _ => this⟩, ⟨fun h => absurd h (Finset.disjoint_left.1 hdis this), fun h => absurd hc h⟩⟩
  · have : r.id ∈ x.2 := s2.2 ⟨e, hl, r, hr, rfl, hin, hc⟩
    exact ⟨⟨fun h => absurd this (Finset.disjoint_left.1 hdis h), fun h => absurd h hc⟩, ⟨fun _ => hc, fun _ => this⟩⟩

/-- A case of `C113_latest`: the error of a positioner gets larger than the threshold two days later. -/
example : ∀ s ∈ [(⟨0, 0, 0⟩ : Row ℕ), ⟨0, 172800, 2⟩], ∀ s' ∈ [(⟨0, 0, 0⟩ : Row ℕ), ⟨0, 172800, 2⟩], s.id = 0 → s'.id = 0 → |s.date - s'.date| < 86400 →
    ((s.err : WithTop ℝ) ≤ ((1 : ℝ) : WithTop ℝ) ↔ (s'.err : WithTop ℝ) ≤ ((1 : ℝ) : WithTop ℝ)) := by
  intro s hs s' hs' _ _ h
  rw [abs_lt] at h
  simp only [List.mem_cons, List.not_mem_nil, or_false] at hs hs'
  rcases hs with rfl | rfl <;> rcases hs' with rfl | rfl
  · rfl
  · norm_num at h
  · norm_num at h
  · rfl

/-! ## The result -/

/-- Position `i` of the lists of the result, at date `d` and threshold `c`. -/
structure At (t : List (Row κ)) (b : Binned κ) (c : WithTop ℝ) (i : ℕ) (d : ℝ) (P F : Finset κ) (n : ℕ) : Prop where
  passing : (b.passing c)[i]? = some P
  failing : (b.failing c)[i]? = some F
  passed : ∀ p, p ∈ P ↔ ∃ e, LastDate t i p e ∧ Below c t e p
  failed : ∀ p, p ∈ F ↔ ∃ e, LastDate t i p e ∧ Above c t e p
  total : b.totalKnown[i]? = some n
  sum : P.card + F.card = n
  known : ∀ S : Finset κ, (∀ p, p ∈ S ↔ ∃ r ∈ t, r.id = p ∧ r.date ≤ d) → S.card = n
  pos : 0 < n
  passingCount : (b.passingCounts c)[i]? = some P.card
  failingCount : (b.failingCounts c)[i]? = some F.card
  passingFrac : (b.passingFracs c)[i]? = some ((P.card : ℝ) / n)
  failingFrac : (b.failingFracs c)[i]? = some ((F.card : ℝ) / n)

/-- **C113** The lists of the result belong together: there is one entry per date of the table, in order, the counts are those of the sets, the number of positioners
known does not depend on the threshold and is not 0, the fractions are the counts divided by it. -/
theorem C113_result (int? : PyStr → Option ℤ) (t : List (Row κ)) (bins : Bins) (b : Binned κ) (h : binErrors int? t bins = .ok b) :
    b.ceilings ≠ [] ∧ b.periods.Pairwise (· < ·) ∧ (∀ d, d ∈ b.periods ↔ ∃ r ∈ t, r.date = d) ∧ b.totalKnown.length = b.periods.length ∧
    ∀ c, (b.passing c).length = b.periods.length ∧ (b.failing c).length = b.periods.length ∧
      ∀ i d, b.periods[i]? = some d → ∃ P F n, At t b c i d P F n := by
  rcases t with _ | ⟨r, rs⟩
  · cases h
  unfold binErrors at h
  dsimp only at h
  rcases e : ceilings int? (least r.err (rs.map Row.err)) (greatest r.err (rs.map Row.err)) bins with e1 | cs
  · rw [e] at h; cases h
  rw [e] at h
  dsimp only at h
  rcases e2 : cs.getLast? with _ | c0
  · rw [e2] at h; cases h
  rw [e2] at h
  dsimp only at h
  obtain rfl := Except.ok.inj h
  generalize htt : r :: rs = t at *
  have hlen : ∀ c, (groups t c (periods t)).length = (periods t).length := fun c => groups_length t c _
  refine ⟨?_, periods_lt t, mem_periods t, by simp [hlen], fun c => ⟨by simp [hlen], by simp [hlen], ?_⟩⟩
  · rintro rfl
    cases e2
  intro i d hd
  dsimp only at hd
  have hi := (List.getElem?_eq_some_iff.1 hd).1
  obtain ⟨x, hx⟩ : ∃ x, (groups t c (periods t))[i]? = some x := ⟨_, List.getElem?_eq_getElem (by rw [hlen]; exact hi)⟩
  obtain ⟨y, hy⟩ : ∃ y, (groups t c0 (periods t))[i]? = some y := ⟨_, List.getElem?_eq_getElem (by rw [hlen]; exact hi)⟩
  obtain ⟨x1, x2⟩ := C113_partition t c i x d hx hd
  obtain ⟨y1, y2⟩ := C113_partition t c0 i y d hy hd
  have hcard : ∀ (S : Finset κ), (∀ p, p ∈ S ↔ ∃ r ∈ t, r.id = p ∧ r.date ≤ d) → S.card = x.1.card + x.2.card := by
    intro S hS
    rw [← Finset.card_union_of_disjoint x1]
    congr 1
    ext p
    rw [hS, x2]
  have hsame : y.1.card + y.2.card = x.1.card + x.2.card := by
    rw [← Finset.card_union_of_disjoint y1]
    exact hcard _ y2
  refine ⟨x.1, x.2, x.1.card + x.2.card, ?_⟩
  constructor
  · simp [hx]
  · simp [hx]
  · exact fun p => (C113_status t c i x hx p).2
  · exact fun p => (C113_status t c i x hx p).1
  · simp [List.getElem?_zip_eq_some, hy, List.getElem?_map, ← hsame]
  · rfl
  · exact hcard
  · obtain ⟨s, hs, hsd⟩ := (mem_periods t d).1 (List.mem_of_getElem? hd)
    have : s.id ∈ x.1 ∪ x.2 := (x2 _).2 ⟨s, hs, rfl, hsd.le⟩
    rw [← Finset.card_union_of_disjoint x1]
    exact Finset.card_pos.2 ⟨_, this⟩
  · simp [hx]
  · simp [hx]
  · simp [List.getElem?_zip_eq_some, hx, List.getElem?_map]
  · simp [List.getElem?_zip_eq_some, hx, List.getElem?_map]

/-! ## Thresholds -/

theorem least_spec (a : ℝ) (l : List ℝ) : (∀ x ∈ a :: l, least a l ≤ x) ∧ least a l ∈ a :: l := by
  unfold least
  induction l generalizing a with
  | nil => simp
  | cons b l ih =>
    rw [List.foldl_cons]
    obtain ⟨h1, h2⟩ := ih (min a b)
    constructor
    · intro x hx
      rcases List.mem_cons.1 hx with rfl | hx
      · exact (h1 _ List.mem_cons_self).trans (min_le_left _ _)
      rcases List.mem_cons.1 hx with rfl | hx
      · exact (h1 _ List.mem_cons_self).trans (min_le_right _ _)
      · exact h1 x (List.mem_cons_of_mem _ hx)
    · rcases List.mem_cons.1 h2 with h | h
      · rw [h]
        rcases min_choice a b with g | g <;> rw [g] <;> simp
      · exact List.mem_cons_of_mem _ (List.mem_cons_of_mem _ h)

theorem greatest_spec (a : ℝ) (l : List ℝ) : (∀ x ∈ a :: l, x ≤ greatest a l) ∧ greatest a l ∈ a :: l := by
  unfold greatest
  induction l generalizing a with
  | nil => simp
  | cons b l ih =>
    rw [List.foldl_cons]
    obtain ⟨h1, h2⟩ := ih (max a b)
    constructor
    · intro x hx
      rcases List.mem_cons.1 hx with rfl | hx
      · exact (le_max_left _ _).trans (h1 _ List.mem_cons_self)
      rcases List.mem_cons.1 hx with rfl | hx
      · exact (le_max_right _ _).trans (h1 _ List.mem_cons_self)
      · exact h1 x (List.mem_cons_of_mem _ hx)
    · rcases List.mem_cons.1 h2 with h | h
      · rw [h]
        rcases max_choice a b with g | g <;> rw [g] <;> simp
      · exact List.mem_cons_of_mem _ (List.mem_cons_of_mem _ h)

/-- **C113** With a number `n` of bins there are `n` thresholds, spaced evenly above the smallest error; the last one is the largest error, so that no positioner is
failing. -/
theorem C113_even (int? : PyStr → Option ℤ) (t : List (Row κ)) (n : ℕ) (b : Binned κ) (h : binErrors int? t (.count n) = .ok b) :
    ∃ lo hi : ℝ, (∀ r ∈ t, lo ≤ r.err ∧ r.err ≤ hi) ∧ (∃ r ∈ t, r.err = lo) ∧ (∃ r ∈ t, r.err = hi) ∧ b.ceilings.length = n ∧
      (∀ (k : ℕ) c, b.ceilings[k]? = some c → c = ((lo + (hi - lo) * (k + 1) / n : ℝ) : WithTop ℝ)) ∧
      ∃ c, b.ceilings.getLast? = some c ∧ c = ((hi : ℝ) : WithTop ℝ) ∧ ∀ F ∈ b.failing c, F = ∅ := by
  have h0 := h
  rcases t with _ | ⟨r, rs⟩
  · cases h
  obtain ⟨l1, l2⟩ := least_spec r.err (rs.map Row.err)
  obtain ⟨g1, g2⟩ := greatest_spec r.err (rs.map Row.err)
  have hmap : r.err :: rs.map Row.err = (r :: rs).map Row.err := rfl
  rw [hmap] at l1 l2 g1 g2
  have hce : b.ceilings = linspaceTail (least r.err (rs.map Row.err)) (greatest r.err (rs.map Row.err)) n := by
    unfold binErrors at h
    dsimp only at h
    have e : ceilings int? (least r.err (rs.map Row.err)) (greatest r.err (rs.map Row.err)) (.count n) =
        .ok (linspaceTail (least r.err (rs.map Row.err)) (greatest r.err (rs.map Row.err)) n) := by
      unfold ceilings
      dsimp only
      rw [if_neg (by omega), Int.toNat_natCast]
    rw [e] at h
    dsimp only at h
    rcases e2 : (linspaceTail (least r.err (rs.map Row.err)) (greatest r.err (rs.map Row.err)) n).getLast? with _ | c0
    · rw [e2] at h; cases h
    rw [e2] at h
    dsimp only at h
    rw [← Except.ok.inj h]
  generalize least r.err (rs.map Row.err) = lo at *
  generalize greatest r.err (rs.map Row.err) = hi at *
  generalize r :: rs = t at *
  obtain ⟨hne, -, -, -, hall⟩ := C113_result int? t _ b h0
  have hn : n ≠ 0 := by
    rintro rfl
    exact hne (hce.trans rfl)
  have hget : ∀ (k : ℕ) c, b.ceilings[k]? = some c → c = ((lo + (hi - lo) * (k + 1) / n : ℝ) : WithTop ℝ) := by
    intro k c hk
    rw [hce] at hk
    unfold linspaceTail at hk
    rw [List.getElem?_map] at hk
    obtain ⟨m, hm, rfl⟩ := Option.map_eq_some_iff.1 hk
    obtain ⟨hm1, hm2⟩ := List.getElem?_eq_some_iff.1 hm
    rw [List.getElem_range] at hm2
    subst hm2
    push_cast
    rfl
  refine ⟨lo, hi, fun r hr => ⟨l1 _ (List.mem_map_of_mem hr), g1 _ (List.mem_map_of_mem hr)⟩, List.mem_map.1 l2, List.mem_map.1 g2, ?_, hget, ?_⟩
  · rw [hce]
    unfold linspaceTail
    simp
  · obtain ⟨c, hc⟩ : ∃ c, b.ceilings.getLast? = some c := ⟨_, List.getLast?_eq_some_getLast hne⟩
    have hlen : b.ceilings.length = n := by
      rw [hce]
      unfold linspaceTail
      simp
    have hci : c = ((hi : ℝ) : WithTop ℝ) := by
      rw [List.getLast?_eq_getElem?, hlen] at hc
      rw [hget _ c hc]
      congr 1
      have : ((n - 1 : ℕ) : ℝ) + 1 = n := by
        rw [← Nat.cast_add_one]
        congr 1
        omega
      rw [this]
      have : (n : ℝ) ≠ 0 := by exact_mod_cast hn
      field_simp
      ring
    refine ⟨c, hc, hci, fun F hF => ?_⟩
    obtain ⟨i, hi'⟩ := List.mem_iff_getElem?.1 hF
    obtain ⟨-, hfl, hat⟩ := hall c
    have hil : i < b.periods.length := by
      rw [← hfl]
      exact (List.getElem?_eq_some_iff.1 hi').1
    obtain ⟨P, F', m, hA⟩ := hat i _ (List.getElem?_eq_getElem hil)
    have := hA.failing
    rw [hi'] at this
    obtain rfl := Option.some.inj this
    refine Finset.eq_empty_of_forall_notMem fun p hp => ?_
    obtain ⟨e, -, r, hr, -, -, habove⟩ := (hA.failed p).1 hp
    refine habove ?_
    rw [hci]
    exact WithTop.coe_le_coe.2 (g1 _ (List.mem_map_of_mem hr))

/-- **C113** A sequence of edges: the thresholds are all but the first, whatever their order. -/
theorem C113_edges (int? : PyStr → Option ℤ) (t : List (Row κ)) (a : WithTop ℝ) (l : List (WithTop ℝ)) (ht : t ≠ []) (hl : l ≠ []) :
    ∃ b, binErrors int? t (.edges (a :: l)) = .ok b ∧ b.ceilings = l := by
  rcases t with _ | ⟨r, rs⟩
  · exact absurd rfl ht
  unfold binErrors ceilings
  dsimp only [List.tail_cons]
  rw [List.getLast?_eq_some_getLast hl]
  exact ⟨_, rfl, rfl⟩

/-- **C113** No result: an empty table, less than one bin, less than two edges. (finding) A list of edges typed after `--bins` of plot_posparams is never accepted. -/
theorem C113_errors (int? : PyStr → Option ℤ) (t : List (Row κ)) :
    (∀ bins, binErrors int? ([] : List (Row κ)) bins = .error .valueError) ∧
    (t ≠ [] → (∀ n : ℤ, n < 1 → binErrors int? t (.count n) = .error (if n < -1 then .typeError else .attributeError)) ∧
      (∀ l : List (WithTop ℝ), l.length < 2 → binErrors int? t (.edges l) = .error .attributeError) ∧
      (∀ s, int? s = none → binErrors int? t (.text s) = .error .indexError) ∧
      (∀ s n, int? s = some n → n < 1 → binErrors int? t (.text s) = .error (if n < -1 then .indexError else .attributeError)) ∧
      (∀ s n, int? s = some n → 0 < n → binErrors int? t (.text s) = binErrors int? t (.count n))) := by
  refine ⟨fun bins => rfl, fun ht => ?_⟩
  rcases t with _ | ⟨r, rs⟩
  · exact absurd rfl ht
  refine ⟨?_, ?_, ?_, ?_, ?_⟩
  · intro n hn
    unfold binErrors ceilings
    dsimp only
    by_cases h : n < -1
    · rw [if_pos h, if_pos h]
    · rw [if_neg h, if_neg h]
      have : n.toNat = 0 := by omega
      rw [this]
      rfl
  · intro l hl
    unfold binErrors ceilings
    dsimp only
    have : l.tail = [] := by
      rcases l with _ | ⟨a, _ | ⟨b, l⟩⟩
      · rfl
      · rfl
      · simp at hl
    rw [this]
    rfl
  · intro s hs
    unfold binErrors ceilings
    dsimp only
    rw [hs]
  · intro s n hs hn
    unfold binErrors ceilings
    dsimp only
    rw [hs]
    dsimp only
    by_cases h : n < -1
    · rw [if_pos h, if_pos h]
    · rw [if_neg h, if_neg h]
      have : n.toNat = 0 := by omega
      rw [this]
      rfl
  · intro s n hs hn
    unfold binErrors ceilings
    dsimp only
    rw [hs]
    dsimp only
    rw [if_neg (by omega), if_neg (by omega)]

/-! ## Influence of other positioners -/

theorem periods_of (t : List (Row κ)) (l : List ℝ) (hl : l.Pairwise (· < ·)) (h : ∀ d, d ∈ l ↔ ∃ r ∈ t, r.date = d) : periods t = l := by
  have h1 : (t.map Row.date).toFinset = l.toFinset := by
    ext d
    rw [List.mem_toFinset, List.mem_toFinset, List.mem_map, h]
  unfold periods
  rw [h1]
  exact (List.toFinset_sort (· ≤ ·) (hl.imp fun h => ne_of_lt h)).2 (hl.imp fun h => le_of_lt h)

/-- **C113** (finding) Whether a positioner passes depends on the dates of the data of others: here positioner 0 has an error above the threshold and
later, the same day, one below. It fails at the end, but if positioner 1 has data some hours later, positioner 0 passes. -/
theorem C113_others : ∃ (t : List (Row ℕ)) (r : Row ℕ) (c : WithTop ℝ), r.id ≠ 0 ∧
    (∃ x, (groups t c (periods t)).getLast? = some x ∧ 0 ∈ x.2) ∧
    (∃ x, (groups (t ++ [r]) c (periods (t ++ [r]))).getLast? = some x ∧ 0 ∈ x.1) := by
  refine ⟨[⟨0, 0, 2⟩, ⟨0, 80000, 0⟩], ⟨1, 100000, 0⟩, ((1 : ℝ) : WithTop ℝ), by simp, ?_, ?_⟩
  · have hp : periods [(⟨0, 0, 2⟩ : Row ℕ), ⟨0, 80000, 0⟩] = [0, 80000] := by
      refine periods_of _ _ (by simp) fun d => ?_
      simp [eq_comm]
    have hlen := groups_length [(⟨0, 0, 2⟩ : Row ℕ), ⟨0, 80000, 0⟩] ((1 : ℝ) : WithTop ℝ) (periods [(⟨0, 0, 2⟩ : Row ℕ), ⟨0, 80000, 0⟩])
    obtain ⟨x, hx⟩ : ∃ x, (groups [(⟨0, 0, 2⟩ : Row ℕ), ⟨0, 80000, 0⟩] ((1 : ℝ) : WithTop ℝ) (periods [(⟨0, 0, 2⟩ : Row ℕ), ⟨0, 80000, 0⟩]))[1]? = some x :=
      ⟨_, List.getElem?_eq_getElem (by rw [hlen, hp]; simp)⟩
    refine ⟨x, ?_, ?_⟩
    · rw [List.getLast?_eq_getElem?, hlen, hp] at *
      exact hx
    · refine (C113_status _ _ _ _ hx 0).1.2 ⟨80000, ⟨1, le_rfl, by rw [hp]; rfl, ⟨⟨0, 80000, 0⟩, by simp, rfl, by unfold InDay; norm_num⟩,
        fun j e h1 h2 => absurd (lt_of_lt_of_le h1 h2) (lt_irrefl _)⟩, ⟨0, 0, 2⟩, by simp, rfl, by unfold InDay; norm_num, ?_⟩
      rw [WithTop.coe_le_coe]
      norm_num
  · have hp : periods ([(⟨0, 0, 2⟩ : Row ℕ), ⟨0, 80000, 0⟩] ++ [⟨1, 100000, 0⟩]) = [0, 80000, 100000] := by
      refine periods_of _ _ (by simp; norm_num) fun d => ?_
      simp [eq_comm]
    have hlen := groups_length ([(⟨0, 0, 2⟩ : Row ℕ), ⟨0, 80000, 0⟩] ++ [⟨1, 100000, 0⟩]) ((1 : ℝ) : WithTop ℝ)
      (periods ([(⟨0, 0, 2⟩ : Row ℕ), ⟨0, 80000, 0⟩] ++ [⟨1, 100000, 0⟩]))
    obtain ⟨x, hx⟩ : ∃ x, (groups ([(⟨0, 0, 2⟩ : Row ℕ), ⟨0, 80000, 0⟩] ++ [⟨1, 100000, 0⟩]) ((1 : ℝ) : WithTop ℝ)
        (periods ([(⟨0, 0, 2⟩ : Row ℕ), ⟨0, 80000, 0⟩] ++ [⟨1, 100000, 0⟩])))[2]? = some x :=
      ⟨_, List.getElem?_eq_getElem (by rw [hlen, hp]; simp)⟩
    refine ⟨x, ?_, ?_⟩
    · rw [List.getLast?_eq_getElem?, hlen, hp] at *
      exact hx
    · refine (C113_status _ _ _ _ hx 0).2.2 ⟨100000, ⟨2, le_rfl, by rw [hp]; rfl, ⟨⟨0, 80000, 0⟩, by simp, rfl, by unfold InDay; norm_num⟩,
        fun j e h1 h2 => absurd (lt_of_lt_of_le h1 h2) (lt_irrefl _)⟩, ?_⟩
      intro r hr e hd
      unfold InDay at hd
      simp only [List.cons_append, List.nil_append, List.mem_cons, List.not_mem_nil, or_false] at hr
      rcases hr with rfl | rfl | rfl
      · norm_num at hd
      · rw [WithTop.coe_le_coe]; norm_num
      · norm_num at e

/-! ## Colours and ticks -/

/-- **C113** The hues of the curves: 1 for an infinite threshold, otherwise between 0.25 and 0.95 and growing with the threshold. -/
theorem C113_hues (v : List (Option ℝ)) (l : List ℝ) (h : hues v = .ok l) :
    l.length = v.length ∧ (∀ i : ℕ, v[i]? = some none → l[i]? = some 1) ∧
    (∀ (i : ℕ) x, v[i]? = some (some x) → ∃ y, l[i]? = some y ∧ 0.25 ≤ y ∧ y ≤ 0.95) ∧
    (∀ (i j : ℕ) x x' y y', v[i]? = some (some x) → v[j]? = some (some x') → l[i]? = some y → l[j]? = some y' → (y ≤ y' ↔ |x| ≤ |x'|)) := by
  unfold hues at h
  rcases e : v.filterMap id with _ | ⟨a, w⟩
  · rw [e] at h; cases h
  rw [e] at h
  dsimp only at h
  obtain ⟨g1, g2⟩ := greatest_spec |a| (w.map fun x => |x|)
  have hm : |a| :: (w.map fun x => |x|) = (v.filterMap id).map fun x => |x| := by rw [e]; rfl
  rw [hm] at g1 g2
  generalize greatest |a| (w.map fun x => |x|) = vmax at *
  by_cases h0 : vmax = 0
  · rw [if_pos h0] at h; cases h
  rw [if_neg h0] at h
  obtain rfl := Except.ok.inj h
  have hle : ∀ x, some x ∈ v → |x| ≤ vmax := by
    intro x hx
    exact g1 _ (List.mem_map.2 ⟨x, List.mem_filterMap.2 ⟨some x, hx, rfl⟩, rfl⟩)
  have hpos : 0 < vmax := by
    obtain ⟨x, -, hx⟩ := List.mem_map.1 g2
    exact lt_of_le_of_ne (by rw [← hx]; exact abs_nonneg x) (Ne.symm h0)
  refine ⟨by simp, fun i hi => by rw [List.getElem?_map, hi]; rfl, ?_, ?_⟩
  · intro i x hi
    refine ⟨_, by rw [List.getElem?_map, hi]; rfl, ?_, ?_⟩
    · have : 0 ≤ |x| / vmax := div_nonneg (abs_nonneg x) hpos.le
      nlinarith
    · have : |x| / vmax ≤ 1 := (div_le_one hpos).2 (hle x (List.mem_of_getElem? hi))
      nlinarith
  · intro i j x x' y y' hi hj hy hy'
    rw [List.getElem?_map, hi] at hy
    rw [List.getElem?_map, hj] at hy'
    obtain rfl := Option.some.inj hy
    obtain rfl := Option.some.inj hy'
    dsimp only
    constructor
    · intro h
      have : |x| / vmax ≤ |x'| / vmax := by linarith
      exact (div_le_div_iff_of_pos_right hpos).1 this
    · intro h
      have : |x| / vmax ≤ |x'| / vmax := (div_le_div_iff_of_pos_right hpos).2 h
      linarith

/-- **C113** The ticks are the first date and every seventh day after it that is less than a day after the last date. -/
theorem C113_ticks (a z : ℝ) (l : List ℝ) (hz : (a :: l).getLast? = some z) (x : ℝ) :
    ∃ v, ticks (a :: l) = .ok v ∧ (x ∈ v ↔ ∃ k : ℕ, x = a + k * (7 * 86400) ∧ x < z + 86400) := by
  refine ⟨_, rfl, ?_⟩
  have hg : (a :: l).getLastD 0 = z := by
    rw [List.getLastD_eq_getLast?, hz]
    rfl
  rw [hg, List.mem_map]
  constructor
  · rintro ⟨k, hk, rfl⟩
    refine ⟨k, rfl, ?_⟩
    have hk := List.mem_range.1 hk
    have : ((k : ℕ) : ℤ) < ⌈(z + 86400 - a) / (7 * 86400)⌉ := by omega
    rw [Int.lt_ceil, lt_div_iff₀ (by norm_num)] at this
    push_cast at this
    linarith
  · rintro ⟨k, rfl, hk⟩
    refine ⟨k, List.mem_range.2 ?_, rfl⟩
    have : ((k : ℕ) : ℤ) < ⌈(z + 86400 - a) / (7 * 86400)⌉ := by
      rw [Int.lt_ceil, lt_div_iff₀ (by norm_num)]
      push_cast
      linarith
    omega

/-- **C113** Ticks fail only without dates, with an `IndexError`. -/
theorem C113_no_ticks (t : List ℝ) (e : PyErr) : ticks t = .error e ↔ t = [] ∧ e = .indexError := by
  rcases t with _ | ⟨a, l⟩
  · constructor
    · intro h
      exact ⟨rfl, (Except.error.inj h).symm⟩
    · rintro ⟨_, rfl⟩
      rfl
  · constructor
    · intro h; cases h
    · rintro ⟨h, _⟩; cases h

end Verif.Props.BinErrors
