import Verif.Model.Dbutil
import Mathlib.Tactic.IntervalCases
import Mathlib.Tactic.NormNum

namespace Verif.Props
open Verif.Py Verif.Model.Dbutil

/-- C60: each science petal 2..11 has a location in 0..9, and each location 0..9 belongs to
exactly one science petal. -/
theorem C60_bijection :
    (∀ p : ℤ, 2 ≤ p → p ≤ 11 → ∃ l, getPetalLoc p = .ok l ∧ 0 ≤ l ∧ l ≤ 9) ∧
    (∀ l : ℤ, 0 ≤ l → l ≤ 9 → ∃! p : ℤ, 2 ≤ p ∧ p ≤ 11 ∧ getPetalLoc p = .ok l) := by
  constructor
  · intro p h1 h2
    interval_cases p
    all_goals exact ⟨_, rfl, by decide, by decide⟩
  · have key : ∀ l ∈ Finset.Icc (0 : ℤ) 9, ∃ p ∈ Finset.Icc (2 : ℤ) 11, getPetalLoc p = .ok l ∧
        ∀ q ∈ Finset.Icc (2 : ℤ) 11, getPetalLoc q = .ok l → q = p := by decide +kernel
    intro l h1 h2
    obtain ⟨p, hp, e, hu⟩ := key l (Finset.mem_Icc.2 ⟨h1, h2⟩)
    rw [Finset.mem_Icc] at hp
    exact ⟨p, ⟨hp.1, hp.2, e⟩, fun q ⟨h3, h4, h5⟩ => hu q (Finset.mem_Icc.2 ⟨h3, h4⟩) h5⟩

/-- C60: the installed layout, petal by petal. -/
theorem C60_layout : [2, 3, 4, 5, 6, 7, 8, 9, 10, 11].map getPetalLoc =
    ([7, 3, 0, 1, 2, 8, 4, 9, 5, 6] : List ℤ).map Except.ok := by decide

/-- C60: any other number raises KeyError, except 0 and 1 (test petals), which are at
location 0. -/
theorem C60_unknown (p : ℤ) (h : p < 2 ∨ 11 < p) :
    getPetalLoc p = if p = 0 ∨ p = 1 then .ok 0 else .error .keyError := by
  by_cases h0 : p = 0
  · subst h0; rfl
  by_cases h1 : p = 1
  · subst h1; rfl
  rw [if_neg (by tauto)]
  unfold getPetalLoc
  have : petalId2loc.get? p = none := by
    show Dict.get? [(2, 7), (3, 3), (4, 0), (5, 1), (6, 2), (7, 8), (8, 4), (9, 9), (10, 5), (11, 6), (1, 0), (0, 0)] p = none
    simp only [Dict.get?]
    repeat rw [if_neg (by omega)]
  rw [this]

end Verif.Props
