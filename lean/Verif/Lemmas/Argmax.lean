import Verif.Py.Argmax
import Mathlib.Tactic.Ring

namespace Verif.Lemmas
open Verif.Py

theorem argmaxReal_spec : ∀ (l : List ℝ), l ≠ [] → argmaxReal l < l.length ∧
    (∀ v ∈ l, v ≤ l.getD (argmaxReal l) 0) ∧ ∀ j < argmaxReal l, l.getD j 0 < l.getD (argmaxReal l) 0
  | [], h => absurd rfl h
  | [a], _ => by
    refine ⟨by simp [argmaxReal], ?_, by simp [argmaxReal]⟩
    intro v hv; simp only [List.mem_singleton] at hv; subst hv; simp [argmaxReal]
  | a :: b :: l, _ => by
    obtain ⟨h1, h2, h3⟩ := argmaxReal_spec (b :: l) (by simp)
    unfold argmaxReal
    dsimp only
    set k := argmaxReal (b :: l)
    split_ifs with h
    · refine ⟨by simp only [List.length_cons] at h1 ⊢; omega, ?_, ?_⟩
      · intro v hv
        rw [List.getD_cons_succ]
        rcases List.mem_cons.1 hv with rfl | hv
        · exact h.le
        · exact h2 v hv
      · intro j hj
        rw [List.getD_cons_succ]
        rcases j with _ | j
        · simpa using h
        · rw [List.getD_cons_succ]; exact h3 j (by omega)
    · refine ⟨by simp, ?_, by simp⟩
      intro v hv
      rw [List.getD_cons_zero]
      rcases List.mem_cons.1 hv with rfl | hv
      · exact le_rfl
      · exact (h2 v hv).trans (not_lt.1 h)

end Verif.Lemmas
