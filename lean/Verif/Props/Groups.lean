import Verif.Model.Groups
import Mathlib.Data.List.Basic
import Mathlib.Data.Fintype.Card
import Mathlib.Tactic.Linarith

namespace Verif.Props
open Verif.Py Verif.Model.Groups

variable {n : ℕ}

namespace Grp

/-- Invariant of one pass over a list of positioners. -/
theorem fold_inv (nbrs : Fin n → List (Fin n)) (all : List (Fin n)) (l : List (Fin n)) (hl : l.Pairwise (· < ·)) :
    let s := l.foldl (passStep nbrs all) ([], [])
    s.1.Sublist l ∧ s.2 = s.1.flatMap nbrs ∧ (∀ x ∈ s.1, x ∉ all) ∧ s.1.Pairwise (fun i j => j ∉ nbrs i) ∧
      ∀ x ∈ l, x ∈ s.1 ∨ x ∈ all ∨ ∃ i ∈ s.1, i < x ∧ x ∈ nbrs i := by
  induction l using List.reverseRecOn with
  | nil => simp
  | append_singleton l a ih =>
    rw [List.pairwise_append] at hl
    obtain ⟨i1, i2, i3, i4, i5⟩ := ih hl.1
    simp only [List.foldl_append, List.foldl_cons, List.foldl_nil] at i1 i2 i3 i4 i5 ⊢
    set s := l.foldl (passStep nbrs all) ([], []) with hs
    unfold passStep
    have hlt : ∀ i ∈ s.1, i < a := fun i hi => hl.2.2 i (i1.subset hi) a (by simp)
    split_ifs with h1 h2
    · refine ⟨i1.trans (List.sublist_append_left _ _), i2, i3, i4, ?_⟩
      intro x hx
      rcases List.mem_append.1 hx with hx | hx
      · exact i5 x hx
      · have : x = a := by simpa using hx
        subst this
        rw [i2, List.mem_flatMap] at h1
        obtain ⟨i, hi, hxi⟩ := h1
        exact Or.inr (Or.inr ⟨i, hi, hlt i hi, hxi⟩)
    · refine ⟨i1.trans (List.sublist_append_left _ _), i2, i3, i4, ?_⟩
      intro x hx
      rcases List.mem_append.1 hx with hx | hx
      · exact i5 x hx
      · have : x = a := by simpa using hx
        subst this
        exact Or.inr (Or.inl h2)
    · refine ⟨i1.append (List.Sublist.refl _), ?_, ?_, ?_, ?_⟩
      · simp only [List.flatMap_append, i2, List.flatMap_cons, List.flatMap_nil, List.append_nil]
      · intro x hx
        rcases List.mem_append.1 hx with hx | hx
        · exact i3 x hx
        · have : x = a := by simpa using hx
          subst this; exact h2
      · rw [List.pairwise_append]
        refine ⟨i4, by simp, ?_⟩
        intro i hi x hx
        have : x = a := by simpa using hx
        subst this
        intro hn
        exact h1 (by rw [i2]; exact List.mem_flatMap.2 ⟨i, hi, hn⟩)
      · intro x hx
        rcases List.mem_append.1 hx with hx | hx
        · rcases i5 x hx with h | h | ⟨i, hi, h⟩
          · exact Or.inl (by simp [h])
          · exact Or.inr (Or.inl h)
          · exact Or.inr (Or.inr ⟨i, by simp [hi], h⟩)
        · have : x = a := by simpa using hx
          subst this
          exact Or.inl (by simp)

theorem finRange_sorted : (List.finRange n).Pairwise (· < ·) := List.pairwise_lt_finRange n

theorem pass_spec (nbrs : Fin n → List (Fin n)) (all : List (Fin n)) :
    (pass nbrs all).Pairwise (· < ·) ∧ (∀ x ∈ pass nbrs all, x ∉ all) ∧
      (pass nbrs all).Pairwise (fun i j => j ∉ nbrs i) ∧
      ∀ x, x ∈ pass nbrs all ∨ x ∈ all ∨ ∃ i ∈ pass nbrs all, i < x ∧ x ∈ nbrs i := by
  obtain ⟨h1, -, h3, h4, h5⟩ := fold_inv nbrs all (List.finRange n) finRange_sorted
  exact ⟨finRange_sorted.sublist h1, h3, h4, fun x => h5 x (List.mem_finRange x)⟩

end Grp
open Grp

/-- C50: no positioner is twice in the groups (neither in two groups nor twice in one). -/
theorem C50_disjoint (nbrs : Fin n → List (Fin n)) (k : ℕ) : (groups nbrs k).flatten.Nodup := by
  induction k with
  | zero => simp [groups]
  | succ k ih =>
    obtain ⟨h1, h2, -⟩ := pass_spec nbrs (groups nbrs k).flatten
    rw [groups, List.flatten_append]
    simp only [List.flatten_cons, List.flatten_nil, List.append_nil]
    rw [List.nodup_append]
    refine ⟨ih, h1.imp (fun h => ne_of_lt h), ?_⟩
    intro a ha b hb e
    subst e
    exact h2 a hb ha

/-- C50: inside a group no positioner is in the neighbour list of an earlier one; so when the
neighbour lists are symmetric no two are neighbours. -/
theorem C50_independent (nbrs : Fin n → List (Fin n)) (k : ℕ) :
    (∀ g ∈ groups nbrs k, ∀ i ∈ g, ∀ j ∈ g, i < j → j ∉ nbrs i) ∧
    ((∀ i j, j ∈ nbrs i → i ∈ nbrs j) → ∀ g ∈ groups nbrs k, ∀ i ∈ g, ∀ j ∈ g, i ≠ j → j ∉ nbrs i) := by
  have key : ∀ g ∈ groups nbrs k, ∀ i ∈ g, ∀ j ∈ g, i < j → j ∉ nbrs i := by
    induction k with
    | zero => intro g hg; cases hg
    | succ k ih =>
      intro g hg
      rw [groups] at hg
      rcases List.mem_append.1 hg with hg | hg
      · exact ih g hg
      · have : g = pass nbrs (groups nbrs k).flatten := by simpa using hg
        subst this
        obtain ⟨h1, -, h3, -⟩ := pass_spec nbrs (groups nbrs k).flatten
        intro i hi j hj hij
        have hp := h1.and h3
        -- position in a strictly increasing list
        rw [List.pairwise_iff_getElem] at hp
        obtain ⟨a, ha, rfl⟩ := List.getElem_of_mem hi
        obtain ⟨b, hb, rfl⟩ := List.getElem_of_mem hj
        rcases Nat.lt_trichotomy a b with h | h | h
        · exact (hp a b ha hb h).2
        · subst h; exact absurd hij (lt_irrefl _)
        · exact absurd hij (not_lt.2 (hp b a hb ha h).1.le)
  refine ⟨key, ?_⟩
  intro hsym g hg i hi j hj hne hn
  rcases lt_or_gt_of_ne hne with h | h
  · exact key g hg i hi j hj h hn
  · exact key g hg j hj i hi h (hsym i j hn)

/-- C50: the last group made is maximal: every positioner is in it, in an earlier group, or a
listed neighbour of an earlier member of it. -/
theorem C50_maximal (nbrs : Fin n → List (Fin n)) (k : ℕ) (g : List (Fin n)) (hg : (groups nbrs (k + 1)).getLast? = some g)
    (x : Fin n) : x ∈ g ∨ (∃ g' ∈ groups nbrs k, x ∈ g') ∨ ∃ i ∈ g, i < x ∧ x ∈ nbrs i := by
  rw [groups, List.getLast?_append_of_ne_nil _ (by simp)] at hg
  simp only [List.getLast?_singleton, Option.some.injEq] at hg
  subst hg
  rcases (pass_spec nbrs (groups nbrs k).flatten).2.2.2 x with h | h | h
  · exact Or.inl h
  · obtain ⟨g', h1, h2⟩ := List.mem_flatten.1 h
    exact Or.inr (Or.inl ⟨g', h1, h2⟩)
  · exact Or.inr (Or.inr h)

/-- What the KD tree query guarantees: seven distinct positioners (all if there are fewer), none
farther than one left out. -/
def NearestSeven (d : Fin n → Fin n → ℝ) (query : Fin n → List (Fin n)) : Prop :=
  ∀ i, (query i).Nodup ∧ (query i).length = min 7 n ∧ ∀ a ∈ query i, ∀ b, b ∉ query i → d i a ≤ d i b

/-- C50: if every positioner has at most six others closer than 12 mm (and positions are
distinct), two members of a group are always at least 12 mm apart. -/
theorem C50_distance (d : Fin n → Fin n → ℝ) (hsym : ∀ i j, d i j = d j i) (hself : ∀ i, d i i = 0)
    (hpos : ∀ i j, i ≠ j → 0 < d i j) (query : Fin n → List (Fin n)) (hq : NearestSeven d query)
    (hsix : ∀ i, ((List.finRange n).filter fun j => j ≠ i ∧ d i j < 12).length ≤ 6) (k : ℕ) :
    ∀ g ∈ groups (listed d query) k, ∀ i ∈ g, ∀ j ∈ g, i ≠ j → 12 ≤ d i j := by
  have hall : ∀ i j, i ≠ j → d i j < 12 → j ∈ listed d query i := by
    intro i j hij hd
    obtain ⟨h1, h2, h3⟩ := hq i
    unfold listed
    rw [List.mem_filter]
    refine ⟨?_, by simp [hpos i j hij, hd]⟩
    by_contra hn
    -- then the query list is among the positioners closer than 12 mm, j left out
    have hsub : (j :: query i).Subperm (i :: (List.finRange n).filter fun j => j ≠ i ∧ d i j < 12) := by
      apply List.subperm_of_subset (List.nodup_cons.2 ⟨hn, h1⟩)
      intro a ha
      rcases List.mem_cons.1 ha with rfl | ha
      · exact List.mem_cons.2 (Or.inr (List.mem_filter.2 ⟨List.mem_finRange _, by simp [hij.symm, hd]⟩))
      · by_cases hai : a = i
        · simp [hai]
        · exact List.mem_cons.2 (Or.inr (List.mem_filter.2 ⟨List.mem_finRange _, by
            simp [hai, lt_of_le_of_lt (h3 a ha j hn) hd]⟩))
    have hlen := hsub.length_le
    simp only [List.length_cons] at hlen
    have h6 := hsix i
    have hn7 : n < 7 := by omega
    -- then the query lists all positioners
    have hfull : j ∈ query i := by
      have hs : (List.finRange n).Subperm (query i) := by
        have hs' : (query i).Subperm (List.finRange n) := List.subperm_of_subset h1 (fun a _ => List.mem_finRange a)
        exact (hs'.perm_of_length_le (by rw [h2, List.length_finRange]; omega)).symm.subperm
      exact hs.subset (List.mem_finRange j)
    exact hn hfull
  intro g hg i hi j hj hij
  by_contra hd
  push Not at hd
  refine (C50_independent (listed d query) k).2 ?_ g hg i hi j hj hij (hall i j hij hd)
  intro a b hab
  unfold listed at hab
  have h := (List.mem_filter.1 hab).2
  simp only [decide_eq_true_eq] at h
  have hne : b ≠ a := by
    rintro rfl
    rw [hself] at h
    exact lt_irrefl _ h.1
  exact hall b a hne (by rw [hsym]; exact h.2)

/-- C50 (finding): when the lists are not symmetric (which happens as soon as a positioner has
more than six others within 12 mm, because only seven are looked up) a group can contain a
positioner and one of its listed neighbours. -/
theorem C50_asymmetric : ∃ (nbrs : Fin 2 → List (Fin 2)) (g : List (Fin 2)), g ∈ groups nbrs 4 ∧
    ∃ i ∈ g, ∃ j ∈ g, j ∈ nbrs i :=
  ⟨fun i => if i = 1 then [0] else [], [0, 1], by decide, 1, by decide, 0, by decide, by decide⟩

/-- Three positioners 10 mm apart on a line meet the hypotheses of `C50_distance`. -/
example : ∃ (d : Fin 3 → Fin 3 → ℝ) (query : Fin 3 → List (Fin 3)), (∀ i j, d i j = d j i) ∧ (∀ i, d i i = 0) ∧
    (∀ i j, i ≠ j → 0 < d i j) ∧ NearestSeven d query ∧
    ∀ i, ((List.finRange 3).filter fun j => j ≠ i ∧ d i j < 12).length ≤ 6 := by
  refine ⟨fun i j => 10 * |((i : ℕ) : ℝ) - (j : ℕ)|, fun _ => List.finRange 3, ?_, by simp, ?_, ?_, ?_⟩
  · intro i j; simp only [abs_sub_comm]
  · intro i j h
    have : ((i : ℕ) : ℝ) - (j : ℕ) ≠ 0 := by
      intro h'
      exact h (Fin.ext (by exact_mod_cast sub_eq_zero.1 h'))
    have := abs_pos.2 this
    linarith
  · intro i
    exact ⟨List.nodup_finRange 3, by simp, fun a _ b hb => absurd (List.mem_finRange b) hb⟩
  · intro i
    exact (List.length_filter_le _ _).trans (by simp)

/-- Three positioners 10 mm apart on a line: the middle one waits for the second group. -/
example : groups (n := 3) (fun i => if i = 1 then [0, 2] else [1]) 4 = [[0, 2], [1], [], []] := by decide

end Verif.Props
