import Verif.Model.Detectspots
import Verif.Lemmas.Pos2ptl
import Mathlib.Data.Finset.Max
import Mathlib.Data.List.Pairwise

/-!
# C58: spot detection
-/

namespace Verif.Props
open Verif.Py Verif.Model.Detectspots

namespace Det

/-- What a nearest neighbour query for two neighbours promises about the second one: there is a
first one that is not farther, and nobody else is closer.  With fewer than two points there is
no second neighbour.  Nothing is promised about the order of equally distant points. -/
def IsSecond (l : List Spot) (i : ℕ) (r : Option ℕ) : Prop :=
  if l.length < 2 then r = none
  else ∃ (s : Spot) (a b : ℕ) (sa sb : Spot), l[i]? = some s ∧ l[a]? = some sa ∧ l[b]? = some sb ∧
    r = some b ∧ a ≠ b ∧ sdist s sa ≤ sdist s sb ∧
    ∀ (c : ℕ) (sc : Spot), l[c]? = some sc → c ≠ a → c ≠ b → sdist s sb ≤ sdist s sc

/-- The KD-tree query is correct. -/
def Tree (second : List Spot → ℕ → Option ℕ) : Prop := ∀ l i, i < l.length → IsSecond l i (second l i)

theorem sdist_nonneg (a b : Spot) : 0 ≤ sdist a b := Real.sqrt_nonneg _

theorem sdist_self (a : Spot) : sdist a a = 0 := by simp [sdist]

theorem sdist_comm (a b : Spot) : sdist a b = sdist b a := by
  unfold sdist; congr 1; ring

theorem sdist_zero {a b : Spot} (h : sdist a b ≤ 0) : a.x = b.x ∧ a.y = b.y := by
  have h1 : sdist a b = 0 := le_antisymm h (sdist_nonneg a b)
  unfold sdist at h1
  rw [Real.sqrt_eq_zero (by positivity)] at h1
  constructor <;> nlinarith [sq_nonneg (a.x - b.x), sq_nonneg (a.y - b.y)]

theorem second_le {l : List Spot} {i b : ℕ} (h : IsSecond l i (some b)) {s sb : Spot} (hs : l[i]? = some s)
    (hb : l[b]? = some sb) {c : ℕ} {sc : Spot} (hc : l[c]? = some sc) (hci : c ≠ i) : sdist s sb ≤ sdist s sc := by
  unfold IsSecond at h
  split_ifs at h with hlen
  obtain ⟨s', a, b', sa, sb', h1, h2, h3, h4, hab, hle, hmin⟩ := h
  cases h4
  rw [hs] at h1; cases h1
  rw [hb] at h3; cases h3
  by_cases hcb : c = b
  · subst hcb; rw [hb] at hc; cases hc; exact le_rfl
  by_cases hca : c = a
  · subst hca
    by_cases hib : i = b
    · subst hib; rw [hs] at hb; cases hb; rw [sdist_self]; exact sdist_nonneg _ _
    · have := hmin i s hs (Ne.symm hci) hib
      rw [sdist_self] at this
      exact this.trans (sdist_nonneg _ _)
  · exact hmin c sc hc hca hcb

/-- A first spot with a close neighbour, and that neighbour. -/
theorem firstBad_some {second : List Spot → ℕ → Option ℕ} {sigma : ℝ} {l : List Spot} {bad : ℕ}
    (h : firstBad second sigma l = some bad) :
    ∃ idx a b, second l bad = some idx ∧ l[bad]? = some a ∧ l[idx]? = some b ∧ sdist a b < sigma := by
  have := List.find?_some h
  split at this
  · rename_i a b ha hb
    obtain ⟨idx, h1, h2⟩ := Option.bind_eq_some_iff.1 hb
    exact ⟨idx, a, b, h1, ha, h2, decide_eq_true_iff.1 this⟩
  · cases this

theorem firstBad_none {second : List Spot → ℕ → Option ℕ} (ht : Tree second) {sigma : ℝ} {l : List Spot}
    (h : firstBad second sigma l = none) {i c : ℕ} {s sc : Spot} (hs : l[i]? = some s) (hc : l[c]? = some sc)
    (hne : c ≠ i) : sigma ≤ sdist s sc := by
  have hi : i < l.length := (List.getElem?_eq_some_iff.1 hs).1
  have hcl : c < l.length := (List.getElem?_eq_some_iff.1 hc).1
  have h2 := List.find?_eq_none.1 h i (List.mem_range.2 hi)
  have hsec := ht l i hi
  have hsec' := hsec
  unfold IsSecond at hsec
  rw [if_neg (by omega)] at hsec
  obtain ⟨s', a, b, sa, sb, e1, e2, e3, e4, -⟩ := hsec
  rw [e4] at hsec'
  simp only [e4, hs, Option.bind_some, e3, decide_eq_true_eq, not_lt] at h2
  exact h2.trans (second_le hsec' hs e3 hc hne)

theorem dedupStep_none_iff {second : List Spot → ℕ → Option ℕ} {sigma : ℝ} {l : List Spot} :
    dedupStep second sigma l = none ↔ firstBad second sigma l = none := by
  unfold dedupStep
  constructor
  · intro h
    rcases hf : firstBad second sigma l with _ | bad
    · rfl
    · obtain ⟨idx, a, b, h1, h2, h3, -⟩ := firstBad_some hf
      rw [hf] at h
      simp [h1, h2, h3] at h
  · intro h; rw [h]

/-- Position `r` removed. -/
theorem dedupStep_some {second : List Spot → ℕ → Option ℕ} {sigma : ℝ} {l l' : List Spot}
    (h : dedupStep second sigma l = some l') :
    ∃ bad idx a b, firstBad second sigma l = some bad ∧ second l bad = some idx ∧ l[bad]? = some a ∧
      l[idx]? = some b ∧ sdist a b < sigma ∧ l' = l.eraseIdx (if a.counts < b.counts then bad else idx) := by
  rcases hf : firstBad second sigma l with _ | bad
  · rw [dedupStep_none_iff.2 hf] at h; cases h
  · obtain ⟨idx, a, b, h1, h2, h3, h4⟩ := firstBad_some hf
    unfold dedupStep at h
    rw [hf] at h
    simp only [h1, h2, h3, Option.some.injEq] at h
    exact ⟨bad, idx, a, b, rfl, h1, h2, h3, h4, h.symm⟩

theorem getElem?_other {l1 l2 : List Spot} {s t : Spot} {j : ℕ} (h : (l1 ++ s :: l2)[j]? = some t)
    (hj : j ≠ l1.length) : t ∈ l1 ++ l2 := by
  rcases Nat.lt_or_gt_of_ne hj with h1 | h1
  · rw [List.getElem?_append_left h1] at h
    exact List.mem_append_left _ (List.mem_of_getElem? h)
  · rw [List.getElem?_append_right h1.le] at h
    obtain ⟨m, hm⟩ : ∃ m, j - l1.length = m + 1 := ⟨j - l1.length - 1, by omega⟩
    rw [hm, List.getElem?_cons_succ] at h
    exact List.mem_append_right _ (List.mem_of_getElem? h)

theorem getElem?_self {l1 l2 : List Spot} {s t : Spot} (h : (l1 ++ s :: l2)[l1.length]? = some t) : t = s := by
  simpa using h.symm

/-- A spot is safe if all others are far, or fainter and elsewhere. -/
def Safe (sigma : ℝ) (s t : Spot) : Prop :=
  sigma ≤ sdist s t ∨ (t.counts < s.counts ∧ ¬ (t.x = s.x ∧ t.y = s.y))

theorem safe_step {second : List Spot → ℕ → Option ℕ} (ht : Tree second) {sigma : ℝ}
    {l1 l2 l' : List Spot} {s : Spot} (hsafe : ∀ t ∈ l1 ++ l2, Safe sigma s t)
    (h : dedupStep second sigma (l1 ++ s :: l2) = some l') :
    ∃ l1' l2', l' = l1' ++ s :: l2' ∧ ∀ t ∈ l1' ++ l2', Safe sigma s t := by
  obtain ⟨bad, idx, a, b, -, hsec, ha, hb, hd, rfl⟩ := dedupStep_some h
  set r := if a.counts < b.counts then bad else idx with hr
  have hne : r ≠ l1.length := by
    intro e
    by_cases hab : a.counts < b.counts
    · rw [hr, if_pos hab] at e
      rw [e] at ha
      have has := getElem?_self ha
      subst has
      have hidx : idx ≠ l1.length := by
        intro e2; rw [e2] at hb
        rw [getElem?_self hb] at hab; exact lt_irrefl _ hab
      rcases hsafe b (getElem?_other hb hidx) with h1 | ⟨h1, -⟩
      · linarith
      · linarith
    · rw [hr, if_neg hab] at e
      rw [e] at hb
      have hbs := getElem?_self hb
      subst hbs
      by_cases hbi : bad = l1.length
      · rw [hbi] at ha
        have has := getElem?_self ha
        subst has
        have hl : l1.length < (l1 ++ a :: l2).length := by simp
        have := ht (l1 ++ a :: l2) l1.length hl
        rw [hbi] at hsec
        rw [hsec] at this
        unfold IsSecond at this
        split_ifs at this
        obtain ⟨s', a', b', sa, sb, e1, e2, e3, e4, e5, e6, -⟩ := this
        cases e4
        have := getElem?_self e1; subst this
        rw [e] at e3 e5
        have := getElem?_self e3; subst this
        rw [sdist_self] at e6 hd
        rcases hsafe sa (getElem?_other e2 e5) with h1 | ⟨-, h1⟩
        · linarith
        · have := sdist_zero e6
          exact h1 ⟨this.1.symm, this.2.symm⟩
      · rcases hsafe a (getElem?_other ha hbi) with h1 | ⟨h1, -⟩
        · rw [sdist_comm] at h1; linarith
        · exact hab h1
  rcases Nat.lt_or_gt_of_ne hne with h1 | h1
  · refine ⟨l1.eraseIdx r, l2, List.eraseIdx_append_of_lt_length h1 _, fun t htm => hsafe t ?_⟩
    rcases List.mem_append.1 htm with h2 | h2
    · exact List.mem_append_left _ (List.mem_of_mem_eraseIdx h2)
    · exact List.mem_append_right _ h2
  · obtain ⟨m, hm⟩ : ∃ m, r - l1.length = m + 1 := ⟨r - l1.length - 1, by omega⟩
    refine ⟨l1, l2.eraseIdx m, ?_, fun t htm => hsafe t ?_⟩
    · rw [List.eraseIdx_append_of_length_le h1.le, hm, List.eraseIdx_cons_succ]
    · rcases List.mem_append.1 htm with h2 | h2
      · exact List.mem_append_left _ h2
      · exact List.mem_append_right _ (List.mem_of_mem_eraseIdx h2)

theorem safe_dedup {second : List Spot → ℕ → Option ℕ} (ht : Tree second) {sigma : ℝ} (k : ℕ) :
    ∀ {l1 l2 : List Spot} {s : Spot}, (∀ t ∈ l1 ++ l2, Safe sigma s t) →
      s ∈ dedup second sigma k (l1 ++ s :: l2) := by
  induction k with
  | zero => intro l1 l2 s _; simp [dedup]
  | succ k ih =>
    intro l1 l2 s hsafe
    unfold dedup
    rcases h : dedupStep second sigma (l1 ++ s :: l2) with _ | l'
    · simp
    · obtain ⟨l1', l2', rfl, h2⟩ := safe_step ht hsafe h
      exact ih h2

theorem dedup_sublist (second : List Spot → ℕ → Option ℕ) (sigma : ℝ) (k : ℕ) :
    ∀ l, (dedup second sigma k l).Sublist l := by
  induction k with
  | zero => intro l; exact List.Sublist.refl l
  | succ k ih =>
    intro l
    unfold dedup
    rcases h : dedupStep second sigma l with _ | l'
    · exact List.Sublist.refl l
    · obtain ⟨_, _, _, _, -, -, -, -, -, rfl⟩ := dedupStep_some h
      exact (ih _).trans (List.eraseIdx_sublist _ _)

theorem dedup_length (second : List Spot → ℕ → Option ℕ) (sigma : ℝ) (k : ℕ) :
    ∀ l, l.length ≤ (dedup second sigma k l).length + k := by
  induction k with
  | zero => intro l; exact le_rfl
  | succ k ih =>
    intro l
    unfold dedup
    rcases h : dedupStep second sigma l with _ | l'
    · simp
    · obtain ⟨bad, idx, a, b, -, -, ha, hb, -, rfl⟩ := dedupStep_some h
      have := ih (l.eraseIdx (if a.counts < b.counts then bad else idx))
      have h2 : l.length ≤ (l.eraseIdx (if a.counts < b.counts then bad else idx)).length + 1 := by
        rw [List.length_eraseIdx]; split_ifs <;> omega
      simp only
      omega

end Det

open Det

/-- After duplicate removal no two spots are closer than the PSF width, or 100 spots have been
removed. -/
theorem C58_no_close_pairs (second : List Spot → ℕ → Option ℕ) (ht : Tree second) (sigma : ℝ) (k : ℕ) :
    ∀ l, (dedup second sigma k l).Pairwise (fun a b => sigma ≤ sdist a b) ∨
      (dedup second sigma k l).length + k = l.length := by
  induction k with
  | zero => intro l; exact Or.inr rfl
  | succ k ih =>
    intro l
    unfold dedup
    rcases h : dedupStep second sigma l with _ | l'
    · left
      have hn := dedupStep_none_iff.1 h
      rw [List.pairwise_iff_getElem]
      intro i j hi hj hij
      exact firstBad_none ht hn (List.getElem?_eq_getElem hi) (List.getElem?_eq_getElem hj) (by omega)
    · rcases ih l' with h1 | h1
      · exact Or.inl h1
      · right
        obtain ⟨bad, idx, a, b, -, -, ha, hb, -, rfl⟩ := dedupStep_some h
        have h2 : (if a.counts < b.counts then bad else idx) < l.length := by
          split_ifs
          · exact (List.getElem?_eq_some_iff.1 ha).1
          · exact (List.getElem?_eq_some_iff.1 hb).1
        rw [List.length_eraseIdx_of_lt h2] at h1
        simp only
        omega

/-- Each pass removes one spot while another one, closer than the PSF width and not fainter (or at
the identical position), stays; it stops only when there is no close pair. -/
theorem C58_pass (second : List Spot → ℕ → Option ℕ) (ht : Tree second) (sigma : ℝ) (l : List Spot) :
    (dedupStep second sigma l = none ↔ l.Pairwise fun a b => sigma ≤ sdist a b) ∧
    ∀ l', dedupStep second sigma l = some l' → ∃ l1 s l2, l = l1 ++ s :: l2 ∧ l' = l1 ++ l2 ∧
      ∃ t ∈ l', sdist s t < sigma ∧ (s.counts ≤ t.counts ∨ (s.x = t.x ∧ s.y = t.y)) := by
  refine ⟨⟨?_, ?_⟩, ?_⟩
  · intro h
    rw [List.pairwise_iff_getElem]
    intro i j hi hj hij
    exact firstBad_none ht (dedupStep_none_iff.1 h) (List.getElem?_eq_getElem hi) (List.getElem?_eq_getElem hj)
      (by omega)
  · intro h
    rw [List.pairwise_iff_getElem] at h
    by_contra hc
    obtain ⟨l', hl'⟩ := Option.ne_none_iff_exists'.1 hc
    obtain ⟨bad, idx, a, b, -, hsec, ha, hb, hd, -⟩ := dedupStep_some hl'
    obtain ⟨hbad, rfl⟩ := List.getElem?_eq_some_iff.1 ha
    have := ht l bad hbad
    rw [hsec] at this
    have hcl : ∃ c, ∃ hc : c < l.length, c ≠ bad ∧ sdist l[bad] l[c] < sigma := by
      by_cases he : idx = bad
      · subst he
        have hh := this
        unfold IsSecond at hh
        split_ifs at hh
        obtain ⟨s', a', b', sa, sb, e1, e2, e3, e4, e5, e6, -⟩ := hh
        cases e4
        obtain ⟨ha', rfl⟩ := List.getElem?_eq_some_iff.1 e2
        rw [ha] at e1; cases e1
        rw [hb] at e3; cases e3
        exact ⟨a', ha', e5, e6.trans_lt hd⟩
      · obtain ⟨hi, rfl⟩ := List.getElem?_eq_some_iff.1 hb
        exact ⟨idx, hi, he, hd⟩
    obtain ⟨c, hcl, hne, hlt⟩ := hcl
    rcases Nat.lt_or_gt_of_ne hne with h1 | h1
    · have := h c bad hcl hbad h1
      rw [sdist_comm] at this; linarith
    · have := h bad c hbad hcl h1; linarith
  · intro l' h
    obtain ⟨bad, idx, a, b, -, hsec, ha, hb, hd, rfl⟩ := dedupStep_some h
    set r := if a.counts < b.counts then bad else idx with hr
    obtain ⟨hbad, ea⟩ := List.getElem?_eq_some_iff.1 ha
    obtain ⟨hidx, eb⟩ := List.getElem?_eq_some_iff.1 hb
    have hrl : r < l.length := by rw [hr]; split_ifs <;> assumption
    refine ⟨l.take r, l[r], l.drop (r + 1), ?_, ?_, ?_⟩
    · rw [List.getElem_cons_drop, List.take_append_drop]
    · rw [List.eraseIdx_eq_take_drop_succ]
    · have hmem : ∀ (j : ℕ) (hj : j < l.length), j ≠ r → l[j] ∈ l.eraseIdx r := by
        intro j hj hjr
        exact (List.mem_eraseIdx_iff_getElem).2 ⟨j, hj, hjr, rfl⟩
      by_cases hab : a.counts < b.counts
      · have hrb : r = bad := by rw [hr, if_pos hab]
        have hne : idx ≠ r := by
          rw [hrb]; intro e; subst e
          rw [ea] at eb; rw [eb] at hab; exact lt_irrefl _ hab
        refine ⟨l[idx], hmem idx hidx hne, ?_, Or.inl ?_⟩
        · simp only [hrb, ea, eb]; exact hd
        · simp only [hrb, ea, eb]; exact hab.le
      · have hrb : r = idx := by rw [hr, if_neg hab]
        by_cases he : bad = idx
        · subst he
          have hh := ht l bad hbad
          rw [hsec] at hh
          unfold IsSecond at hh
          split_ifs at hh
          obtain ⟨s', a', b', sa, sb, e1, e2, e3, e4, e5, e6, -⟩ := hh
          cases e4
          obtain ⟨ha', rfl⟩ := List.getElem?_eq_some_iff.1 e2
          rw [ha] at e1; cases e1
          rw [hb] at e3; cases e3
          rw [ha] at hb; cases hb
          rw [sdist_self] at e6 hd
          refine ⟨l[a'], hmem a' ha' (by rw [hrb]; exact e5), ?_, Or.inr ?_⟩
          · simp only [hrb, ea]; exact e6.trans_lt hd
          · simp only [hrb, ea]; exact sdist_zero e6
        · refine ⟨l[bad], hmem bad hbad (by rw [hrb]; exact he), ?_, Or.inl ?_⟩
          · simp only [hrb, ea, eb]; rw [sdist_comm]; exact hd
          · simp only [hrb, ea, eb]; exact not_lt.1 hab

/-- A spot that all other spots within the PSF width are fainter than is always kept; in particular
an isolated one.  Positions must not coincide exactly. -/
theorem C58_brightest_kept (second : List Spot → ℕ → Option ℕ) (ht : Tree second) (sigma : ℝ) (k : ℕ)
    (l1 l2 : List Spot) (s : Spot)
    (h : ∀ t ∈ l1 ++ l2, sdist s t < sigma → t.counts < s.counts ∧ ¬ (t.x = s.x ∧ t.y = s.y)) :
    s ∈ dedup second sigma k (l1 ++ s :: l2) := by
  refine safe_dedup ht k fun t htm => ?_
  by_cases hd : sdist s t < sigma
  · exact Or.inr (h t htm hd)
  · exact Or.inl (not_lt.1 hd)

/-- Spots are only removed, never changed or reordered, at most one per pass. -/
theorem C58_only_removes (second : List Spot → ℕ → Option ℕ) (sigma : ℝ) (k : ℕ) (l : List Spot) :
    (dedup second sigma k l).Sublist l ∧ l.length ≤ (dedup second sigma k l).length + k :=
  ⟨dedup_sublist second sigma k l, dedup_length second sigma k l⟩

/-- A tree exists that answers every query correctly, with a prescribed correct answer on one list. -/
theorem Det.tree_exists (l0 : List Spot) (i0 : ℕ) (r0 : Option ℕ) (h0 : IsSecond l0 i0 r0) :
    ∃ second, Tree second ∧ second l0 i0 = r0 := by
  classical
  have key : ∀ l i, i < l.length → ∃ r, IsSecond l i r := by
    intro l i hi
    unfold IsSecond
    by_cases hl : l.length < 2
    · exact ⟨none, by rw [if_pos hl]⟩
    · simp only [if_neg hl]
      set S := (Finset.univ : Finset (Fin l.length)).erase ⟨i, hi⟩ with hS
      have hne : S.Nonempty := by
        by_cases h : i = 0
        · exact ⟨⟨1, by omega⟩, by simp [hS, Fin.ext_iff]; omega⟩
        · exact ⟨⟨0, by omega⟩, by simp [hS, Fin.ext_iff]; omega⟩
      obtain ⟨b, hb, hmin⟩ := Finset.exists_min_image S (fun j => sdist l[i] l[j]) hne
      refine ⟨some b, l[i], i, b, l[i], l[b], List.getElem?_eq_getElem hi, List.getElem?_eq_getElem hi,
        List.getElem?_eq_getElem b.2, rfl, ?_, ?_, ?_⟩
      · intro e
        have := (Finset.mem_erase.1 hb).1
        exact this (Fin.ext e.symm)
      · rw [sdist_self]; exact sdist_nonneg _ _
      · intro c sc hc hci hcb
        obtain ⟨hcl, rfl⟩ := List.getElem?_eq_some_iff.1 hc
        exact hmin ⟨c, hcl⟩ (Finset.mem_erase.2 ⟨fun e => hci (Fin.ext_iff.1 e), Finset.mem_univ _⟩)
  refine ⟨fun l i => if l = l0 ∧ i = i0 then r0 else if hi : i < l.length then (key l i hi).choose else none, ?_, ?_⟩
  · intro l i hi
    by_cases h : l = l0 ∧ i = i0
    · simp only [h, and_self, if_true]; exact h0
    · simp only [h, if_false, dif_pos hi]
      exact (key l i hi).choose_spec
  · simp

/-- For exactly coinciding detections the brighter one can be the one that is removed: a correct
tree may name the spot itself as its second neighbour. -/
theorem C58_coincident (a b : Spot) (hx : a.x = b.x) (hy : a.y = b.y) (sigma : ℝ) (hs : 0 < sigma) :
    ∃ second, Tree second ∧ dedup second sigma 100 [a, b] = [b] := by
  have hd : sdist a b = 0 := by simp [sdist, hx, hy]
  have h0 : IsSecond [a, b] 0 (some 0) := by
    unfold IsSecond
    rw [if_neg (by simp)]
    refine ⟨a, 1, 0, b, a, rfl, rfl, rfl, rfl, by omega, by rw [hd, sdist_self], ?_⟩
    intro c sc hc h1 h2
    have := (List.getElem?_eq_some_iff.1 hc).1
    simp at this; omega
  obtain ⟨second, ht, h⟩ := tree_exists [a, b] 0 (some 0) h0
  refine ⟨second, ht, ?_⟩
  have hf : firstBad second sigma [a, b] = some 0 := by
    unfold firstBad
    have : List.range [a, b].length = [0, 1] := rfl
    rw [this, List.find?_cons_of_pos]
    simp [h, sdist_self, hs]
  have hstep : dedupStep second sigma [a, b] = some [b] := by
    unfold dedupStep
    rw [hf]
    simp [h]
  have hlen1 : dedupStep second sigma [b] = none :=
    ((C58_pass second ht sigma [b]).1).2 (List.pairwise_singleton _ _)
  show dedup second sigma (99 + 1) [a, b] = [b]
  rw [dedup, hstep]
  show dedup second sigma (98 + 1) [b] = [b]
  rw [dedup, hlen1]

/-- At most 100 duplicates are removed: of 102 detections at one place at least two are left. -/
theorem C58_hundred (second : List Spot → ℕ → Option ℕ) (s : Spot) (sigma : ℝ) (hs : 0 < sigma) :
    ¬ (dedup second sigma 100 (List.replicate 102 s)).Pairwise (fun a b => sigma ≤ sdist a b) := by
  intro h
  obtain ⟨h1, h2⟩ := C58_only_removes second sigma 100 (List.replicate 102 s)
  rw [List.length_replicate] at h2
  set l := dedup second sigma 100 (List.replicate 102 s)
  have hm : ∀ t ∈ l, t = s := fun t ht => List.eq_of_mem_replicate (h1.subset ht)
  rw [List.pairwise_iff_getElem] at h
  have := h 0 1 (by omega) (by omega) (by omega)
  rw [hm _ (List.getElem_mem _), hm _ (List.getElem_mem _), sdist_self] at this
  linarith

/-- The peaks: exactly the pixels off the border that are higher than their four neighbours and than
the threshold, each once, in reading order. -/
theorem C58_peaks (n0 n1 : ℕ) (conv : ℕ → ℕ → ℝ) (thr : ℝ) (i0 i1 : ℕ) (h1 : i1 < n1) :
    (i0 * n1 + i1 ∈ peakIndices n0 n1 conv thr ↔
      0 < i0 ∧ i0 < n0 - 1 ∧ 0 < i1 ∧ i1 < n1 - 1 ∧ thr < conv i0 i1 ∧
        conv (i0 - 1) i1 < conv i0 i1 ∧ conv (i0 + 1) i1 < conv i0 i1 ∧
        conv i0 (i1 - 1) < conv i0 i1 ∧ conv i0 (i1 + 1) < conv i0 i1) ∧
    (peakIndices n0 n1 conv thr).Pairwise (· < ·) := by
  refine ⟨?_, List.Pairwise.sublist List.filter_sublist List.pairwise_lt_range⟩
  have hn : 0 < n1 := by omega
  have e1 : (i0 * n1 + i1) / n1 = i0 := by
    rw [Nat.add_comm, Nat.add_mul_div_right _ _ hn, Nat.div_eq_of_lt h1, zero_add]
  have e2 : (i0 * n1 + i1) % n1 = i1 := by
    rw [Nat.add_comm, Nat.add_mul_mod_self_right, Nat.mod_eq_of_lt h1]
  unfold peakIndices
  rw [List.mem_filter, e1, e2, List.mem_range]
  simp only [isPeak, Bool.and_eq_true, decide_eq_true_eq, gt_iff_lt]
  constructor
  · rintro ⟨-, ⟨a, b, c, d⟩, ⟨⟨⟨e, f⟩, g⟩, h⟩, i⟩
    exact ⟨by omega, by omega, by omega, by omega, i, e, f, g, h⟩
  · rintro ⟨a, b, c, d, i, e, f, g, h⟩
    refine ⟨?_, ⟨by omega, by omega, by omega, by omega⟩, ⟨⟨⟨e, f⟩, g⟩, h⟩, i⟩
    calc i0 * n1 + i1 < i0 * n1 + n1 := by omega
      _ = (i0 + 1) * n1 := by ring
      _ ≤ n0 * n1 := Nat.mul_le_mul_right _ (by omega)

/-- Outcome of the whole detection: no peaks or more than 10000 raise `RuntimeError`; otherwise
the table consists of measured peaks, in order, bright enough, and with no close pairs unless 100
were removed. -/
theorem C58_detectspots (n0 n1 : ℕ) (conv : ℕ → ℕ → ℝ) (rms : ℝ)
    (absfit : ℕ × ℕ → ℕ × ℕ → Except PyErr StampFit) (second : List Spot → ℕ → Option ℕ) (ht : Tree second)
    (minPixel : Option ℝ) (minSpot nsig sigma : ℝ) :
    let thr := match minPixel with | none => nsig * rms | some m => if m < nsig * rms then nsig * rms else m
    let peaks := peakIndices n0 n1 conv thr
    ((peaks = [] ∨ 10000 < peaks.length) →
      detectspots n0 n1 conv rms absfit second minPixel minSpot nsig sigma = .error .runtimeError) ∧
    (¬ (peaks = [] ∨ 10000 < peaks.length) →
      (∀ l, peaks.mapM (measurePeak n0 n1 absfit) = .ok l →
        ∃ r, detectspots n0 n1 conv rms absfit second minPixel minSpot nsig sigma = .ok r ∧ r.Sublist l ∧
          (0 < minSpot → ∀ s ∈ r, minSpot ≤ s.counts) ∧
          (r.Pairwise (fun a b => sigma ≤ sdist a b) ∨
            r.length + 100 = (l.filter fun s => decide (minSpot ≤ 0 ∨ minSpot ≤ s.counts)).length)) ∧
      (∀ e, peaks.mapM (measurePeak n0 n1 absfit) = .error e →
        detectspots n0 n1 conv rms absfit second minPixel minSpot nsig sigma = .error e)) := by
  intro thr peaks
  have hthr : threshold minPixel nsig rms = thr := by
    unfold threshold
    rcases minPixel with _ | m
    · rfl
    · show max m (nsig * rms) = if m < nsig * rms then nsig * rms else m
      split_ifs with h
      · exact max_eq_right h.le
      · exact max_eq_left (not_lt.1 h)
  unfold detectspots
  rw [hthr]
  dsimp only
  refine ⟨?_, ?_⟩
  · rintro (h | h)
    · rw [if_pos (by rw [show peakIndices n0 n1 conv thr = [] from h]; rfl)]
    · by_cases h0 : (peakIndices n0 n1 conv thr).length = 0
      · rw [if_pos h0]
      · rw [if_neg h0, if_pos h]
  · intro hn
    push Not at hn
    have h0 : ¬ (peakIndices n0 n1 conv thr).length = 0 := fun h => hn.1 (List.length_eq_zero_iff.1 h)
    have h1 : ¬ (peakIndices n0 n1 conv thr).length > 10000 := not_lt.2 hn.2
    rw [if_neg h0, if_neg h1]
    refine ⟨?_, ?_⟩
    · intro l hl
      have hcf : countFilter minSpot l = l.filter fun s => decide (minSpot ≤ 0 ∨ minSpot ≤ s.counts) := by
        unfold countFilter
        split_ifs with h
        · apply List.filter_congr
          intro s _
          have : ¬ minSpot ≤ 0 := not_le.2 h
          simp [this]
        · have : minSpot ≤ 0 := not_lt.1 h
          simp [this]
      refine ⟨dedup second sigma 100 (countFilter minSpot l), ?_, ?_, ?_, ?_⟩
      · show (peakIndices n0 n1 conv thr).mapM (measurePeak n0 n1 absfit) >>= _ = _
        rw [show (peakIndices n0 n1 conv thr).mapM (measurePeak n0 n1 absfit) = .ok l from hl]; rfl
      · exact (dedup_sublist _ _ _ _).trans (by rw [hcf]; exact List.filter_sublist)
      · intro hpos s hs
        have := (dedup_sublist _ _ _ _).subset hs
        rw [hcf, List.mem_filter, decide_eq_true_eq] at this
        exact this.2.resolve_left (not_le.2 hpos)
      · rw [← hcf]; exact C58_no_close_pairs second ht sigma 100 _
    · intro e he
      show (peakIndices n0 n1 conv thr).mapM (measurePeak n0 n1 absfit) >>= _ = _
      rw [show (peakIndices n0 n1 conv thr).mapM (measurePeak n0 n1 absfit) = .error e from he]; rfl

/-- Where a fitted stamp position ends up.  The stamp of a pixel at least three from the low edge
starts three pixels before it.  If the pixel is also at least three from the far end of its axis the
reported coordinate is the fitted one; in the last but one row or column it is one pixel too large.
Within three pixels of the low edge (image at least seven wide) the stamp is empty and the
detection ends with `LinAlgError`. -/
theorem C58_position (n0 n1 i0 i1 : ℕ) (hi1 : i1 < n1)
    (absfit : ℕ × ℕ → ℕ × ℕ → Except PyErr StampFit) :
    (3 ≤ i0 → i0 + 2 ≤ n0 → 3 ≤ i1 → i1 + 2 ≤ n1 → ∀ r1 c1 f, r1 = min (i0 + 4) n0 → c1 = min (i1 + 4) n1 →
      absfit (i0 - 3, r1) (i1 - 3, c1) = .ok f →
      ∃ s, measurePeak n0 n1 absfit (i0 * n1 + i1) = .ok s ∧
        s.x = ((i1 : ℝ) - 3 + f.xc) + (if i1 + 2 = n1 then 1 else 0) ∧
        s.y = ((i0 : ℝ) - 3 + f.yc) + (if i0 + 2 = n0 then 1 else 0) ∧
        s.ex = f.xe ∧ s.ey = f.ye ∧ s.counts = f.flux) ∧
    ((i0 < 3 ∧ 7 ≤ n0) ∨ (i1 < 3 ∧ 7 ≤ n1) →
      measurePeak n0 n1 absfit (i0 * n1 + i1) = .error .linAlgError) := by
  have hn : 0 < n1 := by omega
  have e1 : (i0 * n1 + i1) / n1 = i0 := by
    rw [Nat.add_comm, Nat.add_mul_div_right _ _ hn, Nat.div_eq_of_lt hi1, zero_add]
  have e2 : (i0 * n1 + i1) % n1 = i1 := by
    rw [Nat.add_comm, Nat.add_mul_mod_self_right, Nat.mod_eq_of_lt hi1]
  unfold measurePeak
  rw [e1, e2]
  dsimp only
  refine ⟨?_, ?_⟩
  · intro h0 h0' h1 h1' r1 c1 f hr hc hf
    subst hr hc
    have s0 : span n0 i0 = (i0 - 3, min (i0 + 4) n0) := by unfold span; rw [if_pos h0, min_eq_left (by omega)]
    have s1 : span n1 i1 = (i1 - 3, min (i1 + 4) n1) := by unfold span; rw [if_pos h1, min_eq_left (by omega)]
    rw [s0, s1]
    unfold fitcentroid
    rw [if_neg (by simp only; omega), hf]
    have key : ∀ i n : ℕ, 3 ≤ i → i + 2 ≤ n → (((min (i + 4) n - (i - 3)) / 2 : ℕ) : ℝ) = 3 - (if i + 2 = n then 1 else 0) := by
      intro i n hi hin
      split_ifs with h
      · have : (min (i + 4) n - (i - 3)) / 2 = 2 := by omega
        rw [this]; norm_num
      · have : (min (i + 4) n - (i - 3)) / 2 = 3 := by omega
        rw [this]; norm_num
    refine ⟨_, rfl, ?_, ?_, rfl, rfl, rfl⟩
    · show f.xc - _ + (i1 : ℝ) = _
      rw [key i1 n1 h1 h1']; ring
    · show f.yc - _ + (i0 : ℝ) = _
      rw [key i0 n0 h0 h0']; ring
  · intro h
    unfold fitcentroid
    rw [if_pos]
    · rfl
    · rcases h with ⟨a, b⟩ | ⟨a, b⟩
      · left; unfold span; rw [if_neg (by omega)]; simp only; omega
      · right; unfold span; rw [if_neg (by omega)]; simp only; omega

/-! Instances of the hypotheses. -/

/-- A correct tree exists. -/
example : ∃ second, Tree second := by
  obtain ⟨second, h, -⟩ := tree_exists [] 0 none (by unfold IsSecond; simp)
  exact ⟨second, h⟩

/-- Two detections of one source and an isolated one: the brighter of the two and the isolated one
satisfy the hypothesis of `C58_brightest_kept` for `psf_sigma = 1`. -/
example : let a : Spot := ⟨10, 10, 0, 0, 8000⟩
    let b : Spot := ⟨10.5, 10, 0, 0, 6000⟩
    let c : Spot := ⟨50, 10, 0, 0, 5000⟩
    (∀ t ∈ [] ++ [b, c], sdist a t < 1 → t.counts < a.counts ∧ ¬ (t.x = a.x ∧ t.y = a.y)) ∧
    (∀ t ∈ [a, b] ++ [], sdist c t < 1 → t.counts < c.counts ∧ ¬ (t.x = c.x ∧ t.y = c.y)) := by
  have far : ∀ x : ℝ, x ≤ 11 → ¬ Real.sqrt ((50 - x) ^ 2 + (10 - 10) ^ 2) < 1 := by
    intro x hx
    rw [not_lt]
    apply Real.le_sqrt_of_sq_le
    nlinarith
  refine ⟨?_, ?_⟩
  · intro t ht
    simp only [List.nil_append, List.mem_cons, List.not_mem_nil, or_false] at ht
    rcases ht with rfl | rfl
    · intro _; norm_num
    · intro h; exact absurd (by rw [sdist_comm] at h; exact h) (far 10 (by norm_num))
  · intro t ht
    simp only [List.append_nil, List.mem_cons, List.not_mem_nil, or_false] at ht
    rcases ht with rfl | rfl
    · intro h; exact absurd h (far 10 (by norm_num))
    · intro h; exact absurd h (far 10.5 (by norm_num))

end Verif.Props
