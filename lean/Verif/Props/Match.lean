import Verif.Model.Match
import Verif.Lemmas.Sort
import Verif.Lemmas.Pos2ptl
import Mathlib.Data.List.Sort
import Mathlib.Tactic.Linarith
import Mathlib.Tactic.FieldSimp
import Mathlib.Tactic.Ring
import Mathlib.Tactic.NormNum

namespace Verif.Props
open Verif.Py Verif.Model.Match Verif.Lemmas

/-- A sorting routine: some permutation of the indices that puts the values in
non-decreasing order. -/
def Sorts {κ : Type*} [LE κ] (argsort : List κ → List ℕ) : Prop :=
  ∀ l : List κ, (argsort l).Perm (List.range l.length) ∧
    ∀ i j : ℕ, ∀ x y : κ, i < j → ∀ p q, (argsort l)[i]? = some p → (argsort l)[j]? = some q →
      l[p]? = some x → l[q]? = some y → x ≤ y

/-- A correct nearest neighbour query. -/
def Nearest {m : ℕ} (nearest : ℝ × ℝ → Fin m) (xy2 : Fin m → ℝ × ℝ) : Prop :=
  ∀ p k, dist2 p (xy2 (nearest p)) ≤ dist2 p (xy2 k)

namespace MatchSame
variable {n : ℕ}

theorem mem_uniqueVals (idx : Fin n → Option ℕ) (v : ℕ) : v ∈ uniqueVals idx ↔ ∃ i, idx i = some v := by
  unfold uniqueVals
  rw [List.mem_dedup, mem_pySort, List.mem_filterMap]
  simp

theorem nodup_uniqueVals (idx : Fin n → Option ℕ) : (uniqueVals idx).Nodup := List.nodup_dedup _

/-- One step: either nothing changes for other values, and exactly one closest claimant of
`v` is left. -/
theorem dropFar_spec {argsort : List (WithTop ℝ) → List ℕ} (hs : Sorts argsort) (d : Fin n → WithTop ℝ)
    (idx : Fin n → Option ℕ) (v : ℕ) :
    (∀ j, idx j ≠ some v → dropFar argsort d idx v j = idx j) ∧
    (∀ j, idx j = some v → dropFar argsort d idx v j = some v ∨ dropFar argsort d idx v j = none) ∧
    (∀ j j', dropFar argsort d idx v j = some v → dropFar argsort d idx v j' = some v → j = j') ∧
    (∀ j, idx j = some v → ∃ j0, dropFar argsort d idx v j0 = some v ∧ d j0 ≤ d j) := by
  unfold dropFar
  set jj := (List.finRange n).filter fun j => idx j = some v with hjj
  have hmem : ∀ j, j ∈ jj ↔ idx j = some v := by intro j; rw [hjj]; simp
  have hnd : jj.Nodup := (List.nodup_finRange n).filter _
  dsimp only
  split_ifs with hlen
  · obtain ⟨hp, hsort⟩ := hs (jj.map d)
    set kk := argsort (jj.map d)
    rw [List.length_map] at hp
    have hkk : kk ≠ [] := by
      intro h
      have := hp.length_eq
      rw [h] at this; simp at this; omega
    obtain ⟨k0, kt, hk⟩ := List.exists_cons_of_ne_nil hkk
    have hkmem : ∀ k, k ∈ kk ↔ k < jj.length := by
      intro k; rw [hp.mem_iff, List.mem_range]
    have hknd : kk.Nodup := hp.nodup_iff.2 List.nodup_range
    rw [hk] at hknd
    have hk0 : k0 < jj.length := (hkmem k0).1 (by rw [hk]; simp)
    have hrem : ∀ j, j ∈ kk.tail.filterMap (fun k => jj[k]?) ↔ idx j = some v ∧ j ≠ jj[k0] := by
      intro j
      rw [List.mem_filterMap, hk, List.tail_cons]
      constructor
      · rintro ⟨k, hkt, hjk⟩
        obtain ⟨hlt, hjk⟩ := List.getElem?_eq_some_iff.1 hjk
        refine ⟨(hmem j).1 (by rw [← hjk]; exact List.getElem_mem hlt), ?_⟩
        rintro rfl
        have := (hnd.getElem_inj_iff).1 hjk
        subst this
        exact (List.nodup_cons.1 hknd).1 hkt
      · rintro ⟨h1, h2⟩
        obtain ⟨k, hlt, hjk⟩ := List.getElem_of_mem ((hmem j).2 h1)
        refine ⟨k, ?_, by rw [List.getElem?_eq_getElem hlt, hjk]⟩
        have : k ∈ kk := (hkmem k).2 hlt
        rw [hk] at this
        rcases List.mem_cons.1 this with rfl | h
        · exact absurd hjk.symm h2
        · exact h
    refine ⟨?_, ?_, ?_, ?_⟩ <;> beta_reduce
    · intro j hj; rw [if_neg (by rw [hrem]; exact fun h => hj h.1)]
    · intro j hj; split_ifs
      · right; rfl
      · left; exact hj
    · have key : ∀ j, (if j ∈ kk.tail.filterMap (fun k => jj[k]?) then none else idx j) = some v → j = jj[k0] := by
        intro j h
        split_ifs at h with h1
        by_contra hne
        exact h1 ((hrem j).2 ⟨h, hne⟩)
      intro j j' h h'
      rw [key j h, key j' h']
    · intro j hj
      refine ⟨jj[k0], ?_, ?_⟩
      · rw [if_neg (by rw [hrem]; simp)]
        exact (hmem _).1 (List.getElem_mem hk0)
      · obtain ⟨k, hlt, hjk⟩ := List.getElem_of_mem ((hmem j).2 hj)
        have : k ∈ kk := (hkmem k).2 hlt
        obtain ⟨a, ha, hka⟩ := List.getElem_of_mem this
        rcases Nat.eq_zero_or_pos a with rfl | hpos
        · have : k0 = k := by rw [← hka]; simp [hk]
          subst this; rw [hjk]
        · refine hsort 0 a _ _ hpos k0 k (by rw [hk]; rfl) (by rw [List.getElem?_eq_getElem ha, hka]) ?_ ?_
          · rw [List.getElem?_map, List.getElem?_eq_getElem hk0]; rfl
          · rw [List.getElem?_map, List.getElem?_eq_getElem hlt, hjk]; rfl
  · refine ⟨fun _ _ => rfl, fun _ h => Or.inl h, ?_, fun j h => ⟨j, h, le_refl _⟩⟩
    intro j j' h h'
    have h1 := (hmem j).2 h
    have h2 := (hmem j').2 h'
    match hl : jj, hlen with
    | [], _ => cases h1
    | [a], _ => simp at h1 h2; rw [h1, h2]
    | a :: b :: t, hlen => simp at hlen

theorem foldl_spec {argsort : List (WithTop ℝ) → List ℕ} (hs : Sorts argsort) (d : Fin n → WithTop ℝ)
    (idx : Fin n → Option ℕ) (u : List ℕ) (hu : u.Nodup) :
    let r := u.foldl (dropFar argsort d) idx
    (∀ j, (∀ v ∈ u, idx j ≠ some v) → r j = idx j) ∧
    (∀ v ∈ u, ∀ j, idx j = some v → r j = some v ∨ r j = none) ∧
    (∀ v ∈ u, ∀ j j', r j = some v → r j' = some v → j = j') ∧
    (∀ v ∈ u, ∀ j, idx j = some v → ∃ j0, idx j0 = some v ∧ r j0 = some v ∧ d j0 ≤ d j) := by
  induction u generalizing idx with
  | nil => simp
  | cons v u ih =>
    rw [List.nodup_cons] at hu
    obtain ⟨a1, a2, a3, a4⟩ := dropFar_spec hs d idx v
    set idx' := dropFar argsort d idx v with hidx'
    have a5 : ∀ j w, w ≠ v → (idx' j = some w ↔ idx j = some w) := by
      intro j w hw
      by_cases hj : idx j = some v
      · rcases a2 j hj with h | h <;> rw [h, hj]
        · simp
          intro h'; exact absurd h'.symm hw
      · rw [a1 j hj]
    have a6 : ∀ j, idx' j = some v → idx j = some v := by
      intro j h
      by_contra hj
      rw [a1 j hj] at h; exact hj h
    obtain ⟨b1, b2, b3, b4⟩ := ih idx' hu.2
    simp only [List.foldl_cons]
    rw [← hidx']
    set r := u.foldl (dropFar argsort d) idx'
    have hkeep : ∀ j, idx' j = some v → r j = some v := by
      intro j h
      rw [b1 j (fun w hw hh => by rw [h] at hh; injection hh with hh; subst hh; exact hu.1 hw), h]
    have hnone : ∀ j, idx' j = none → r j = none := by
      intro j h
      rw [b1 j (fun w _ hh => by rw [h] at hh; cases hh), h]
    have hback : ∀ j, r j = some v → idx' j = some v := by
      intro j h
      by_cases hw : ∃ w ∈ u, idx' j = some w
      · obtain ⟨w, hwu, hw⟩ := hw
        rcases b2 w hwu j hw with h' | h' <;> rw [h] at h'
        · rw [hw, ← h']
        · cases h'
      · push Not at hw
        rw [b1 j hw] at h; exact h
    refine ⟨?_, ?_, ?_, ?_⟩
    · intro j h
      have hv := h v (by simp)
      rw [b1 j (fun w hw hh => h w (by simp [hw]) ((a5 j w (fun e => hu.1 (e ▸ hw))).1 hh)), a1 j hv]
    · intro w hw j hj
      rcases List.mem_cons.1 hw with rfl | hw
      · rcases a2 j hj with h | h
        · left; exact hkeep j h
        · right; exact hnone j h
      · exact b2 w hw j ((a5 j w (fun e => hu.1 (e ▸ hw))).2 hj)
    · intro w hw j j' h h'
      rcases List.mem_cons.1 hw with rfl | hw
      · exact a3 j j' (hback j h) (hback j' h')
      · exact b3 w hw j j' h h'
    · intro w hw j hj
      rcases List.mem_cons.1 hw with rfl | hw
      · obtain ⟨j0, h1, h2⟩ := a4 j hj
        exact ⟨j0, a6 j0 h1, hkeep j0 h1, h2⟩
      · have hne : w ≠ v := fun e => hu.1 (e ▸ hw)
        obtain ⟨j0, h1, h2, h3⟩ := b4 w hw j ((a5 j w hne).2 hj)
        exact ⟨j0, (a5 j0 w hne).1 h1, h2, h3⟩

/-- Fewer distinct values than entries is the only case with duplicates. -/
theorem uniqueVals_full (f : Fin n → ℕ) (h : ¬ ((n : ℤ) - (uniqueVals (fun i => some (f i))).length > 0)) :
    Function.Injective f := by
  have hlen : n ≤ (uniqueVals (fun i => some (f i))).length := by omega
  have hperm : ((List.finRange n).filterMap fun i => some (f i)) = (List.finRange n).map f := by
    rw [List.filterMap_eq_map']
  unfold uniqueVals at hlen
  rw [hperm] at hlen
  have hl : (pySort id ((List.finRange n).map f)).length = n := by rw [length_pySort]; simp
  have hsub := List.dedup_sublist (pySort id ((List.finRange n).map f))
  have heq := hsub.eq_of_length_le (by rw [hl]; exact hlen)
  have hnd : (pySort id ((List.finRange n).map f)).Nodup := by rw [← heq]; exact List.nodup_dedup _
  rw [(perm_pySort id _).nodup_iff] at hnd
  intro i j hij
  exact List.inj_on_of_nodup_map hnd (List.mem_finRange i) (List.mem_finRange j) hij

end MatchSame
open MatchSame

/-- C30: with duplicate removal, for a non-empty second catalogue: every index returned is a
nearest entry, no entry is returned twice, every entry that is nearest to somebody is kept
by (one of) its closest claimants, and the distance is that of the pair, infinite exactly for
unmatched entries. -/
theorem C30_match_same {n m : ℕ} {argsort : List (WithTop ℝ) → List ℕ} (hs : Sorts argsort)
    (nearest0 : 0 < m → ℝ × ℝ → Fin m) (xy1 : Fin n → ℝ × ℝ) (xy2 : Fin m → ℝ × ℝ)
    (hm : 0 < m) (hn : Nearest (nearest0 hm) xy2) :
    let r := matchSame argsort nearest0 xy1 xy2 true
    (∀ i j, r.1 i = some j → ∃ h : j < m, ∀ k, dist2 (xy1 i) (xy2 ⟨j, h⟩) ≤ dist2 (xy1 i) (xy2 k)) ∧
    (∀ i i' j, r.1 i = some j → r.1 i' = some j → i = i') ∧
    (∀ i, r.1 i = none → ∃ i0 j, ∃ h : j < m, r.1 i0 = some j ∧ i0 ≠ i ∧
      (∀ k, dist2 (xy1 i) (xy2 ⟨j, h⟩) ≤ dist2 (xy1 i) (xy2 k)) ∧
      dist2 (xy1 i0) (xy2 ⟨j, h⟩) ≤ dist2 (xy1 i) (xy2 ⟨j, h⟩)) ∧
    (∀ i, r.1 i = none → r.2 i = ⊤) ∧
    (∀ i j, r.1 i = some j → ∃ h : j < m, r.2 i = (dist2 (xy1 i) (xy2 ⟨j, h⟩) : ℝ)) := by
  intro r
  set nearest := nearest0 hm with hnear
  set f : Fin n → ℕ := fun i => nearest (xy1 i) with hf
  set d : Fin n → WithTop ℝ := fun i => ((dist2 (xy1 i) (xy2 (nearest (xy1 i))) : ℝ) : WithTop ℝ) with hd
  have hr : r.1 = (if (n : ℤ) - (uniqueVals (fun i => some (f i))).length > 0 then
      (uniqueVals (fun i => some (f i))).foldl (dropFar argsort d) (fun i => some (f i)) else fun i => some (f i)) ∧
      r.2 = fun i => if r.1 i = none then ⊤ else d i := by
    simp only [r, matchSame, query, dif_pos hm, if_true]
    exact ⟨rfl, rfl⟩
  have key : (∀ i, r.1 i = some (f i) ∨ r.1 i = none) ∧ (∀ i i' j, r.1 i = some j → r.1 i' = some j → i = i') ∧
      (∀ i, ∃ i0, f i0 = f i ∧ r.1 i0 = some (f i) ∧ d i0 ≤ d i) := by
    rw [hr.1]
    split_ifs with h
    · obtain ⟨-, b2, b3, b4⟩ := foldl_spec hs d (fun i => some (f i)) _ (nodup_uniqueVals fun i => some (f i))
      have hmem : ∀ i, f i ∈ uniqueVals (fun i => some (f i)) := fun i => (mem_uniqueVals _ _).2 ⟨i, rfl⟩
      refine ⟨fun i => b2 (f i) (hmem i) i rfl, ?_, ?_⟩
      · intro i i' j h1 h2
        have : j = f i := by
          rcases b2 (f i) (hmem i) i rfl with h | h <;> rw [h1] at h
          · injection h
          · cases h
        exact b3 j (by rw [this]; exact hmem i) i i' h1 h2
      · intro i
        obtain ⟨j0, h1, h2, h3⟩ := b4 (f i) (hmem i) i rfl
        exact ⟨j0, by injection h1, h2, h3⟩
    · have hinj := uniqueVals_full f h
      refine ⟨fun i => Or.inl rfl, ?_, fun i => ⟨i, rfl, rfl, le_refl _⟩⟩
      intro i i' j h1 h2
      injection h1 with h1; injection h2 with h2
      exact hinj (h1.trans h2.symm)
  obtain ⟨k1, k2, k3⟩ := key
  have hval : ∀ i j, r.1 i = some j → j = nearest (xy1 i) := by
    intro i j h
    rcases k1 i with h' | h' <;> rw [h] at h'
    · injection h'
    · cases h'
  refine ⟨?_, k2, ?_, ?_, ?_⟩
  · intro i j h
    have e := hval i j h
    subst e
    exact ⟨(nearest (xy1 i)).2, fun k => hn _ k⟩
  · intro i h
    obtain ⟨i0, h1, h2, h3⟩ := k3 i
    refine ⟨i0, f i, (nearest (xy1 i)).2, h2, ?_, fun k => hn _ k, ?_⟩
    · rintro rfl; rw [h] at h2; cases h2
    · have h1' : nearest (xy1 i0) = nearest (xy1 i) := Fin.ext h1
      have h3' := WithTop.coe_le_coe.1 h3
      rw [h1'] at h3'
      exact h3'
  · intro i h; rw [hr.2]; simp only [if_pos h]
  · intro i j h
    have e := hval i j h
    subst e
    refine ⟨(nearest (xy1 i)).2, ?_⟩
    rw [hr.2]
    simp only [h]
    rfl

/-- C30: without duplicate removal every entry gets a nearest entry and its distance. -/
theorem C30_keep_duplicates {n m : ℕ} (argsort : List (WithTop ℝ) → List ℕ)
    (nearest : 0 < m → ℝ × ℝ → Fin m) (xy1 : Fin n → ℝ × ℝ) (xy2 : Fin m → ℝ × ℝ) (hm : 0 < m) (i : Fin n) :
    (matchSame argsort nearest xy1 xy2 false).1 i = some (nearest hm (xy1 i) : ℕ) ∧
    (matchSame argsort nearest xy1 xy2 false).2 i = (dist2 (xy1 i) (xy2 (nearest hm (xy1 i))) : ℝ) := by
  simp [matchSame, query, hm]

/-- C30 (finding): with an empty second catalogue one entry of a non-empty first catalogue is
still reported as matched, to index 0 which does not exist, at infinite distance. -/
theorem C30_empty_second {n : ℕ} {argsort : List (WithTop ℝ) → List ℕ} (hs : Sorts argsort)
    (nearest : 0 < 0 → ℝ × ℝ → Fin 0) (xy1 : Fin (n + 1) → ℝ × ℝ) (xy2 : Fin 0 → ℝ × ℝ) :
    ∃ i, (matchSame argsort nearest xy1 xy2 true).1 i = some 0 ∧
      (matchSame argsort nearest xy1 xy2 true).2 i = ⊤ := by
  have hr : (matchSame argsort nearest xy1 xy2 true).1 =
      (if ((n + 1 : ℕ) : ℤ) - (uniqueVals (fun _ : Fin (n + 1) => some 0)).length > 0 then
      (uniqueVals (fun _ : Fin (n + 1) => some 0)).foldl (dropFar argsort fun _ => ⊤) (fun _ => some 0)
      else fun _ => some 0) := by
    simp only [matchSame, query, if_true, lt_self_iff_false, dite_false]
  have hr2 : ∀ i, (matchSame argsort nearest xy1 xy2 true).2 i = ⊤ := by
    intro i; simp [matchSame, query]
  have : ∃ i, (matchSame argsort nearest xy1 xy2 true).1 i = some 0 := by
    rw [hr]
    split_ifs
    · obtain ⟨-, -, -, b4⟩ := foldl_spec hs (fun _ => ⊤) (fun _ : Fin (n + 1) => some 0) _ (nodup_uniqueVals fun _ : Fin (n + 1) => some 0)
      obtain ⟨j0, -, h, -⟩ := b4 0 ((mem_uniqueVals (fun _ : Fin (n + 1) => some 0) 0).2 ⟨0, rfl⟩) 0 rfl
      exact ⟨j0, h⟩
    · exact ⟨0, rfl⟩
  obtain ⟨i, h⟩ := this
  exact ⟨i, h, hr2 i⟩

/-- Sorting routines exist. -/
theorem sorts_exists {κ : Type*} [LinearOrder κ] [Inhabited κ] :
    Sorts (fun l : List κ => pySort (fun i => l.getD i default) (List.range l.length)) := by
  intro l
  refine ⟨perm_pySort _ _, ?_⟩
  intro i j x y hij p q hp hq hx hy
  have h := sorted_pySort (fun i => l.getD i default) (List.range l.length)
  obtain ⟨hi, hp⟩ := List.getElem?_eq_some_iff.1 hp
  obtain ⟨hj, hq⟩ := List.getElem?_eq_some_iff.1 hq
  have := List.pairwise_iff_getElem.1 h i j hi hj hij
  rw [hp, hq] at this
  simpa [List.getD_eq_getElem?_getD, hx, hy] using this

/-- Two first-catalogue entries with the same nearest entry: one is kept. -/
example : ∃ (argsort : List (WithTop ℝ) → List ℕ) (nearest : ℝ × ℝ → Fin 1),
    Sorts argsort ∧ Nearest nearest (fun _ => (0, 0)) :=
  ⟨_, fun _ => 0, sorts_exists (κ := WithTop ℝ), fun _ _ => le_refl _⟩

/-! ### C32 -/

theorem searchsorted_sorted {κ : Type*} [LinearOrder κ] (s : List κ) (h : s.Pairwise (· < ·)) (v : κ) (i : κ)
    (hi : s[searchsorted s v]? = some i) (hv : v ∈ s) : i = v := by
  induction s with
  | nil => cases hv
  | cons a s ih =>
    rw [List.pairwise_cons] at h
    unfold searchsorted at hi
    by_cases ha : a < v
    · rw [List.filter_cons_of_pos (by simpa using ha), List.length_cons, List.getElem?_cons_succ] at hi
      rcases List.mem_cons.1 hv with rfl | hv
      · exact absurd ha (lt_irrefl _)
      · exact ih h.2 hi hv
    · rw [List.filter_cons_of_neg (by simpa using ha)] at hi
      have hnil : s.filter (fun x => decide (x < v)) = [] := by
        rw [List.filter_eq_nil_iff]
        intro x hx
        simp only [decide_eq_true_eq]
        intro hxv
        exact ha ((h.1 x hx).trans hxv)
      rw [hnil] at hi
      simp only [List.length_nil, List.getElem?_cons_zero, Option.some.injEq] at hi
      rcases List.mem_cons.1 hv with rfl | hv
      · exact hi.symm
      · subst hi
        exact absurd (h.1 v hv) ha

theorem searchsorted_lt {κ : Type*} [LinearOrder κ] (s : List κ) (v : κ) (hv : v ∈ s) :
    searchsorted s v < s.length := by
  unfold searchsorted
  rw [← List.countP_eq_length_filter]
  refine lt_of_le_of_ne List.countP_le_length ?_
  intro h
  rw [List.countP_eq_length] at h
  have := h v hv
  simp at this

theorem dedup_len {κ : Type*} [LinearOrder κ] {n : ℕ} (a : Fin n → κ) :
    (pySort id (List.ofFn a)).dedup.length = n ↔ Function.Injective a := by
  have hl : (pySort id (List.ofFn a)).length = n := by rw [length_pySort]; simp
  rw [← List.nodup_ofFn, ← (perm_pySort id (List.ofFn a)).nodup_iff]
  constructor
  · intro h
    have heq := (List.dedup_sublist (pySort id (List.ofFn a))).eq_of_length_le (by rw [hl, h])
    rw [← heq]; exact List.nodup_dedup _
  · intro h; rw [h.dedup, hl]

/-- C32: `match(a, b)` raises ValueError exactly when `a` has duplicates; otherwise the two
index lists are aligned on equal keys and the second lists, in increasing order, exactly the
positions of `b` whose key occurs in `a`. -/
theorem C32_key_join {κ : Type*} [LinearOrder κ] {n m : ℕ} (a : Fin n → κ) (b : Fin m → κ) :
    (¬ Function.Injective a → keyMatch a b = .error .valueError) ∧
    (Function.Injective a → ∃ ma mb, keyMatch a b = .ok (ma, mb) ∧
      List.Forall₂ (fun i j => a i = b j) ma mb ∧ mb.Pairwise (· < ·) ∧ ∀ j, j ∈ mb ↔ ∃ i, a i = b j) := by
  constructor
  · intro h
    unfold keyMatch
    dsimp only
    rw [if_pos (fun h' => h ((dedup_len a).1 h'))]
  · intro hinj
    unfold keyMatch
    dsimp only
    rw [if_neg (not_not.2 ((dedup_len a).2 hinj))]
    set sa := pySort a (List.finRange n) with hsa
    have hsorted : (sa.map a).Pairwise (· < ·) := by
      rw [List.pairwise_map]
      have h1 := sorted_pySort a (List.finRange n)
      have h2 : sa.Nodup := (perm_pySort a _).nodup_iff.2 (List.nodup_finRange n)
      exact (h1.and h2).imp (fun ⟨h, h'⟩ => lt_of_le_of_ne h (fun e => h' (hinj e)))
    have hmem : ∀ v, v ∈ sa.map a ↔ ∃ i, a i = v := by
      intro v
      rw [List.mem_map]
      constructor
      · rintro ⟨i, -, h⟩; exact ⟨i, h⟩
      · rintro ⟨i, h⟩; exact ⟨i, (mem_pySort a i _).2 (List.mem_finRange i), h⟩
    set P : Fin m → Bool := fun j => match sa[searchsorted (sa.map a) (b j)]? with
      | some i => decide (a i = b j)
      | none => false with hP
    have hPt : ∀ j, P j = true → ∃ i, sa[searchsorted (sa.map a) (b j)]? = some i ∧ a i = b j := by
      intro j h
      rw [hP] at h
      cases hq : sa[searchsorted (sa.map a) (b j)]? with
      | none => simp [hq] at h
      | some i => simp [hq] at h; exact ⟨i, rfl, h⟩
    have hPi : ∀ j, P j = true ↔ ∃ i, a i = b j := by
      intro j
      constructor
      · intro h; obtain ⟨i, -, h⟩ := hPt j h; exact ⟨i, h⟩
      · rintro ⟨i, hi⟩
        have hv := (hmem (b j)).2 ⟨i, hi⟩
        have hlt := searchsorted_lt _ _ hv
        have hlt' := hlt
        rw [List.length_map] at hlt'
        have := searchsorted_sorted _ hsorted (b j) (a (sa[searchsorted (sa.map a) (b j)]'hlt'))
          (by rw [List.getElem?_map, List.getElem?_eq_getElem hlt']; rfl) hv
        rw [hP]
        simp only [List.getElem?_eq_getElem hlt', this, decide_true]
    refine ⟨_, _, rfl, ?_, ?_, ?_⟩
    · have : ∀ l : List (Fin m), (∀ j ∈ l, P j = true) →
          List.Forall₂ (fun i j => a i = b j) (l.filterMap fun j => sa[searchsorted (sa.map a) (b j)]?) l := by
        intro l
        induction l with
        | nil => intro _; exact .nil
        | cons j l ih =>
          intro h
          obtain ⟨i, h1, h2⟩ := hPt j (h j (by simp))
          rw [List.filterMap_cons_some (f := fun j => sa[searchsorted (sa.map a) (b j)]?) h1]
          exact .cons h2 (ih (fun k hk => h k (by simp [hk])))
      exact this _ (fun j hj => (List.mem_filter.1 hj).2)
    · exact (List.pairwise_lt_finRange m).filter _
    · intro j
      rw [List.mem_filter]
      simp only [List.mem_finRange, true_and]
      exact hPi j

example : (keyMatch (![3, 1, 2] : Fin 3 → ℕ) ![2, 5, 3, 2]) = .ok ([2, 0, 2], [0, 2, 3]) := by decide +kernel

end Verif.Props
