import Verif.Model.FitCases
import Verif.Lemmas.Sort
import Mathlib.Data.List.Perm.Subperm
import Mathlib.Data.List.Perm.Basic
import Mathlib.Tactic.Linarith

namespace Verif.Props
open Verif.Py Verif.Model.FitCases

namespace Flt

/-- The rows left by the move filter, `p` being the counter before the list. -/
def keep (p : ℤ) (l : List Row) : List Row :=
  removeRows l ((npDiff p (l.map Row.moveSeq)).map fun d => decide (d = 0))

theorem keep_cons (p : ℤ) (r : Row) (l : List Row) :
    keep p (r :: l) = if r.moveSeq = p then keep r.moveSeq l else r :: keep r.moveSeq l := by
  unfold keep removeRows npDiff
  simp only [List.map_cons, List.zipWith_cons_cons, List.zip_cons_cons, List.filter_cons]
  by_cases h : r.moveSeq = p
  · simp [h]
  · have : r.moveSeq - p ≠ 0 := fun h' => h (by linarith)
    simp [h, this]

theorem keep_spec (l : List Row) : ∀ p : ℤ, (∀ r ∈ l, p ≤ r.moveSeq) →
    l.Pairwise (fun a b => a.moveSeq ≤ b.moveSeq) →
    (keep p l).Pairwise (fun a b => a.moveSeq < b.moveSeq) ∧ (∀ r ∈ keep p l, p < r.moveSeq) ∧
      (keep p l).Sublist l ∧ ∀ v, v ≠ p →
        (keep p l).find? (fun r => decide (r.moveSeq = v)) = l.find? (fun r => decide (r.moveSeq = v)) := by
  induction l with
  | nil => intro p _ _; simp [keep, removeRows, npDiff]
  | cons r l ih =>
    intro p hp hl
    rw [List.pairwise_cons] at hl
    obtain ⟨i1, i2, i3, i4⟩ := ih r.moveSeq (fun x hx => hl.1 x hx) hl.2
    rw [keep_cons]
    split_ifs with h
    · refine ⟨i1, fun x hx => by rw [← h]; exact i2 x hx, i3.trans (List.sublist_cons_self _ _), ?_⟩
      intro v hv
      rw [i4 v (by rw [h]; exact hv), List.find?_cons_of_neg]
      simpa [h] using fun h' => hv h'.symm
    · refine ⟨?_, ?_, i3.cons_cons _, ?_⟩
      · rw [List.pairwise_cons]; exact ⟨i2, i1⟩
      · have h0 := hp r (by simp)
        have h1 : p < r.moveSeq := lt_of_le_of_ne h0 (fun h' => h h'.symm)
        intro x hx
        rcases List.mem_cons.1 hx with hx | hx
        · rw [hx]; exact h1
        · exact h1.trans (i2 x hx)
      · intro v hv
        simp only [List.find?_cons]
        by_cases hrv : r.moveSeq = v
        · simp [hrv]
        · simp only [hrv, decide_false]; exact i4 v (fun h' => hrv h'.symm)

theorem removeRows_filter (t : List Row) (f : Row → Bool) : removeRows t (t.map f) = t.filter fun r => !f r := by
  unfold removeRows
  induction t with
  | nil => rfl
  | cons r t ih =>
    simp only [List.map_cons, List.zip_cons_cons, List.filter_cons]
    cases f r <;> simp [ih]

/-- Closed form of the default filters. -/
theorem apply_eq (sortSeq : List Row → List Row) (hs : ∀ l, (sortSeq l).Perm l) (t : List Row) :
    applyFilters sortSeq t = .ok
      (match sortSeq (t.filter Row.enabled) with
        | [] => []
        | r :: l => keep (r.moveSeq - 1) (r :: l)) := by
  have h1 : removeRows t (t.map fun r => !r.enabled) = t.filter Row.enabled := by
    rw [removeRows_filter]; simp
  unfold applyFilters
  simp only [applyAll, ctrlNotEnabled, h1]
  have hp := hs (t.filter Row.enabled)
  by_cases h0 : (t.filter Row.enabled).length = 0
  · rw [if_pos h0]
    have h2 := List.length_eq_zero_iff.1 h0
    rw [h2] at hp ⊢
    rw [List.perm_nil.1 hp]
  · rw [if_neg h0]
    simp only [noMovePerformed]
    cases hq : sortSeq (t.filter Row.enabled) with
    | nil =>
      rw [hq] at hp
      exact absurd (by simpa using hp.length_eq.symm) h0
    | cons r l =>
      simp only [keep]
      split_ifs <;> rfl

theorem find_pyInsert (r : Row) (v : ℤ) : ∀ l : List Row,
    (pyInsert Row.moveSeq r l).find? (fun x => decide (x.moveSeq = v)) =
      if r.moveSeq = v then some r else l.find? (fun x => decide (x.moveSeq = v)) := by
  intro l
  induction l with
  | nil => by_cases h : r.moveSeq = v <;> simp [pyInsert, h]
  | cons b l ih =>
    simp only [pyInsert]
    split_ifs with h1 h2 h2
    · simp [h2]
    · simp [h2]
    · have hb : b.moveSeq ≠ v := by intro h; rw [h2, h] at h1; exact h1 le_rfl
      simp only [List.find?_cons, hb, decide_false, ih, if_pos h2]
    · simp only [List.find?_cons, ih, if_neg h2]

/-- Stability of the stable sort: the first row of each counter value is unchanged. -/
theorem find_pySort (v : ℤ) (l : List Row) : (pySort Row.moveSeq l).find? (fun x => decide (x.moveSeq = v)) =
    l.find? (fun x => decide (x.moveSeq = v)) := by
  induction l with
  | nil => rfl
  | cons r l ih =>
    simp only [pySort]
    rw [find_pyInsert r v, ih]
    by_cases h : r.moveSeq = v <;> simp [h]

end Flt

/-- What `_apply_filters` guarantees whatever way equal counters are ordered by the sort: it never
fails, the rows kept are rows of the table, all enabled, with strictly increasing move counters,
and every counter value of an enabled row is represented. -/
theorem C41_rows (sortSeq : List Row → List Row) (hs : ∀ l, (sortSeq l).Perm l)
    (ho : ∀ l, (sortSeq l).Pairwise fun a b => a.moveSeq ≤ b.moveSeq) (t : List Row) :
    ∃ t', applyFilters sortSeq t = .ok t' ∧ t'.Subperm t ∧ (∀ r ∈ t', r.enabled = true) ∧
      t'.Pairwise (fun a b => a.moveSeq < b.moveSeq) ∧
      ∀ r ∈ t, r.enabled = true → ∃ r' ∈ t', r'.moveSeq = r.moveSeq := by
  rw [Flt.apply_eq sortSeq hs]
  refine ⟨_, rfl, ?_⟩
  have hp := hs (t.filter Row.enabled)
  have hsorted := ho (t.filter Row.enabled)
  cases hq : sortSeq (t.filter Row.enabled) with
  | nil =>
    rw [hq] at hp
    refine ⟨List.nil_subperm, by simp, by simp, ?_⟩
    intro r hr hen
    have hmem : r ∈ t.filter Row.enabled := by simp [hr, hen]
    rw [List.nil_perm.1 hp] at hmem
    simp at hmem
  | cons r0 l =>
    rw [hq] at hp hsorted
    have hge : ∀ r ∈ r0 :: l, r0.moveSeq - 1 ≤ r.moveSeq := by
      intro r hr
      rcases List.mem_cons.1 hr with hr | hr
      · rw [hr]; linarith
      · have := (List.pairwise_cons.1 hsorted).1 r hr
        linarith
    obtain ⟨k1, k2, k3, k4⟩ := Flt.keep_spec (r0 :: l) (r0.moveSeq - 1) hge hsorted
    refine ⟨?_, ?_, k1, ?_⟩
    · exact (k3.subperm.trans hp.subperm).trans (List.filter_sublist).subperm
    · intro r hr
      have := hp.subset (k3.subset hr)
      simpa using (List.mem_filter.1 this).2
    · intro r hr hen
      have hmem : r ∈ r0 :: l := hp.symm.subset (by simp [hr, hen])
      have hne : r.moveSeq ≠ r0.moveSeq - 1 := by
        have : r0.moveSeq ≤ r.moveSeq := by
          rcases List.mem_cons.1 hmem with h | h
          · rw [h]
          · exact (List.pairwise_cons.1 hsorted).1 r h
        intro h; linarith
      have h4 := k4 r.moveSeq hne
      cases hf : (Flt.keep (r0.moveSeq - 1) (r0 :: l)).find? (fun x => decide (x.moveSeq = r.moveSeq)) with
      | some x => exact ⟨x, List.mem_of_find?_eq_some hf, by simpa using List.find?_some hf⟩
      | none =>
        rw [hf] at h4
        have := List.find?_eq_none.1 h4.symm r hmem
        simp at this

/-- With a stable sort the row kept for each counter value is its first enabled row in the order of
the table (this and `C41_rows` determine the result completely). -/
theorem C41_first_kept (t t' : List Row) (h : applyFilters (pySort Row.moveSeq) t = .ok t') (v : ℤ) :
    t'.find? (fun r => decide (r.moveSeq = v)) = t.find? (fun r => r.enabled && decide (r.moveSeq = v)) := by
  rw [Flt.apply_eq _ (fun l => Lemmas.perm_pySort _ l)] at h
  have hsorted := Lemmas.sorted_pySort Row.moveSeq (t.filter Row.enabled)
  have hf := Flt.find_pySort v (t.filter Row.enabled)
  have hr : (t.filter Row.enabled).find? (fun x => decide (x.moveSeq = v)) =
      t.find? (fun r => r.enabled && decide (r.moveSeq = v)) := by
    rw [List.find?_filter]
    congr 1
    funext r
    cases r.enabled <;> simp
  rw [hr] at hf
  rw [← hf]
  cases hq : pySort Row.moveSeq (t.filter Row.enabled) with
  | nil =>
    rw [hq] at h
    injection h with h
    rw [← h]
  | cons r0 l =>
    rw [hq] at h hsorted
    injection h with h
    rw [← h]
    have h0 : ∀ r ∈ r0 :: l, r0.moveSeq ≤ r.moveSeq := by
      intro r hr
      rcases List.mem_cons.1 hr with hr | hr
      · rw [hr]
      · exact (List.pairwise_cons.1 hsorted).1 r hr
    obtain ⟨k1, k2, k3, k4⟩ := Flt.keep_spec (r0 :: l) (r0.moveSeq - 1)
      (fun r hr => by have := h0 r hr; linarith) hsorted
    by_cases hv : v = r0.moveSeq - 1
    · have e1 : (r0 :: l).find? (fun x => decide (x.moveSeq = v)) = none := by
        rw [List.find?_eq_none]
        intro x hx
        have := h0 x hx
        simp; omega
      have e2 : (Flt.keep (r0.moveSeq - 1) (r0 :: l)).find? (fun x => decide (x.moveSeq = v)) = none := by
        rw [List.find?_eq_none]
        intro x hx
        have := k2 x hx
        simp; omega
      rw [e1, e2]
    · exact k4 v hv

/-- Filtering a filtered table changes nothing, whatever the sort does with equal counters. -/
theorem C41_idempotent (sortSeq : List Row → List Row) (hs : ∀ l, (sortSeq l).Perm l)
    (ho : ∀ l, (sortSeq l).Pairwise fun a b => a.moveSeq ≤ b.moveSeq) (t t' : List Row)
    (h : applyFilters sortSeq t = .ok t') : applyFilters sortSeq t' = .ok t' := by
  obtain ⟨t1, e1, -, hen, hlt, -⟩ := C41_rows sortSeq hs ho t
  rw [h] at e1
  injection e1 with e1
  subst e1
  rw [Flt.apply_eq sortSeq hs]
  have hf : t'.filter Row.enabled = t' := List.filter_eq_self.2 hen
  rw [hf]
  have heq : sortSeq t' = t' := by
    refine List.Perm.eq_of_pairwise (le := fun a b : Row => a.moveSeq ≤ b.moveSeq ∧ (a.moveSeq = b.moveSeq → a = b))
      ?_ ?_ ?_ (hs t')
    · intro a b _ _ hab hba
      exact hab.2 (le_antisymm hab.1 hba.1)
    · refine (ho t').imp_of_mem ?_
      intro a b ha hb hab
      refine ⟨hab, fun e => ?_⟩
      have ha' := (hs t').subset ha
      have hb' := (hs t').subset hb
      have hnd : (t'.map Row.moveSeq).Nodup := by
        rw [List.Nodup, List.pairwise_map]
        exact hlt.imp fun hxy => ne_of_lt hxy
      exact List.inj_on_of_nodup_map hnd ha' hb' e
    · exact hlt.imp fun hxy => ⟨le_of_lt hxy, fun e => absurd e (ne_of_lt hxy)⟩
  rw [heq]
  cases t' with
  | nil => rfl
  | cons r l =>
    congr 1
    have : ∀ (l : List Row) (p : ℤ), (∀ r ∈ l, p < r.moveSeq) → l.Pairwise (fun a b => a.moveSeq < b.moveSeq) →
        Flt.keep p l = l := by
      intro l
      induction l with
      | nil => intro p _ _; rfl
      | cons a l ih =>
        intro p hp hl
        rw [List.pairwise_cons] at hl
        rw [Flt.keep_cons, if_neg (ne_of_gt (hp a (by simp))), ih a.moveSeq hl.1 hl.2]
    refine this (r :: l) (r.moveSeq - 1) ?_ hlt
    intro x hx
    rcases List.mem_cons.1 hx with hx | hx
    · rw [hx]; linarith
    · have := (List.pairwise_cons.1 hlt).1 x hx
      linarith

/-- Finding: the filter on cruise moves (not in the default list) is documented to keep the first
row always, but it compares the cruise counters with the counter of move sequences: a first row
with `cruiseT + cruiseP = 2 * (moveSeq - 1)` is dropped. -/
theorem C41_cruise_first_row (r : Row) (h : r.cruiseT + r.cruiseP = 2 * (r.moveSeq - 1)) :
    applyAll [noCruisePerformed (pySort Row.moveSeq)] [r] = .ok [] := by
  have : r.cruiseT - (r.moveSeq - 1) + (r.cruiseP - (r.moveSeq - 1)) = 0 := by linarith
  simp [applyAll, noCruisePerformed, pySort, pyInsert, npDiff, removeRows, this]

/-- Four rows: one disabled, one repeated counter. -/
example : ∃ t', applyFilters (pySort Row.moveSeq)
    [{ tag := 0, enabled := true, moveSeq := 5, cruiseT := 0, cruiseP := 0, dateSec := 0 },
     { tag := 1, enabled := false, moveSeq := 6, cruiseT := 0, cruiseP := 0, dateSec := 1 },
     { tag := 2, enabled := true, moveSeq := 5, cruiseT := 0, cruiseP := 0, dateSec := 2 },
     { tag := 3, enabled := true, moveSeq := 7, cruiseT := 0, cruiseP := 0, dateSec := 3 }] = .ok t' ∧
      t'.map Row.tag = [0, 3] := by
  refine ⟨_, rfl, ?_⟩
  simp [removeRows, npDiff]

end Verif.Props
