import Verif.Py.Real
import Mathlib.Data.List.Basic

namespace Verif.Lemmas
open Verif.Py

variable {α κ : Type*} [LinearOrder κ]

theorem mem_pyInsert (key : α → κ) (a x : α) (l : List α) :
    x ∈ pyInsert key a l ↔ x = a ∨ x ∈ l := by
  induction l with
  | nil => simp [pyInsert]
  | cons b l ih =>
    unfold pyInsert; split
    · simp
    · simp [ih]; tauto

theorem mem_pySort (key : α → κ) (x : α) (l : List α) : x ∈ pySort key l ↔ x ∈ l := by
  induction l with
  | nil => simp [pySort]
  | cons b l ih => simp [pySort, mem_pyInsert, ih]

theorem perm_pyInsert (key : α → κ) (a : α) (l : List α) : (pyInsert key a l).Perm (a :: l) := by
  induction l with
  | nil => simp [pyInsert]
  | cons b l ih =>
    unfold pyInsert; split
    · exact List.Perm.refl _
    · exact (List.Perm.cons b ih).trans (List.Perm.swap a b l)

theorem perm_pySort (key : α → κ) (l : List α) : (pySort key l).Perm l := by
  induction l with
  | nil => simp [pySort]
  | cons b l ih => exact (perm_pyInsert key b _).trans (List.Perm.cons b ih)

theorem length_pySort (key : α → κ) (l : List α) : (pySort key l).length = l.length :=
  (perm_pySort key l).length_eq

theorem sorted_pyInsert (key : α → κ) (a : α) (l : List α)
    (h : l.Pairwise (fun x y => key x ≤ key y)) :
    (pyInsert key a l).Pairwise (fun x y => key x ≤ key y) := by
  induction l with
  | nil => simp [pyInsert]
  | cons b l ih =>
    rw [List.pairwise_cons] at h
    unfold pyInsert; split
    · next hab =>
      rw [List.pairwise_cons]
      refine ⟨?_, List.pairwise_cons.2 h⟩
      intro y hy
      rcases List.mem_cons.1 hy with rfl | hy
      · exact hab
      · exact hab.trans (h.1 y hy)
    · next hab =>
      rw [List.pairwise_cons]
      refine ⟨?_, ih h.2⟩
      intro y hy
      rcases (mem_pyInsert key a y l).1 hy with rfl | hy
      · exact (not_le.1 hab).le
      · exact h.1 y hy

theorem sorted_pySort (key : α → κ) (l : List α) :
    (pySort key l).Pairwise (fun x y => key x ≤ key y) := by
  induction l with
  | nil => simp [pySort]
  | cons b l ih => exact sorted_pyInsert key b _ ih

/-- Stability: elements with equal key keep their order. -/
theorem filter_pyInsert (key : α → κ) (c : κ) (a : α) (l : List α) :
    (pyInsert key a l).filter (fun x => decide (key x = c)) =
      (a :: l).filter (fun x => decide (key x = c)) := by
  induction l with
  | nil => simp [pyInsert]
  | cons b l ih =>
    unfold pyInsert; split
    · rfl
    · next hab =>
      rw [List.filter_cons, ih]
      by_cases ha : key a = c
      · have hb : ¬ key b = c := by
          intro hb; rw [ha, hb] at hab; exact hab le_rfl
        simp [ha, hb]
      · simp [List.filter_cons, ha]

theorem filter_pySort (key : α → κ) (c : κ) (l : List α) :
    (pySort key l).filter (fun x => decide (key x = c)) =
      l.filter (fun x => decide (key x = c)) := by
  induction l with
  | nil => simp [pySort]
  | cons b l ih =>
    rw [pySort, filter_pyInsert, List.filter_cons, List.filter_cons, ih]

theorem head_pySort_le (key : α → κ) (l : List α) (m : α) (h : (pySort key l).head? = some m) :
    m ∈ l ∧ ∀ x ∈ l, key m ≤ key x := by
  have hs := sorted_pySort key l
  cases hl : pySort key l with
  | nil => rw [hl] at h; simp at h
  | cons a t =>
    rw [hl] at h hs
    simp at h; subst h
    have hm : a ∈ l := by rw [← mem_pySort key a l, hl]; simp
    refine ⟨hm, fun x hx => ?_⟩
    rw [← mem_pySort key x l, hl] at hx
    rcases List.mem_cons.1 hx with rfl | hx
    · exact le_rfl
    · exact (List.pairwise_cons.1 hs).1 x hx

/-- The head of a stable re-sort of a list already sorted for the pre-order `R`
is minimal for (key, then `R`). -/
theorem head_resort {R : α → α → Prop} (hR : ∀ x, R x x) (key : α → κ) (l : List α)
    (hl : l.Pairwise R) (m : α)
    (h : (pySort key l).head? = some m) :
    ∀ x ∈ l, key x = key m → R m x := by
  intro x hx hxm
  have hf := filter_pySort key (key m) l
  cases hs : pySort key l with
  | nil => rw [hs] at h; simp at h
  | cons a t =>
    rw [hs] at h hf
    simp at h; subst h
    rw [List.filter_cons] at hf
    simp only [decide_true, if_true] at hf
    have hp : (l.filter (fun x => decide (key x = key a))).Pairwise R :=
      hl.sublist List.filter_sublist
    rw [← hf, List.pairwise_cons] at hp
    have hx' : x ∈ l.filter (fun x => decide (key x = key a)) := by
      rw [List.mem_filter]; exact ⟨hx, by simpa using hxm⟩
    rw [← hf] at hx'
    rcases List.mem_cons.1 hx' with rfl | hx'
    · exact hR _
    · exact hp.1 x hx'

/-- Stable re-sorting keeps a pairwise relation inside equal-key classes. -/
theorem resort_pairwise {R : α → α → Prop} (key : α → κ) (l : List α) (hl : l.Pairwise R) :
    (pySort key l).Pairwise (fun x y => key x < key y ∨ (key x = key y ∧ R x y)) := by
  have main : ∀ (a : α) (l' : List α), (∀ y ∈ l', R a y) →
      l'.Pairwise (fun x y => key x < key y ∨ (key x = key y ∧ R x y)) →
      (pyInsert key a l').Pairwise (fun x y => key x < key y ∨ (key x = key y ∧ R x y)) := by
    intro a l'
    induction l' with
    | nil => intro _ _; simp [pyInsert]
    | cons b t ih =>
      intro ha hp
      rw [List.pairwise_cons] at hp
      unfold pyInsert; split
      · next hab =>
        rw [List.pairwise_cons]
        refine ⟨?_, List.pairwise_cons.2 hp⟩
        intro y hy
        rcases lt_or_eq_of_le (show key a ≤ key y by
          rcases List.mem_cons.1 hy with rfl | hy
          · exact hab
          · rcases hp.1 y hy with h | ⟨h, _⟩
            · exact hab.trans h.le
            · exact hab.trans h.le) with h | h
        · exact Or.inl h
        · exact Or.inr ⟨h, ha y hy⟩
      · next hab =>
        rw [List.pairwise_cons]
        refine ⟨?_, ih (fun y hy => ha y (List.mem_cons_of_mem _ hy)) hp.2⟩
        intro y hy
        rcases (mem_pyInsert key a y t).1 hy with rfl | hy
        · exact Or.inl (not_le.1 hab)
        · exact hp.1 y hy
  induction l with
  | nil => simp [pySort]
  | cons a t ih =>
    rw [List.pairwise_cons] at hl
    exact main a _ (fun y hy => hl.1 y ((mem_pySort key y t).1 hy)) (ih hl.2)

end Verif.Lemmas
