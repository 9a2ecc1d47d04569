import Verif.Py.Vec
import Mathlib.Data.List.Basic

namespace Verif.Lemmas
open Verif.Py

theorem mapM_ok {α β ε : Type*} (f : α → Except ε β) (g : α → β) (l : List α)
    (h : ∀ a ∈ l, f a = .ok (g a)) : l.mapM f = .ok (l.map g) := by
  induction l with
  | nil => rfl
  | cons a l ih =>
    rw [List.mapM_cons, h a (by simp), ih (fun b hb => h b (by simp [hb]))]
    rfl

theorem mapM_inv {α β ε : Type*} (f : α → Except ε β) (l : List α) (r : List β)
    (h : l.mapM f = .ok r) : List.Forall₂ (fun a b => f a = .ok b) l r := by
  induction l generalizing r with
  | nil =>
    rw [List.mapM_nil] at h
    have : r = [] := by injection h with h; exact h.symm
    subst this; exact List.Forall₂.nil
  | cons a l ih =>
    rw [List.mapM_cons] at h
    cases hf : f a with
    | error e => rw [hf] at h; exact absurd h (by intro h; cases h)
    | ok b =>
      rw [hf] at h
      cases hm : l.mapM f with
      | error e => rw [hm] at h; exact absurd h (by intro h; cases h)
      | ok bs =>
        rw [hm] at h
        have : r = b :: bs := by injection h with h; exact h.symm
        subst this
        exact List.Forall₂.cons hf (ih bs hm)

theorem forRange_ok {α : Type*} (n : Nat) (step : Nat → Except PyErr α) (g : Nat → α)
    (h : ∀ i < n, step i = .ok (g i)) : forRange n step = .ok ((List.range n).map g) :=
  mapM_ok _ _ _ (fun i hi => h i (List.mem_range.1 hi))

theorem forRange_inv {α : Type*} (n : Nat) (step : Nat → Except PyErr α) (r : List α)
    (h : forRange n step = .ok r) :
    r.length = n ∧ ∀ i < n, ∃ v, r[i]? = some v ∧ step i = .ok v := by
  have h2 := mapM_inv _ _ _ h
  have hl := h2.length_eq
  rw [List.length_range] at hl
  refine ⟨hl.symm, fun i hi => ?_⟩
  have hir : i < r.length := by omega
  refine ⟨r[i], List.getElem?_eq_getElem hir, ?_⟩
  have := h2.get (i := i) (by simpa using hi) hir
  simpa using this

theorem bcast2_range {α β γ : Type*} (f : α → β → γ) (n : Nat) (a : Nat → α) (b : Nat → β) :
    bcast2 f ((List.range n).map a) ((List.range n).map b)
      = .ok ((List.range n).map (fun i => f (a i) (b i))) := by
  unfold bcast2
  rw [if_pos (by simp)]
  congr 1
  rw [List.zipWith_map, List.zipWith_self]

theorem getIdx_range {α : Type*} (n i : Nat) (h : i < n) (a : Nat → α) :
    getIdx ((List.range n).map a) i = .ok (a i) := by
  unfold getIdx
  simp [h]

theorem getIdx_ok {α : Type*} {l : List α} {i : Nat} {x : α} (h : getIdx l i = .ok x) :
    l[i]? = some x := by
  unfold getIdx at h
  cases hl : l[i]? with
  | none => rw [hl] at h; cases h
  | some y => rw [hl] at h; injection h with h; rw [h]

end Verif.Lemmas
