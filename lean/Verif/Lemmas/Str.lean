import Verif.Py.Str
import Mathlib.Data.Nat.Digits.Defs
import Mathlib.Tactic.Ring

namespace Verif.Lemmas.Str
open Verif.Py

theorem splitAux_ne_nil (sep : PyStr) (s : PyStr) (cur : PyStr) (k : Nat) : splitAux sep cur k s ≠ [] := by
  induction s generalizing cur k with
  | nil => cases k <;> simp [splitAux]
  | cons c t ih =>
    cases k with
    | zero => rw [splitAux]; split_ifs <;> simp [ih]
    | succ k => rw [splitAux]; exact ih _ _

theorem intercalate_cons {sep a : PyStr} {l : List PyStr} (h : l ≠ []) :
    sep.intercalate (a :: l) = a ++ sep ++ sep.intercalate l := by
  cases l with
  | nil => exact absurd rfl h
  | cons b l => simp [List.intercalate, List.intersperse]

/-- Joining the pieces again gives the string. -/
theorem intercalate_splitAux {sep : PyStr} (hs : sep ≠ []) (s : PyStr) (cur : PyStr) (k : Nat) :
    sep.intercalate (splitAux sep cur k s) = cur.reverse ++ s.drop k := by
  induction s generalizing cur k with
  | nil => cases k <;> simp [splitAux, List.intercalate]
  | cons c t ih =>
    cases k with
    | succ k => rw [splitAux, ih]; simp
    | zero =>
      rw [splitAux]
      split_ifs with h
      · rw [intercalate_cons (splitAux_ne_nil _ _ _ _), ih]
        obtain ⟨r, hr⟩ := List.isPrefixOf_iff_prefix.1 h
        obtain ⟨s0, s', rfl⟩ : ∃ s0 s', sep = s0 :: s' := by
          cases sep with
          | nil => exact absurd rfl hs
          | cons a b => exact ⟨a, b, rfl⟩
        simp only [List.cons_append, List.cons.injEq] at hr
        obtain ⟨rfl, rfl⟩ := hr
        simp
      · rw [ih]; simp

theorem intercalate_split {sep : PyStr} (hs : sep ≠ []) (s : PyStr) : sep.intercalate (split sep s) = s := by
  unfold split; rw [intercalate_splitAux hs]; simp

theorem splitAux_skip (sep : PyStr) (cur p r : PyStr) : splitAux sep cur p.length (p ++ r) = splitAux sep cur 0 r := by
  induction p with
  | nil => rfl
  | cons c p ih => simpa [splitAux] using ih

theorem splitAux_sep {sep : PyStr} (hs : sep ≠ []) (cur r : PyStr) :
    splitAux sep cur 0 (sep ++ r) = cur.reverse :: splitAux sep [] 0 r := by
  cases sep with
  | nil => exact absurd rfl hs
  | cons s0 s' =>
    rw [List.cons_append, splitAux, if_pos (by simp)]
    simp [splitAux_skip]

/-- Characters that do not start the separator are copied. -/
theorem splitAux_copy {s0 : Char} {s' : PyStr} (cur p r : PyStr) (h : ∀ c ∈ p, c ≠ s0) :
    splitAux (s0 :: s') cur 0 (p ++ r) = splitAux (s0 :: s') (p.reverse ++ cur) 0 r := by
  induction p generalizing cur with
  | nil => rfl
  | cons c p ih =>
    rw [List.cons_append, splitAux, if_neg]
    · rw [ih _ (fun c' h' => h c' (by simp [h']))]; simp
    · intro hc
      have := List.isPrefixOf_iff_prefix.1 hc
      rw [List.cons_prefix_cons] at this
      exact h c (by simp) this.1.symm

theorem split_two {s0 : Char} {s' : PyStr} {a b : PyStr} (ha : ∀ c ∈ a, c ≠ s0) (hb : ∀ c ∈ b, c ≠ s0) :
    split (s0 :: s') (a ++ (s0 :: s') ++ b) = [a, b] := by
  unfold split
  rw [List.append_assoc, splitAux_copy _ _ _ ha, splitAux_sep (by simp)]
  have := splitAux_copy (s' := s') [] b [] hb
  rw [List.append_nil] at this
  rw [this]
  simp [splitAux]

theorem pyIn_append (p sub r : PyStr) : pyIn sub (p ++ sub ++ r) = true := by
  induction p with
  | nil =>
    cases hsub : sub ++ r with
    | nil =>
      have : sub = [] := by
        cases sub with
        | nil => rfl
        | cons => simp at hsub
      subst this
      have : r = [] := by simpa using hsub
      subst this; rfl
    | cons c t =>
      simp only [List.nil_append]
      rw [hsub, pyIn, ← hsub]
      simp
  | cons c p ih => simp only [List.cons_append, pyIn]; rw [ih]; simp

theorem toInt_aux (s : PyStr) (v : Nat) : s.foldl (fun v c => 10 * v + (c.toNat - '0'.toNat)) v =
    10 ^ s.length * v + Nat.ofDigits 10 (s.reverse.map fun c => c.toNat - '0'.toNat) := by
  induction s generalizing v with
  | nil => simp
  | cons c s ih =>
    rw [List.foldl_cons, ih]
    rw [List.reverse_cons, List.map_append, Nat.ofDigits_append]
    simp only [List.map_cons, List.map_nil, Nat.ofDigits_singleton, List.length_map, List.length_reverse,
      List.length_cons]
    ring

theorem toInt_eq (s : PyStr) : toInt s = Nat.ofDigits 10 (s.reverse.map fun c => c.toNat - '0'.toNat) := by
  unfold toInt; rw [toInt_aux]; simp

end Verif.Lemmas.Str
