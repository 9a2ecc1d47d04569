import Verif.Lemmas.Rszn

/-!
# Property C11: focal surface lookup tables (`transform/rszn_lookups.py`)
-/

namespace Verif.Props
open Verif.Model.Rszn Verif.Lemmas.Rszn Verif.Model

theorem C11_table_increasing : incr RsznTable.R = true ∧ incr RsznTable.S = true ∧
    incr RsznTable.N = true ∧ RsznTable.R.length = 501 ∧ RsznTable.S.length = 501 ∧
    RsznTable.N.length = 501 ∧ RsznTable.Z.length = 501 := by
  refine ⟨?_, ?_, ?_, ?_, ?_, ?_, ?_⟩ <;> decide +kernel

/-- C11: R <-> S. -/
theorem C11_r_s (x : ℝ) :
    (0 ≤ x → x ≤ 500 → ∃ s, r2s x = some s ∧ 0 ≤ s ∧ s ≤ 5011238005 / 10 ^ 7 ∧ s2r s = some x ∧
      ∀ x' s', x < x' → r2s x' = some s' → s < s') ∧
    (x < 0 ∨ 500 < x → r2s x = none) ∧
    (0 ≤ x → x ≤ 5011238005 / 10 ^ 7 → ∃ r, s2r x = some r ∧ 0 ≤ r ∧ r ≤ 500 ∧ r2s r = some x ∧
      ∀ x' r', x < x' → s2r x' = some r' → r < r') ∧
    (x < 0 ∨ 5011238005 / 10 ^ 7 < x → s2r x = none) := by
  have h := C11_table_increasing
  have h1 := interp_spec RsznTable.R RsznTable.S (by rw [h.2.2.2.1, h.2.2.2.2.1]) h.1 h.2.1
    0 500000000000 0 501123800500 (by decide +kernel) (by decide +kernel) (by decide +kernel)
    (by decide +kernel) x
  have h2 := interp_spec RsznTable.S RsznTable.R (by rw [h.2.2.2.1, h.2.2.2.2.1]) h.2.1 h.1
    0 501123800500 0 500000000000 (by decide +kernel) (by decide +kernel) (by decide +kernel)
    (by decide +kernel) x
  norm_num at h1 h2 ⊢
  exact ⟨h1.1, h1.2, h2.1, h2.2⟩

/-- C11: R <-> N. -/
theorem C11_r_n (x : ℝ) :
    (0 ≤ x → x ≤ 500 → ∃ n, r2n x = some n ∧ 1722 / 10 ^ 6 ≤ n ∧ n ≤ 973521902 / 10 ^ 8 ∧
      n2r n = some x ∧ ∀ x' n', x < x' → r2n x' = some n' → n < n') ∧
    (x < 0 ∨ 500 < x → r2n x = none) ∧
    (1722 / 10 ^ 6 ≤ x → x ≤ 973521902 / 10 ^ 8 → ∃ r, n2r x = some r ∧ 0 ≤ r ∧ r ≤ 500 ∧
      r2n r = some x ∧ ∀ x' r', x < x' → n2r x' = some r' → r < r') ∧
    (x < 1722 / 10 ^ 6 ∨ 973521902 / 10 ^ 8 < x → n2r x = none) := by
  have h := C11_table_increasing
  have h1 := interp_spec RsznTable.R RsznTable.N (by rw [h.2.2.2.1, h.2.2.2.2.2.1]) h.1 h.2.2.1
    0 500000000000 1722000 9735219020 (by decide +kernel) (by decide +kernel) (by decide +kernel)
    (by decide +kernel) x
  have h2 := interp_spec RsznTable.N RsznTable.R (by rw [h.2.2.2.1, h.2.2.2.2.2.1]) h.2.2.1 h.1
    1722000 9735219020 0 500000000000 (by decide +kernel) (by decide +kernel) (by decide +kernel)
    (by decide +kernel) x
  norm_num at h1 h2 ⊢
  exact ⟨h1.1, h1.2, h2.1, h2.2⟩

/-- C11: the composites invert each other: s -> n -> s. -/
theorem C11_s_n (s : ℝ) (h0 : 0 ≤ s) (h1 : s ≤ 5011238005 / 10 ^ 7) :
    ∃ n, s2n s = some n ∧ n2s n = some s := by
  obtain ⟨r, e1, h2, h3, e2, -⟩ := (C11_r_s s).2.2.1 h0 h1
  obtain ⟨n, e3, -, -, e4, -⟩ := (C11_r_n r).1 h2 h3
  exact ⟨n, by simp [s2n, e1, e3], by simp [n2s, e4, e2]⟩

/-- C11: interpolation passes through the table: at every node the tabulated
value is returned. -/
theorem C11_nodes (i : Nat) (m k : Int) (hm : RsznTable.R[i]? = some m)
    (hk : RsznTable.S[i]? = some k) : r2s ((m:ℝ) / 10 ^ 9) = some ((k:ℝ) / 10 ^ 9) := by
  have h := C11_table_increasing
  exact interp_node _ _ h.1 i m k hm hk

/-- C11 (disagreement): the Z column *decreases*, so numpy's bound checks reject
every argument and `z2r`, `z2s` return NaN for all z, in particular for every z
that `r2z` returns. -/
theorem C11_z2r_always_nan (z : ℝ) : z2r z = none ∧ z2s z = none := by
  have h0 : Z.head? = some 0 := by
    unfold Z column; rw [List.head?_map, show RsznTable.Z.head? = some 0 by decide +kernel]; simp
  have hN : Z.getLast? = some (-28465658440 / 10 ^ 9) := by
    unfold Z column
    rw [List.getLast?_map, show RsznTable.Z.getLast? = some (-28465658440) by decide +kernel]
    simp
  have : z2r z = none := by
    unfold z2r interp
    rw [hN, h0]
    dsimp only
    split_ifs with h1 h2
    · rfl
    · rfl
    · exfalso
      rw [gt_iff_lt, not_lt] at h1
      rw [not_lt] at h2
      norm_num at h1
      linarith
  exact ⟨this, by rw [z2s, this]; rfl⟩

/-- C11: `r2z` itself is defined on 0..500 (so the NaN above loses information). -/
theorem C11_r2z_defined (r : ℝ) : (r2z r).isSome ↔ (0 ≤ r ∧ r ≤ 500) := by
  have h0 : R.head? = some 0 := by
    unfold R column; rw [List.head?_map, show RsznTable.R.head? = some 0 by decide +kernel]; simp
  have hN : R.getLast? = some 500 := by
    unfold R column
    rw [List.getLast?_map, show RsznTable.R.getLast? = some 500000000000 by decide +kernel]
    norm_num
  unfold r2z interp
  rw [hN, h0]
  dsimp only
  split_ifs with h1 h2
  · simp; intro; linarith
  · simp; intro; linarith
  · rw [gt_iff_lt, not_lt] at h1
    rw [not_lt] at h2
    have hseg : ∀ (l : List (ℝ × ℝ)), l ≠ [] → (segment l r).isSome := by
      intro l
      induction l with
      | nil => intro h; exact absurd rfl h
      | cons p t ih =>
        intro _
        cases t with
        | nil => rfl
        | cons q t =>
          obtain ⟨a, b⟩ := p
          obtain ⟨a', b'⟩ := q
          rw [segment]
          split
          · rfl
          · exact ih (by simp)
    have hne : R.zip Z ≠ [] := by
      intro h
      have := congrArg List.length h
      rw [List.length_zip, show R.length = 501 by
        unfold R column; rw [List.length_map]; exact C11_table_increasing.2.2.2.1,
        show Z.length = 501 by
        unfold Z column; rw [List.length_map]; exact C11_table_increasing.2.2.2.2.2.2] at this
      simp at this
    simp [hseg _ hne, h1, h2]

example : ∃ r s : ℝ, 0 < r ∧ r < 500 ∧ r2s r = some s ∧ s2r s = some r := by
  obtain ⟨s, e, -, -, e', -⟩ := (C11_r_s 123.4).1 (by norm_num) (by norm_num)
  exact ⟨123.4, s, by norm_num, by norm_num, e, e'⟩

end Verif.Props
