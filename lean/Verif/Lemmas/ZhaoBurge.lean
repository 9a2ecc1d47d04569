import Verif.Model.ZhaoBurge
import Mathlib.Tactic.Linarith
import Mathlib.Tactic.LinearCombination
import Mathlib.Tactic.IntervalCases
import Mathlib.Tactic.NormNum
import Mathlib.Analysis.Calculus.Deriv.Pow
import Mathlib.Analysis.Calculus.Deriv.Mul
import Mathlib.Analysis.Calculus.Deriv.Add

namespace Verif.Lemmas.ZhaoBurge
open Verif.Py Verif.Model.ZhaoBurge

theorem pyInt_floor {x : ℝ} {k : ℤ} (h : 0 ≤ x) (h0 : (k : ℝ) ≤ x) (h1 : x < k + 1) : pyInt x = k := by
  unfold pyInt; rw [if_pos h]; exact Int.floor_eq_iff.2 ⟨h0, h1⟩

/-- |m| for Born-Wolf order `n` and position `d` in the row. -/
def absM (n d : Nat) : Nat := if n % 2 = 0 then 2 * ((d + 1) / 2) else 2 * (d / 2) + 1

theorem noll_spec (n d : Nat) (hd : d ≤ n) (noll : ℤ) (h : 2 * noll = n * (n + 1) + 2 + 2 * d) :
    convertNolltoBW noll = .ok ((n : ℤ), if noll % 2 > 0 then -(absM n d : ℤ) else absM n d) := by
  have hr : 2 * (noll : ℝ) = n * (n + 1) + 2 + 2 * d := by exact_mod_cast h
  have hdr : (d : ℝ) ≤ n := by exact_mod_cast hd
  have hn0 : (0:ℝ) ≤ n := Nat.cast_nonneg n
  have hd0 : (0:ℝ) ≤ d := Nat.cast_nonneg d
  have e : 2 * (noll : ℝ) - 1.75 = (n + 1 / 2) ^ 2 + 2 * d := by rw [hr]; ring
  have hn : pyInt (-0.5 + Real.sqrt (2 * noll - 1.75)) = n := by
    have l : (n:ℝ) + 1 / 2 ≤ Real.sqrt (2 * noll - 1.75) := by
      apply Real.le_sqrt_of_sq_le; rw [e]; linarith
    have u : Real.sqrt (2 * noll - 1.75) < n + 3 / 2 := by
      rw [Real.sqrt_lt' (by linarith), e]; nlinarith
    apply pyInt_floor
    · norm_num at *; linarith
    · push_cast; norm_num at *; linarith
    · push_cast; norm_num at *; linarith
  have hb : pyInt (0.5 * (((n : ℤ)) : ℝ) ^ 2 + 0.5 * ((n : ℤ) : ℝ) + 1) = noll - d := by
    have e2 : 0.5 * (((n : ℤ)) : ℝ) ^ 2 + 0.5 * ((n : ℤ) : ℝ) + 1 = (noll : ℝ) - d := by
      push_cast; linarith
    apply pyInt_floor
    · push_cast; positivity
    · push_cast at *; linarith
    · push_cast at *; linarith
  unfold convertNolltoBW
  rw [if_neg (by rw [e]; push Not; positivity)]
  simp only [hn, hb]
  rw [show noll - (noll - (d:ℤ)) = (d : ℤ) by ring]
  have h7 : pyInt (0.5 * (((d:ℤ)) : ℝ) + 0.7) = ((d + 1) / 2 : ℕ) := by
    rcases Nat.even_or_odd' d with ⟨k, rfl | rfl⟩
    · rw [show (2 * k + 1) / 2 = k by omega]
      apply pyInt_floor <;> push_cast <;> norm_num <;> try positivity
      · linarith
      · linarith
    · rw [show (2 * k + 1 + 1) / 2 = k + 1 by omega]
      apply pyInt_floor <;> push_cast <;> norm_num <;> try positivity
      · linarith
      · linarith
  have h12 : pyInt (0.5 * (((d:ℤ)) : ℝ) + 1.2) = (d / 2 + 1 : ℕ) := by
    rcases Nat.even_or_odd' d with ⟨k, rfl | rfl⟩
    · rw [show (2 * k) / 2 = k by omega]
      apply pyInt_floor <;> push_cast <;> norm_num <;> try positivity
      · linarith
      · linarith
    · rw [show (2 * k + 1) / 2 = k by omega]
      apply pyInt_floor <;> push_cast <;> norm_num <;> try positivity
      · linarith
      · linarith
  rw [h7, h12]
  have hm : (if (n : ℤ) % 2 = 0 then 2 * (((d + 1) / 2 : ℕ) : ℤ) else 2 * ((d / 2 + 1 : ℕ) : ℤ) - 1) = absM n d := by
    unfold absM
    by_cases hp : n % 2 = 0
    · rw [if_pos (by omega), if_pos hp]; push_cast; ring
    · rw [if_neg (by omega), if_neg hp]; push_cast; ring
  rw [hm]

/-- Every positive Noll index is in some row. -/
theorem noll_row (noll : ℤ) (h : 1 ≤ noll) : ∃ n d : Nat, d ≤ n ∧ 2 * noll = n * (n + 1) + 2 + 2 * d := by
  obtain ⟨k, rfl⟩ : ∃ k : ℕ, noll = k + 1 := ⟨(noll - 1).toNat, by omega⟩
  clear h
  induction k with
  | zero => exact ⟨0, 0, le_rfl, by norm_num⟩
  | succ k ih =>
    obtain ⟨n, d, hd, h⟩ := ih
    rcases Nat.lt_or_ge d n with hlt | hge
    · exact ⟨n, d + 1, hlt, by push_cast at h ⊢; linarith⟩
    · have : d = n := le_antisymm hd hge
      subst this
      exact ⟨d + 1, 0, Nat.zero_le _, by push_cast at h ⊢; linarith⟩

theorem wyant_spec (hs idif : Nat) (hi : idif ≤ 2 * hs) :
    convertWyanttoBW ((hs ^ 2 + idif : ℕ) : ℤ) =
      .ok (((hs + idif / 2 : ℕ) : ℤ), if idif % 2 = 1 then -((hs : ℤ) - (idif / 2 : ℕ)) else (hs : ℤ) - (idif / 2 : ℕ)) := by
  have hir : (idif : ℝ) ≤ 2 * hs := by exact_mod_cast hi
  have h0 : (0:ℝ) ≤ hs := Nat.cast_nonneg _
  have h1 : (0:ℝ) ≤ idif := Nat.cast_nonneg _
  have e : (((hs ^ 2 + idif : ℕ) : ℤ) : ℝ) = (hs : ℝ) ^ 2 + idif := by push_cast; ring
  have hh : pyInt (Real.sqrt (((hs ^ 2 + idif : ℕ) : ℤ) : ℝ)) = hs := by
    apply pyInt_floor (Real.sqrt_nonneg _)
    · apply Real.le_sqrt_of_sq_le; rw [e]; push_cast; linarith
    · rw [Real.sqrt_lt' (by push_cast; linarith), e]; push_cast; nlinarith
  unfold convertWyanttoBW
  rw [if_neg (by rw [e]; push Not; positivity)]
  simp only [hh]
  rw [show (((hs ^ 2 + idif : ℕ) : ℤ)) - (hs : ℤ) ^ 2 = (idif : ℤ) by push_cast; ring]
  have h2 : pyInt (((idif : ℤ) : ℝ) / 2) = (idif / 2 : ℕ) := by
    rcases Nat.even_or_odd' idif with ⟨k, rfl | rfl⟩
    · rw [show 2 * k / 2 = k by omega]
      apply pyInt_floor <;> push_cast <;> first | positivity | linarith
    · rw [show (2 * k + 1) / 2 = k by omega]
      apply pyInt_floor <;> push_cast <;> first | positivity | linarith
  rw [h2]
  have hc : ((hs : ℤ) + ((idif / 2 : ℕ) : ℤ)) = ((hs + idif / 2 : ℕ) : ℤ) := by rw [Nat.cast_add]
  rw [hc]
  congr 2
  · by_cases hp : idif % 2 = 1
    · rw [if_pos (by omega), if_pos hp]
    · rw [if_neg (by omega), if_neg hp]

/-! ## Zernike functions as polynomials -/

theorem factorial_eq (n : Nat) : factorial n = n.factorial := by
  induction n with
  | zero => unfold factorial; rfl
  | succ n ih =>
    unfold factorial
    rcases Nat.eq_zero_or_pos n with rfl | h
    · rfl
    · rw [if_pos (by omega), Nat.add_sub_cancel, ih, Nat.factorial_succ]

/-- `r^m cos(m θ)`, `r^m sin(m θ)` as polynomials in x, y. -/
def cs (x y : ℝ) : Nat → ℝ × ℝ
  | 0 => (1, 0)
  | m + 1 => (x * (cs x y m).1 - y * (cs x y m).2, x * (cs x y m).2 + y * (cs x y m).1)

theorem polar (x y : ℝ) : Real.sqrt (x * x + y * y) * Real.cos (atan2 y x) = x ∧
    Real.sqrt (x * x + y * y) * Real.sin (atan2 y x) = y := by
  have h : Real.sqrt (x * x + y * y) = ‖Complex.mk x y‖ := by
    rw [Complex.norm_def, Complex.normSq_mk]
  rw [h]
  unfold atan2
  exact ⟨Complex.norm_mul_cos_arg _, Complex.norm_mul_sin_arg _⟩

theorem cs_eq (x y : ℝ) (m : Nat) :
    Real.sqrt (x * x + y * y) ^ m * Real.cos (m * atan2 y x) = (cs x y m).1 ∧
    Real.sqrt (x * x + y * y) ^ m * Real.sin (m * atan2 y x) = (cs x y m).2 := by
  obtain ⟨hc, hs⟩ := polar x y
  induction m with
  | zero => simp [cs]
  | succ m ih =>
    obtain ⟨i1, i2⟩ := ih
    set r := Real.sqrt (x * x + y * y)
    set t := atan2 y x
    have ec : Real.cos ((m + 1 : ℕ) * t) = Real.cos (m * t) * Real.cos t - Real.sin (m * t) * Real.sin t := by
      rw [← Real.cos_add]; congr 1; push_cast; ring
    have es : Real.sin ((m + 1 : ℕ) * t) = Real.sin (m * t) * Real.cos t + Real.cos (m * t) * Real.sin t := by
      rw [← Real.sin_add]; congr 1; push_cast; ring
    rw [ec, es]
    unfold cs
    simp only [← i1, ← i2]
    constructor
    · linear_combination (r ^ m * Real.cos (m * t)) * hc - (r ^ m * Real.sin (m * t)) * hs
    · linear_combination (r ^ m * Real.sin (m * t)) * hc + (r ^ m * Real.cos (m * t)) * hs

/-- Angular part times `r^|m|`. -/
def ang (x y : ℝ) (m : ℤ) : ℝ := if 0 ≤ m then (cs x y m.natAbs).1 else (cs x y m.natAbs).2

theorem ang_eq (x y : ℝ) (m : ℤ) :
    Real.sqrt (x * x + y * y) ^ m.natAbs * getZernAngular m (atan2 y x) = ang x y m := by
  obtain ⟨h1, h2⟩ := cs_eq x y m.natAbs
  unfold getZernAngular ang
  rcases lt_trichotomy m 0 with h | h | h
  · rw [if_neg (by omega), if_neg (by omega), if_neg (by omega), ← h2]
    congr 2
    congr 1
    rw [Nat.cast_natAbs]
  · subst h; simp [cs]
  · rw [if_neg (by omega), if_pos h, if_pos (by omega), ← h1]
    congr 2
    congr 1
    rw [Nat.cast_natAbs, abs_of_pos h]

/-- Radial polynomial with `r^|m|` taken out, in `s = r²`. -/
noncomputable def radS (n m : Nat) (s : ℝ) : ℝ :=
  ((List.range ((n - m) / 2 + 1)).map fun i =>
    ((if i % 2 = 0 then (1:ℝ) else -1) * factorial (n - i)) /
      (factorial i * factorial ((n + m) / 2 - i) * factorial ((n - m) / 2 - i)) * s ^ ((n - m) / 2 - i)).sum

theorem radial_eq (n m : Nat) (h : m ≤ n) (hp : (n - m) % 2 = 0) (r : ℝ) :
    getZernRadial n m r = radS n m (r ^ 2) * r ^ m := by
  unfold getZernRadial radS
  dsimp only
  rw [mul_comm, ← List.sum_map_mul_left]
  congr 1
  apply List.map_congr_left
  intro i hi
  have hi' := List.mem_range.1 hi
  have e : n - 2 * i = m + 2 * ((n - m) / 2 - i) := by omega
  rw [e, pow_add, pow_mul]
  ring

theorem func_eq (n : Nat) (m : ℤ) (h : m.natAbs ≤ n) (hp : (n - m.natAbs) % 2 = 0) (x y : ℝ) :
    getZernFuncXY ((n : ℤ), m) x y = radS n m.natAbs (x ^ 2 + y ^ 2) * ang x y m := by
  unfold getZernFuncXY
  dsimp only
  rw [Int.toNat_natCast, radial_eq n _ h hp, mul_assoc, ang_eq, Real.sq_sqrt (add_nonneg (mul_self_nonneg x) (mul_self_nonneg y))]
  congr 2; ring

end Verif.Lemmas.ZhaoBurge
