import Verif.Props.Detectspots

/-!
# Property C58: peaks near the low edges of a small image (`py/desimeter/detectspots.py` lines 214-223)
-/

namespace Verif.Props
open Verif.Py Verif.Model.Detectspots

/-- C58: in an image of less than seven rows and columns a peak less than three pixels from the low edges is fitted on the pixels
`n+i-3, ..., min(i+4,n)-1` of each axis (python counts the negative start `i-3` of the slice from the end), which for more than three pixels do
not contain the peak; the result is given as if the peak were in their middle. -/
theorem C58_small_image (n0 n1 i0 i1 : ℕ) (h0 : i0 < 3 ∧ 3 ≤ n0 ∧ n0 < 7 ∧ i0 + 1 < n0) (h1 : i1 < 3 ∧ 3 ≤ n1 ∧ n1 < 7 ∧ i1 + 1 < n1)
    (absfit : ℕ × ℕ → ℕ × ℕ → Except PyErr StampFit) :
    (∀ f, absfit (n0 + i0 - 3, min (i0 + 4) n0) (n1 + i1 - 3, min (i1 + 4) n1) = .ok f →
      ∃ s, measurePeak n0 n1 absfit (i0 * n1 + i1) = .ok s ∧ s.ex = f.xe ∧ s.ey = f.ye ∧ s.counts = f.flux ∧
        s.x = f.xc - ((min (i1 + 4) n1 - (n1 + i1 - 3)) / 2 : ℕ) + i1 ∧ s.y = f.yc - ((min (i0 + 4) n0 - (n0 + i0 - 3)) / 2 : ℕ) + i0) ∧
    (∀ e, absfit (n0 + i0 - 3, min (i0 + 4) n0) (n1 + i1 - 3, min (i1 + 4) n1) = .error e →
      measurePeak n0 n1 absfit (i0 * n1 + i1) = .error e) ∧
    (3 < n0 → i0 < n0 + i0 - 3) ∧ (3 < n1 → i1 < n1 + i1 - 3) := by
  have hn : 0 < n1 := by omega
  have e1 : (i0 * n1 + i1) / n1 = i0 := by
    rw [Nat.add_comm, Nat.add_mul_div_right _ _ hn, Nat.div_eq_of_lt (by omega), zero_add]
  have e2 : (i0 * n1 + i1) % n1 = i1 := by
    rw [Nat.add_comm, Nat.add_mul_mod_self_right, Nat.mod_eq_of_lt (by omega)]
  have s0 : span n0 i0 = (n0 + i0 - 3, min (i0 + 4) n0) := by
    unfold span
    rw [if_neg (by omega)]
    congr 1
    omega
  have s1 : span n1 i1 = (n1 + i1 - 3, min (i1 + 4) n1) := by
    unfold span
    rw [if_neg (by omega)]
    congr 1
    omega
  unfold measurePeak
  rw [e1, e2]
  dsimp only
  rw [s0, s1]
  unfold fitcentroid
  rw [if_neg (by dsimp only; omega)]
  refine ⟨fun f hf => ?_, fun e he => ?_, by omega, by omega⟩
  · rw [hf]
    exact ⟨_, rfl, rfl, rfl, rfl, rfl, rfl⟩
  · rw [he]
    rfl

/-- The pixel (1, 1) of an image of five by five pixels is fitted on the pixels 3 and 4. -/
example : (1 < 3 ∧ 3 ≤ 5 ∧ 5 < 7 ∧ 1 + 1 < 5) ∧ (5 + 1 - 3, min (1 + 4) 5) = (3, 5) := by decide

end Verif.Props
