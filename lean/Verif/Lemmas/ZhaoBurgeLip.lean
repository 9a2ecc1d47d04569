import Verif.Props.ZhaoBurge
import Mathlib.Algebra.Order.Ring.Abs

/-!
# Size and steepness of the distortion on a square

Bounds of the values and of the differences of the functions of zhaoburge.py (lines 165-238) for coordinates up to `R`, as rational numbers.
-/

namespace Verif.Lemmas.ZhaoBurgeLip
open Verif.Py Verif.Model.ZhaoBurge Verif.Lemmas.ZhaoBurge Verif.Props

/-- `f` changes by at most `K` times the distance (larger coordinate) in the square. -/
def LipOn (R K : ℝ) (f : ℝ × ℝ → ℝ) : Prop := ∀ a b : ℝ × ℝ, ‖a‖ ≤ R → ‖b‖ ≤ R → |f a - f b| ≤ K * dist a b
/-- `f` is at most `M` in the square. -/
def BddOn (R M : ℝ) (f : ℝ × ℝ → ℝ) : Prop := ∀ a : ℝ × ℝ, ‖a‖ ≤ R → |f a| ≤ M

theorem coord {R : ℝ} {a : ℝ × ℝ} (h : ‖a‖ ≤ R) : |a.1| ≤ R ∧ |a.2| ≤ R := by
  rw [Prod.norm_def] at h
  exact ⟨(le_max_left _ _).trans h, (le_max_right _ _).trans h⟩

theorem coordD (a b : ℝ × ℝ) : |a.1 - b.1| ≤ dist a b ∧ |a.2 - b.2| ≤ dist a b := by
  rw [Prod.dist_eq, Real.dist_eq, Real.dist_eq]
  exact ⟨le_max_left _ _, le_max_right _ _⟩

theorem LipOn.zero (R : ℝ) : LipOn R 0 fun _ => 0 := by intro a b _ _; simp
theorem BddOn.zero (R : ℝ) : BddOn R 0 fun _ => 0 := by intro a _; simp

theorem LipOn.add {R K L : ℝ} {f g : ℝ × ℝ → ℝ} (hf : LipOn R K f) (hg : LipOn R L g) : LipOn R (K + L) fun p => f p + g p := by
  intro a b ha hb
  have h1 := hf a b ha hb
  have h2 := hg a b ha hb
  calc |f a + g a - (f b + g b)| = |(f a - f b) + (g a - g b)| := by congr 1; ring
    _ ≤ _ := (abs_add_le _ _).trans (by linarith)

theorem BddOn.add {R K L : ℝ} {f g : ℝ × ℝ → ℝ} (hf : BddOn R K f) (hg : BddOn R L g) : BddOn R (K + L) fun p => f p + g p := by
  intro a ha
  exact (abs_add_le _ _).trans (add_le_add (hf a ha) (hg a ha))

theorem LipOn.smul {R K c B : ℝ} {f : ℝ × ℝ → ℝ} (hf : LipOn R K f) (hc : |c| ≤ B) : LipOn R (B * K) fun p => c * f p := by
  intro a b ha hb
  rw [← mul_sub, abs_mul, mul_assoc]
  exact mul_le_mul hc (hf a b ha hb) (abs_nonneg _) ((abs_nonneg _).trans hc)

theorem BddOn.smul {R K c B : ℝ} {f : ℝ × ℝ → ℝ} (hf : BddOn R K f) (hc : |c| ≤ B) : BddOn R (B * K) fun p => c * f p := by
  intro a ha
  rw [abs_mul]
  exact mul_le_mul hc (hf a ha) (abs_nonneg _) ((abs_nonneg _).trans hc)

theorem LipOn.mono {R K L : ℝ} {f : ℝ × ℝ → ℝ} (hf : LipOn R K f) (h : K ≤ L) : LipOn R L f := by
  intro a b ha hb
  exact (hf a b ha hb).trans (mul_le_mul_of_nonneg_right h dist_nonneg)

/-! ### Powers -/

theorem pow_diff {R x y : ℝ} (hx : |x| ≤ R) (hy : |y| ≤ R) (n : ℕ) : |x ^ n - y ^ n| ≤ |x - y| * n * R ^ (n - 1) := by
  refine (abs_pow_sub_pow_le x y n).trans ?_
  refine mul_le_mul_of_nonneg_left ?_ (by positivity)
  exact pow_le_pow_left₀ (le_max_of_le_left (abs_nonneg _)) (max_le hx hy) _

theorem mono_lip {R : ℝ} (hR : 0 ≤ R) (m n : ℕ) : LipOn R (n * R ^ (m + (n - 1)) + m * R ^ (m - 1 + n)) fun p => p.1 ^ m * p.2 ^ n := by
  intro a b ha hb
  obtain ⟨a1, a2⟩ := coord ha
  obtain ⟨b1, b2⟩ := coord hb
  obtain ⟨d1, d2⟩ := coordD a b
  have e : a.1 ^ m * a.2 ^ n - b.1 ^ m * b.2 ^ n = a.1 ^ m * (a.2 ^ n - b.2 ^ n) + (a.1 ^ m - b.1 ^ m) * b.2 ^ n := by ring
  simp only
  rw [e]
  refine (abs_add_le _ _).trans ?_
  rw [abs_mul, abs_mul, abs_pow, abs_pow]
  have h1 : |a.1| ^ m ≤ R ^ m := pow_le_pow_left₀ (abs_nonneg _) a1 m
  have h2 : |b.2| ^ n ≤ R ^ n := pow_le_pow_left₀ (abs_nonneg _) b2 n
  have h3 : |a.2 ^ n - b.2 ^ n| ≤ dist a b * n * R ^ (n - 1) :=
    (pow_diff a2 b2 n).trans (by gcongr)
  have h4 : |a.1 ^ m - b.1 ^ m| ≤ dist a b * m * R ^ (m - 1) :=
    (pow_diff a1 b1 m).trans (by gcongr)
  calc |a.1| ^ m * |a.2 ^ n - b.2 ^ n| + |a.1 ^ m - b.1 ^ m| * |b.2| ^ n
      ≤ R ^ m * (dist a b * n * R ^ (n - 1)) + (dist a b * m * R ^ (m - 1)) * R ^ n := by gcongr
    _ = _ := by rw [pow_add, pow_add]; ring

theorem mono_bdd {R : ℝ} (m n : ℕ) : BddOn R (R ^ (m + n)) fun p => p.1 ^ m * p.2 ^ n := by
  intro a ha
  obtain ⟨a1, a2⟩ := coord ha
  simp only
  rw [abs_mul, abs_pow, abs_pow, pow_add]
  have h1 : |a.1| ^ m ≤ R ^ m := pow_le_pow_left₀ (abs_nonneg _) a1 m
  have h2 : |a.2| ^ n ≤ R ^ n := pow_le_pow_left₀ (abs_nonneg _) a2 n
  exact mul_le_mul h1 h2 (by positivity) ((by positivity : (0:ℝ) ≤ |a.1| ^ m).trans h1)

/-! ### Polynomials -/

/-- Steepness of a polynomial, term by term. -/
def lipB (l : BP) (R : ℚ) : ℚ := (l.map fun m => |(m.1 : ℚ)| * (m.2.2 * R ^ (m.2.1 + (m.2.2 - 1)) + m.2.1 * R ^ (m.2.1 - 1 + m.2.2))).sum
/-- Size of a polynomial, term by term. -/
def supB (l : BP) (R : ℚ) : ℚ := (l.map fun m => |(m.1 : ℚ)| * R ^ (m.2.1 + m.2.2)).sum

theorem ev_lip (l : BP) {R : ℚ} (hR : 0 ≤ R) : LipOn R (lipB l R : ℚ) fun p => ev l p.1 p.2 := by
  have hR' : (0:ℝ) ≤ R := by exact_mod_cast hR
  induction l with
  | nil => simpa [ev, lipB] using LipOn.zero R
  | cons m l ih =>
    have h := ((mono_lip hR' m.2.1 m.2.2).smul (c := (m.1 : ℝ)) le_rfl).add ih
    have e : (fun p : ℝ × ℝ => ev (m :: l) p.1 p.2) = fun p => (m.1 : ℝ) * (p.1 ^ m.2.1 * p.2 ^ m.2.2) + ev l p.1 p.2 := by
      funext p; simp [ev, mul_assoc]
    rw [e]
    refine h.mono (le_of_eq ?_)
    simp [lipB]

theorem ev_bdd (l : BP) (R : ℚ) : BddOn R (supB l R : ℚ) fun p => ev l p.1 p.2 := by
  induction l with
  | nil => simpa [ev, supB] using BddOn.zero R
  | cons m l ih =>
    have h := ((mono_bdd (R := R) m.2.1 m.2.2).smul (c := (m.1 : ℝ)) le_rfl).add ih
    have e : (fun p : ℝ × ℝ => ev (m :: l) p.1 p.2) = fun p => (m.1 : ℝ) * (p.1 ^ m.2.1 * p.2 ^ m.2.2) + ev l p.1 p.2 := by
      funext p; simp [ev, mul_assoc]
    rw [e]
    have h2 : ((supB (m :: l) R : ℚ) : ℝ) = |(m.1 : ℝ)| * (R : ℝ) ^ (m.2.1 + m.2.2) + (supB l R : ℚ) := by simp [supB]
    rw [h2]
    exact h

/-- The cubic terms, where the parts of opposite sign make up much of the bound. -/
theorem cubic_lip {R : ℝ} (hR : 1 ≤ R) {x y x' y' d : ℝ} (hx : |x| ≤ R) (hy : |y| ≤ R) (hx' : |x'| ≤ R) (hy' : |y'| ≤ R)
    (h1 : |x - x'| ≤ d) (h2 : |y - y'| ≤ d) :
    |(3 * x ^ 3 + 3 * (x * y ^ 2) - 2 * x) - (3 * x' ^ 3 + 3 * (x' * y' ^ 2) - 2 * x')| ≤ (18 * R ^ 2 - 2) * d := by
  have e : (3 * x ^ 3 + 3 * (x * y ^ 2) - 2 * x) - (3 * x' ^ 3 + 3 * (x' * y' ^ 2) - 2 * x') =
      (x - x') * (3 * (x ^ 2 + x * x' + x' ^ 2) + 3 * y ^ 2 - 2) + (y - y') * (3 * x' * (y + y')) := by ring
  have hd : 0 ≤ d := (abs_nonneg _).trans h1
  have sx : x ^ 2 ≤ R ^ 2 := sq_le_sq' (by linarith [abs_le.1 hx]) (abs_le.1 hx).2
  have sx' : x' ^ 2 ≤ R ^ 2 := sq_le_sq' (by linarith [abs_le.1 hx']) (abs_le.1 hx').2
  have sy : y ^ 2 ≤ R ^ 2 := sq_le_sq' (by linarith [abs_le.1 hy]) (abs_le.1 hy).2
  have hA : |3 * (x ^ 2 + x * x' + x' ^ 2) + 3 * y ^ 2 - 2| ≤ 12 * R ^ 2 - 2 := by
    rw [abs_le]
    constructor
    · nlinarith [sq_nonneg (x + x'), sq_nonneg y, sq_nonneg x, sq_nonneg x']
    · nlinarith [sq_nonneg (x - x')]
  have hB : |3 * x' * (y + y')| ≤ 6 * R ^ 2 := by
    rw [abs_mul, abs_mul, abs_of_pos (by norm_num : (0:ℝ) < 3)]
    have : |y + y'| ≤ 2 * R := (abs_add_le _ _).trans (by linarith)
    have := mul_le_mul hx' this (abs_nonneg _) (by linarith)
    nlinarith
  rw [e]
  refine (abs_add_le _ _).trans ?_
  rw [abs_mul, abs_mul]
  have := mul_le_mul h1 hA (abs_nonneg _) hd
  have := mul_le_mul h2 hB (abs_nonneg _) hd
  nlinarith

theorem cubic_bdd {R : ℝ} (hR : 1 ≤ R) {x y : ℝ} (hx : |x| ≤ R) (hy : |y| ≤ R) : |3 * x ^ 3 + 3 * (x * y ^ 2) - 2 * x| ≤ (6 * R ^ 2 - 2) * R := by
  have e : 3 * x ^ 3 + 3 * (x * y ^ 2) - 2 * x = (3 * x ^ 2 + 3 * y ^ 2 - 2) * x := by ring
  have sx : x ^ 2 ≤ R ^ 2 := sq_le_sq' (by linarith [abs_le.1 hx]) (abs_le.1 hx).2
  have sy : y ^ 2 ≤ R ^ 2 := sq_le_sq' (by linarith [abs_le.1 hy]) (abs_le.1 hy).2
  rw [e, abs_mul]
  refine mul_le_mul ?_ hx (abs_nonneg _) (by nlinarith)
  rw [abs_le]
  constructor <;> nlinarith [sq_nonneg x, sq_nonneg y]

/-! ### Zernike functions -/

/-- Above the square roots of `squares`. -/
def sqB (j : ℕ) : ℚ := match squares.getD j 0 with
  | 1 => 1 | 4 => 2 | 3 => 1.7321 | 6 => 2.4495 | 8 => 2.8285 | 5 => 2.2361 | 10 => 3.1623 | 12 => 3.4642 | _ => 100

def zL (j : ℕ) (R : ℚ) : ℚ := sqB j * if j = 7 ∨ j = 8 then 18 * R ^ 2 - 2 else lipB (Zp j) R
def zS (j : ℕ) (R : ℚ) : ℚ := sqB j * if j = 7 ∨ j = 8 then (6 * R ^ 2 - 2) * R else supB (Zp j) R

theorem sq_le (j : ℕ) (h1 : 1 ≤ j) (h2 : j ≤ 21) : |Real.sqrt (squares.getD j 0 : ℕ)| ≤ (sqB j : ℚ) := by
  rw [abs_of_nonneg (Real.sqrt_nonneg _), Real.sqrt_le_left ?_]
  · have h : ∀ j ∈ List.range 22, ((squares.getD j 0 : ℕ) : ℚ) ≤ sqB j ^ 2 := by decide +kernel
    exact_mod_cast h j (List.mem_range.2 (by omega))
  · have h : ∀ j ∈ List.range 22, 0 ≤ sqB j := by decide +kernel
    exact_mod_cast h j (List.mem_range.2 (by omega))

theorem z_lip (j : ℕ) (h1 : 1 ≤ j) (h2 : j ≤ 21) {R : ℚ} (hR : 1 ≤ R) : LipOn R (zL j R : ℚ) fun p => getZ j p.1 p.2 := by
  have hR' : (1:ℝ) ≤ R := by exact_mod_cast hR
  have e : (fun p : ℝ × ℝ => getZ j p.1 p.2) = fun p => Real.sqrt (squares.getD j 0 : ℕ) * ev (Zp j) p.1 p.2 := by
    funext p; exact getZ_poly j h1 h2 _ _
  rw [e]
  unfold zL
  split_ifs with h
  · rw [Rat.cast_mul]
    refine LipOn.smul ?_ (sq_le j h1 h2)
    intro a b ha hb
    obtain ⟨a1, a2⟩ := coord ha
    obtain ⟨b1, b2⟩ := coord hb
    obtain ⟨d1, d2⟩ := coordD a b
    push_cast
    rcases h with rfl | rfl
    · have := cubic_lip hR' a2 a1 b2 b1 d2 d1
      refine le_trans (le_of_eq ?_) this
      congr 1
      simp [ev, Zp]; ring
    · have := cubic_lip hR' a1 a2 b1 b2 d1 d2
      refine le_trans (le_of_eq ?_) this
      congr 1
      simp [ev, Zp]; ring
  · rw [Rat.cast_mul]
    exact LipOn.smul (ev_lip _ (by linarith)) (sq_le j h1 h2)

theorem z_bdd (j : ℕ) (h1 : 1 ≤ j) (h2 : j ≤ 21) {R : ℚ} (hR : 1 ≤ R) : BddOn R (zS j R : ℚ) fun p => getZ j p.1 p.2 := by
  have hR' : (1:ℝ) ≤ R := by exact_mod_cast hR
  have e : (fun p : ℝ × ℝ => getZ j p.1 p.2) = fun p => Real.sqrt (squares.getD j 0 : ℕ) * ev (Zp j) p.1 p.2 := by
    funext p; exact getZ_poly j h1 h2 _ _
  rw [e]
  unfold zS
  split_ifs with h
  · rw [Rat.cast_mul]
    refine BddOn.smul ?_ (sq_le j h1 h2)
    intro a ha
    obtain ⟨a1, a2⟩ := coord ha
    push_cast
    rcases h with rfl | rfl
    · refine le_trans (le_of_eq ?_) (cubic_bdd hR' a2 a1)
      congr 1
      simp [ev, Zp]; ring
    · refine le_trans (le_of_eq ?_) (cubic_bdd hR' a1 a2)
      congr 1
      simp [ev, Zp]; ring
  · rw [Rat.cast_mul]
    exact BddOn.smul (ev_bdd _ _) (sq_le j h1 h2)

/-! ### Terms -/

/-- The factors which occur. -/
inductive Cf | one | rh | nrh | h | nh
  deriving DecidableEq

noncomputable def Cf.val : Cf → ℝ
  | .one => 1 | .rh => Verif.Model.ZhaoBurge.rh | .nrh => -Verif.Model.ZhaoBurge.rh | .h => 0.5 | .nh => -0.5
def Cf.bd : Cf → ℚ
  | .one => 1 | .rh | .nrh => 0.7072 | .h | .nh => 1 / 2

theorem rh_bd : |Verif.Model.ZhaoBurge.rh| ≤ (0.7072 : ℝ) := by
  unfold Verif.Model.ZhaoBurge.rh
  rw [abs_of_nonneg (Real.sqrt_nonneg _), Real.sqrt_le_left (by norm_num)]
  norm_num

theorem Cf.le (c : Cf) : |c.val| ≤ (c.bd : ℚ) := by
  cases c <;> simp only [Cf.val, Cf.bd, abs_neg]
  · simp
  · exact rh_bd.trans (by norm_num)
  · exact rh_bd.trans (by norm_num)
  · norm_num [abs_of_pos]
  · norm_num [abs_of_pos]

/-- The two components of the terms. -/
def comb : ℕ → List (Cf × ℕ) × List (Cf × ℕ)
  | 0 => ([(.one, 1)], [])
  | 1 => ([], [(.one, 1)])
  | 2 => ([(.rh, 2)], [(.rh, 3)])
  | 3 => ([(.rh, 3)], [(.rh, 2)])
  | 4 => ([(.rh, 2)], [(.nrh, 3)])
  | 5 => ([(.h, 5)], [(.rh, 4), (.nh, 6)])
  | 6 => ([(.rh, 4), (.h, 6)], [(.h, 5)])
  | 7 => ([(.rh, 5)], [(.rh, 6)])
  | 8 => ([(.rh, 6)], [(.nrh, 5)])
  | 9 => ([(.rh, 8)], [(.rh, 7)])
  | 10 => ([(.h, 8), (.h, 10)], [(.nh, 7), (.h, 9)])
  | 11 => ([(.h, 7), (.h, 9)], [(.h, 8), (.nh, 10)])
  | 12 => ([(.rh, 10)], [(.nrh, 9)])
  | 13 => ([(.rh, 9)], [(.rh, 10)])
  | 14 => ([(.rh, 11), (.h, 12)], [(.h, 13)])
  | 15 => ([(.h, 13)], [(.rh, 11), (.nh, 12)])
  | 16 => ([(.h, 12), (.h, 14)], [(.h, 15), (.nh, 13)])
  | 17 => ([(.h, 13), (.h, 15)], [(.h, 12), (.nh, 14)])
  | 18 => ([(.rh, 14)], [(.nrh, 15)])
  | 19 => ([(.rh, 15)], [(.rh, 14)])
  | 20 => ([(.rh, 16)], [(.rh, 17)])
  | 21 => ([(.h, 17), (.h, 19)], [(.h, 16), (.nh, 18)])
  | 22 => ([(.h, 16), (.h, 18)], [(.nh, 17), (.h, 19)])
  | 23 => ([(.h, 19), (.h, 21)], [(.h, 18), (.nh, 20)])
  | 24 => ([(.h, 18), (.h, 20)], [(.nh, 19), (.h, 21)])
  | 25 => ([(.rh, 21)], [(.rh, 20)])
  | 26 => ([(.rh, 20)], [(.nrh, 21)])
  | 27 => ([(.rh, 3)], [(.nrh, 2)])
  | 28 => ([(.rh, 4), (.nh, 6)], [(.nh, 5)])
  | 29 => ([(.h, 5)], [(.nrh, 4), (.nh, 6)])
  | 30 => ([(.rh, 7)], [(.nrh, 8)])
  | 31 => ([(.nh, 7), (.h, 9)], [(.nh, 8), (.nh, 10)])
  | 32 => ([(.h, 8), (.nh, 10)], [(.nh, 7), (.nh, 9)])
  | _ => ([], [])

noncomputable def evalC (l : List (Cf × ℕ)) (p : ℝ × ℝ) : ℝ := (l.map fun e => e.1.val * getZ e.2 p.1 p.2).sum
def combL (l : List (Cf × ℕ)) (R : ℚ) : ℚ := (l.map fun e => e.1.bd * zL e.2 R).sum
def combS (l : List (Cf × ℕ)) (R : ℚ) : ℚ := (l.map fun e => e.1.bd * zS e.2 R).sum

theorem comb_lip (l : List (Cf × ℕ)) (h : ∀ e ∈ l, 1 ≤ e.2 ∧ e.2 ≤ 21) {R : ℚ} (hR : 1 ≤ R) : LipOn R (combL l R : ℚ) (evalC l) := by
  induction l with
  | nil => simpa [combL] using (show LipOn R 0 (evalC []) from LipOn.zero R)
  | cons e l ih =>
    obtain ⟨h1, h2⟩ := h e (by simp)
    have := ((z_lip e.2 h1 h2 hR).smul e.1.le).add (ih fun e he => h e (by simp [he]))
    have hc : ((combL (e :: l) R : ℚ) : ℝ) = (e.1.bd : ℚ) * (zL e.2 R : ℚ) + (combL l R : ℚ) := by simp [combL]
    rw [hc]
    exact this

theorem comb_bdd (l : List (Cf × ℕ)) (h : ∀ e ∈ l, 1 ≤ e.2 ∧ e.2 ≤ 21) {R : ℚ} (hR : 1 ≤ R) : BddOn R (combS l R : ℚ) (evalC l) := by
  induction l with
  | nil => simpa [combS] using (show BddOn R 0 (evalC []) from BddOn.zero R)
  | cons e l ih =>
    obtain ⟨h1, h2⟩ := h e (by simp)
    have := ((z_bdd e.2 h1 h2 hR).smul e.1.le).add (ih fun e he => h e (by simp [he]))
    have hc : ((combS (e :: l) R : ℚ) : ℝ) = (e.1.bd : ℚ) * (zS e.2 R : ℚ) + (combS l R : ℚ) := by simp [combS]
    rw [hc]
    exact this

theorem comb_known (i : ℕ) (h : i < 33) : (∀ e ∈ (comb i).1, 1 ≤ e.2 ∧ e.2 ≤ 21) ∧ ∀ e ∈ (comb i).2, 1 ≤ e.2 ∧ e.2 ≤ 21 := by
  interval_cases i <;> decide

theorem term_comb (i : ℕ) (h : i < 33) (x y : ℝ) : ∃ k, getZhaoBurgeTerm i x y = .ok (evalC (comb i).1 (x, y), evalC (comb i).2 (x, y), k) := by
  refine ⟨if i < 27 then .S else .T, ?_⟩
  interval_cases i <;>
    (simp only [getZhaoBurgeTerm, comb, evalC, Cf.val, List.map_cons, List.map_nil, List.sum_cons, List.sum_nil, add_zero, one_mul, neg_mul,
      ← sub_eq_add_neg, Nat.reduceLT, if_true, if_false])

/-- Steepness and size of a term (larger of the components). -/
def tL (i : ℕ) (R : ℚ) : ℚ := max (combL (comb i).1 R) (combL (comb i).2 R)
def tS (i : ℕ) (R : ℚ) : ℚ := max (combS (comb i).1 R) (combS (comb i).2 R)

/-! ### The distortion -/

/-- Steepness and size of the distortion with coefficients bounded by `bs`. -/
def dL (ids : List ℕ) (bs : List ℚ) (R : ℚ) : ℚ := ((ids.zip bs).map fun e => e.2 * tL e.1 R).sum
def dS (ids : List ℕ) (bs : List ℚ) (R : ℚ) : ℚ := ((ids.zip bs).map fun e => e.2 * tS e.1 R).sum

theorem sum_lip (f : ℕ → ℝ × ℝ → ℝ) (K : ℕ → ℚ) (R : ℝ) (ids : List ℕ) (hf : ∀ i ∈ ids, LipOn R (K i : ℚ) (f i)) (cs : List ℝ) (bs : List ℚ)
    (h : List.Forall₂ (fun c b => |c| ≤ ((b : ℚ) : ℝ)) cs bs) :
    LipOn R ((((ids.zip bs).map fun e => e.2 * K e.1).sum : ℚ) : ℝ) fun p => ((ids.zip cs).map fun e : ℕ × ℝ => e.2 * f e.1 p).sum := by
  induction ids generalizing cs bs with
  | nil => simpa using LipOn.zero R
  | cons i ids ih =>
    cases h with
    | nil => simpa using LipOn.zero R
    | cons hcb h =>
      have := ((hf i (by simp)).smul hcb).add (ih (fun i hi => hf i (by simp [hi])) _ _ h)
      simpa using this

theorem sum_bdd (f : ℕ → ℝ × ℝ → ℝ) (K : ℕ → ℚ) (R : ℝ) (ids : List ℕ) (hf : ∀ i ∈ ids, BddOn R (K i : ℚ) (f i)) (cs : List ℝ) (bs : List ℚ)
    (h : List.Forall₂ (fun c b => |c| ≤ ((b : ℚ) : ℝ)) cs bs) :
    BddOn R ((((ids.zip bs).map fun e => e.2 * K e.1).sum : ℚ) : ℝ) fun p => ((ids.zip cs).map fun e : ℕ × ℝ => e.2 * f e.1 p).sum := by
  induction ids generalizing cs bs with
  | nil => simpa using BddOn.zero R
  | cons i ids ih =>
    cases h with
    | nil => simpa using BddOn.zero R
    | cons hcb h =>
      have := ((hf i (by simp)).smul hcb).add (ih (fun i hi => hf i (by simp [hi])) _ _ h)
      simpa using this

/-- The distortion with coefficients bounded by `bs`, in every square that contains the unit square. -/
theorem distortion (ids : List ℕ) (hids : ∀ i ∈ ids, i < 33) (cs : List ℝ) (bs : List ℚ)
    (h : List.Forall₂ (fun c b => |c| ≤ ((b : ℚ) : ℝ)) cs bs) :
    ∃ D : ℝ × ℝ → ℝ × ℝ, (∀ x y, getZhaoBurgeXY ids cs x y = .ok (D (x, y))) ∧
      ∀ R : ℚ, 1 ≤ R → (∀ a b : ℝ × ℝ, ‖a‖ ≤ R → ‖b‖ ≤ R → dist (D a) (D b) ≤ (dL ids bs R : ℚ) * dist a b) ∧
        ∀ a : ℝ × ℝ, ‖a‖ ≤ R → ‖D a‖ ≤ (dS ids bs R : ℚ) := by
  refine ⟨fun p => (((ids.zip cs).map fun e : ℕ × ℝ => e.2 * evalC (comb e.1).1 p).sum,
    ((ids.zip cs).map fun e : ℕ × ℝ => e.2 * evalC (comb e.1).2 p).sum), ?_, ?_⟩
  · intro x y
    rw [C25_sum ids cs x y (fun i => (evalC (comb i).1 (x, y), evalC (comb i).2 (x, y))) fun i hi => term_comb i (hids i hi) x y]
  · intro R hR
    have l1 := sum_lip (fun i => evalC (comb i).1) (fun i => tL i R) R ids
      (fun i hi => (comb_lip _ (comb_known i (hids i hi)).1 hR).mono (by exact_mod_cast le_max_left _ _)) cs bs h
    have l2 := sum_lip (fun i => evalC (comb i).2) (fun i => tL i R) R ids
      (fun i hi => (comb_lip _ (comb_known i (hids i hi)).2 hR).mono (by exact_mod_cast le_max_right _ _)) cs bs h
    have b1 := sum_bdd (fun i => evalC (comb i).1) (fun i => tS i R) R ids
      (fun i hi a ha => (comb_bdd _ (comb_known i (hids i hi)).1 hR a ha).trans (by exact_mod_cast le_max_left _ _)) cs bs h
    have b2 := sum_bdd (fun i => evalC (comb i).2) (fun i => tS i R) R ids
      (fun i hi a ha => (comb_bdd _ (comb_known i (hids i hi)).2 hR a ha).trans (by exact_mod_cast le_max_right _ _)) cs bs h
    constructor
    · intro a b ha hb
      rw [Prod.dist_eq, Real.dist_eq, Real.dist_eq]
      exact max_le (l1 a b ha hb) (l2 a b ha hb)
    · intro a ha
      rw [Prod.norm_def, Real.norm_eq_abs, Real.norm_eq_abs]
      exact max_le (b1 a ha) (b2 a ha)

end Verif.Lemmas.ZhaoBurgeLip
