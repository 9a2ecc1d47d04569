import Verif.Lemmas.ZhaoBurge

set_option linter.unusedTactic false
set_option linter.unreachableTactic false
set_option linter.unusedSimpArgs false
set_option linter.unusedVariables false

namespace Verif.Lemmas.ZhaoBurge
open Verif.Py Verif.Model.ZhaoBurge

/-- Bivariate polynomial: list of (coefficient, power of x, power of y). -/
abbrev BP := List (ℤ × ℕ × ℕ)

def ev (l : BP) (x y : ℝ) : ℝ := (l.map fun m : ℤ × ℕ × ℕ => (m.1 : ℝ) * x ^ m.2.1 * y ^ m.2.2).sum
def dX (l : BP) : BP := l.map fun m => (m.1 * m.2.1, m.2.1 - 1, m.2.2)
def dY (l : BP) : BP := l.map fun m => (m.1 * m.2.2, m.2.1, m.2.2 - 1)

theorem ev_dX (l : BP) (x y : ℝ) : HasDerivAt (fun t => ev l t y) (ev (dX l) x y) x := by
  induction l with
  | nil => simpa [ev, dX] using hasDerivAt_const x (0:ℝ)
  | cons m l ih =>
    have h := (((hasDerivAt_pow m.2.1 x).const_mul (m.1 : ℝ)).mul_const (y ^ m.2.2)).add ih
    have e : (fun t => ev (m :: l) t y) = (fun t => (m.1 : ℝ) * t ^ m.2.1 * y ^ m.2.2) + fun t => ev l t y := by
      funext t; simp [ev]
    rw [e]
    refine h.congr_deriv ?_
    simp only [ev, dX, List.map_cons, List.sum_cons, Int.cast_mul, Int.cast_natCast]; ring

theorem ev_dY (l : BP) (x y : ℝ) : HasDerivAt (fun t => ev l x t) (ev (dY l) x y) y := by
  induction l with
  | nil => simpa [ev, dY] using hasDerivAt_const y (0:ℝ)
  | cons m l ih =>
    have h := ((hasDerivAt_pow m.2.2 y).const_mul ((m.1 : ℝ) * x ^ m.2.1)).add ih
    have e : (fun t => ev (m :: l) x t) = (fun t => (m.1 : ℝ) * x ^ m.2.1 * t ^ m.2.2) + fun t => ev l x t := by
      funext t; simp [ev]
    rw [e]
    refine h.congr_deriv ?_
    simp only [ev, dY, List.map_cons, List.sum_cons, Int.cast_mul, Int.cast_natCast]; ring

/-- The Zernike polynomials with Noll index 1..21, edge normalised. -/
def Zp : Nat → BP
  | 1 => [(1, 0, 0)]
  | 2 => [(1, 1, 0)]
  | 3 => [(1, 0, 1)]
  | 4 => [(2, 2, 0), (2, 0, 2), (-1, 0, 0)]
  | 5 => [(2, 1, 1)]
  | 6 => [(1, 2, 0), (-1, 0, 2)]
  | 7 => [(3, 2, 1), (3, 0, 3), (-2, 0, 1)]
  | 8 => [(3, 3, 0), (3, 1, 2), (-2, 1, 0)]
  | 9 => [(3, 2, 1), (-1, 0, 3)]
  | 10 => [(1, 3, 0), (-3, 1, 2)]
  | 11 => [(6, 4, 0), (12, 2, 2), (-6, 2, 0), (6, 0, 4), (-6, 0, 2), (1, 0, 0)]
  | 12 => [(4, 4, 0), (-3, 2, 0), (-4, 0, 4), (3, 0, 2)]
  | 13 => [(8, 3, 1), (8, 1, 3), (-6, 1, 1)]
  | 14 => [(1, 4, 0), (-6, 2, 2), (1, 0, 4)]
  | 15 => [(4, 3, 1), (-4, 1, 3)]
  | 16 => [(10, 5, 0), (20, 3, 2), (-12, 3, 0), (10, 1, 4), (-12, 1, 2), (3, 1, 0)]
  | 17 => [(10, 4, 1), (20, 2, 3), (-12, 2, 1), (10, 0, 5), (-12, 0, 3), (3, 0, 1)]
  | 18 => [(5, 5, 0), (-10, 3, 2), (-4, 3, 0), (-15, 1, 4), (12, 1, 2)]
  | 19 => [(15, 4, 1), (10, 2, 3), (-12, 2, 1), (-5, 0, 5), (4, 0, 3)]
  | 20 => [(1, 5, 0), (-10, 3, 2), (5, 1, 4)]
  | 21 => [(5, 4, 1), (-10, 2, 3), (1, 0, 5)]
  | _ => []

theorem getZ_1 (x y : ℝ) : getZ 1 x y = Real.sqrt 1 * ev (Zp 1) x y := by
  unfold getZ
  rw [noll_spec 0 0 (by norm_num) ((1 : ℕ) : ℤ) (by norm_num)]
  have hm : (if (((1 : ℕ) : ℤ)) % 2 > 0 then -(absM 0 0 : ℤ) else absM 0 0) = 0 := by decide
  simp only [hm]
  rw [func_eq 0 (0) (by decide) (by decide)]
  simp [squares, radS, ang, cs, ev, Zp, List.range_succ, factorial_eq, Nat.factorial]
  try ring

theorem getZ_2 (x y : ℝ) : getZ 2 x y = Real.sqrt 4 * ev (Zp 2) x y := by
  unfold getZ
  rw [noll_spec 1 0 (by norm_num) ((2 : ℕ) : ℤ) (by norm_num)]
  have hm : (if (((2 : ℕ) : ℤ)) % 2 > 0 then -(absM 1 0 : ℤ) else absM 1 0) = 1 := by decide
  simp only [hm]
  rw [func_eq 1 (1) (by decide) (by decide)]
  simp [squares, radS, ang, cs, ev, Zp, List.range_succ, factorial_eq, Nat.factorial]
  try ring

theorem getZ_3 (x y : ℝ) : getZ 3 x y = Real.sqrt 4 * ev (Zp 3) x y := by
  unfold getZ
  rw [noll_spec 1 1 (by norm_num) ((3 : ℕ) : ℤ) (by norm_num)]
  have hm : (if (((3 : ℕ) : ℤ)) % 2 > 0 then -(absM 1 1 : ℤ) else absM 1 1) = -1 := by decide
  simp only [hm]
  rw [func_eq 1 (-1) (by decide) (by decide)]
  simp [squares, radS, ang, cs, ev, Zp, List.range_succ, factorial_eq, Nat.factorial]
  try ring

theorem getZ_4 (x y : ℝ) : getZ 4 x y = Real.sqrt 3 * ev (Zp 4) x y := by
  unfold getZ
  rw [noll_spec 2 0 (by norm_num) ((4 : ℕ) : ℤ) (by norm_num)]
  have hm : (if (((4 : ℕ) : ℤ)) % 2 > 0 then -(absM 2 0 : ℤ) else absM 2 0) = 0 := by decide
  simp only [hm]
  rw [func_eq 2 (0) (by decide) (by decide)]
  simp [squares, radS, ang, cs, ev, Zp, List.range_succ, factorial_eq, Nat.factorial]
  try ring

theorem getZ_5 (x y : ℝ) : getZ 5 x y = Real.sqrt 6 * ev (Zp 5) x y := by
  unfold getZ
  rw [noll_spec 2 1 (by norm_num) ((5 : ℕ) : ℤ) (by norm_num)]
  have hm : (if (((5 : ℕ) : ℤ)) % 2 > 0 then -(absM 2 1 : ℤ) else absM 2 1) = -2 := by decide
  simp only [hm]
  rw [func_eq 2 (-2) (by decide) (by decide)]
  simp [squares, radS, ang, cs, ev, Zp, List.range_succ, factorial_eq, Nat.factorial]
  try ring

theorem getZ_6 (x y : ℝ) : getZ 6 x y = Real.sqrt 6 * ev (Zp 6) x y := by
  unfold getZ
  rw [noll_spec 2 2 (by norm_num) ((6 : ℕ) : ℤ) (by norm_num)]
  have hm : (if (((6 : ℕ) : ℤ)) % 2 > 0 then -(absM 2 2 : ℤ) else absM 2 2) = 2 := by decide
  simp only [hm]
  rw [func_eq 2 (2) (by decide) (by decide)]
  simp [squares, radS, ang, cs, ev, Zp, List.range_succ, factorial_eq, Nat.factorial]
  try ring

theorem getZ_7 (x y : ℝ) : getZ 7 x y = Real.sqrt 8 * ev (Zp 7) x y := by
  unfold getZ
  rw [noll_spec 3 0 (by norm_num) ((7 : ℕ) : ℤ) (by norm_num)]
  have hm : (if (((7 : ℕ) : ℤ)) % 2 > 0 then -(absM 3 0 : ℤ) else absM 3 0) = -1 := by decide
  simp only [hm]
  rw [func_eq 3 (-1) (by decide) (by decide)]
  simp [squares, radS, ang, cs, ev, Zp, List.range_succ, factorial_eq, Nat.factorial]
  try ring

theorem getZ_8 (x y : ℝ) : getZ 8 x y = Real.sqrt 8 * ev (Zp 8) x y := by
  unfold getZ
  rw [noll_spec 3 1 (by norm_num) ((8 : ℕ) : ℤ) (by norm_num)]
  have hm : (if (((8 : ℕ) : ℤ)) % 2 > 0 then -(absM 3 1 : ℤ) else absM 3 1) = 1 := by decide
  simp only [hm]
  rw [func_eq 3 (1) (by decide) (by decide)]
  simp [squares, radS, ang, cs, ev, Zp, List.range_succ, factorial_eq, Nat.factorial]
  try ring

theorem getZ_9 (x y : ℝ) : getZ 9 x y = Real.sqrt 8 * ev (Zp 9) x y := by
  unfold getZ
  rw [noll_spec 3 2 (by norm_num) ((9 : ℕ) : ℤ) (by norm_num)]
  have hm : (if (((9 : ℕ) : ℤ)) % 2 > 0 then -(absM 3 2 : ℤ) else absM 3 2) = -3 := by decide
  simp only [hm]
  rw [func_eq 3 (-3) (by decide) (by decide)]
  simp [squares, radS, ang, cs, ev, Zp, List.range_succ, factorial_eq, Nat.factorial]
  try ring

theorem getZ_10 (x y : ℝ) : getZ 10 x y = Real.sqrt 8 * ev (Zp 10) x y := by
  unfold getZ
  rw [noll_spec 3 3 (by norm_num) ((10 : ℕ) : ℤ) (by norm_num)]
  have hm : (if (((10 : ℕ) : ℤ)) % 2 > 0 then -(absM 3 3 : ℤ) else absM 3 3) = 3 := by decide
  simp only [hm]
  rw [func_eq 3 (3) (by decide) (by decide)]
  simp [squares, radS, ang, cs, ev, Zp, List.range_succ, factorial_eq, Nat.factorial]
  try ring

theorem getZ_11 (x y : ℝ) : getZ 11 x y = Real.sqrt 5 * ev (Zp 11) x y := by
  unfold getZ
  rw [noll_spec 4 0 (by norm_num) ((11 : ℕ) : ℤ) (by norm_num)]
  have hm : (if (((11 : ℕ) : ℤ)) % 2 > 0 then -(absM 4 0 : ℤ) else absM 4 0) = 0 := by decide
  simp only [hm]
  rw [func_eq 4 (0) (by decide) (by decide)]
  simp [squares, radS, ang, cs, ev, Zp, List.range_succ, factorial_eq, Nat.factorial]
  try ring

theorem getZ_12 (x y : ℝ) : getZ 12 x y = Real.sqrt 10 * ev (Zp 12) x y := by
  unfold getZ
  rw [noll_spec 4 1 (by norm_num) ((12 : ℕ) : ℤ) (by norm_num)]
  have hm : (if (((12 : ℕ) : ℤ)) % 2 > 0 then -(absM 4 1 : ℤ) else absM 4 1) = 2 := by decide
  simp only [hm]
  rw [func_eq 4 (2) (by decide) (by decide)]
  simp [squares, radS, ang, cs, ev, Zp, List.range_succ, factorial_eq, Nat.factorial]
  try ring

theorem getZ_13 (x y : ℝ) : getZ 13 x y = Real.sqrt 10 * ev (Zp 13) x y := by
  unfold getZ
  rw [noll_spec 4 2 (by norm_num) ((13 : ℕ) : ℤ) (by norm_num)]
  have hm : (if (((13 : ℕ) : ℤ)) % 2 > 0 then -(absM 4 2 : ℤ) else absM 4 2) = -2 := by decide
  simp only [hm]
  rw [func_eq 4 (-2) (by decide) (by decide)]
  simp [squares, radS, ang, cs, ev, Zp, List.range_succ, factorial_eq, Nat.factorial]
  try ring

theorem getZ_14 (x y : ℝ) : getZ 14 x y = Real.sqrt 10 * ev (Zp 14) x y := by
  unfold getZ
  rw [noll_spec 4 3 (by norm_num) ((14 : ℕ) : ℤ) (by norm_num)]
  have hm : (if (((14 : ℕ) : ℤ)) % 2 > 0 then -(absM 4 3 : ℤ) else absM 4 3) = 4 := by decide
  simp only [hm]
  rw [func_eq 4 (4) (by decide) (by decide)]
  simp [squares, radS, ang, cs, ev, Zp, List.range_succ, factorial_eq, Nat.factorial]
  try ring

theorem getZ_15 (x y : ℝ) : getZ 15 x y = Real.sqrt 10 * ev (Zp 15) x y := by
  unfold getZ
  rw [noll_spec 4 4 (by norm_num) ((15 : ℕ) : ℤ) (by norm_num)]
  have hm : (if (((15 : ℕ) : ℤ)) % 2 > 0 then -(absM 4 4 : ℤ) else absM 4 4) = -4 := by decide
  simp only [hm]
  rw [func_eq 4 (-4) (by decide) (by decide)]
  simp [squares, radS, ang, cs, ev, Zp, List.range_succ, factorial_eq, Nat.factorial]
  try ring

theorem getZ_16 (x y : ℝ) : getZ 16 x y = Real.sqrt 12 * ev (Zp 16) x y := by
  unfold getZ
  rw [noll_spec 5 0 (by norm_num) ((16 : ℕ) : ℤ) (by norm_num)]
  have hm : (if (((16 : ℕ) : ℤ)) % 2 > 0 then -(absM 5 0 : ℤ) else absM 5 0) = 1 := by decide
  simp only [hm]
  rw [func_eq 5 (1) (by decide) (by decide)]
  simp [squares, radS, ang, cs, ev, Zp, List.range_succ, factorial_eq, Nat.factorial]
  try ring

theorem getZ_17 (x y : ℝ) : getZ 17 x y = Real.sqrt 12 * ev (Zp 17) x y := by
  unfold getZ
  rw [noll_spec 5 1 (by norm_num) ((17 : ℕ) : ℤ) (by norm_num)]
  have hm : (if (((17 : ℕ) : ℤ)) % 2 > 0 then -(absM 5 1 : ℤ) else absM 5 1) = -1 := by decide
  simp only [hm]
  rw [func_eq 5 (-1) (by decide) (by decide)]
  simp [squares, radS, ang, cs, ev, Zp, List.range_succ, factorial_eq, Nat.factorial]
  try ring

theorem getZ_18 (x y : ℝ) : getZ 18 x y = Real.sqrt 12 * ev (Zp 18) x y := by
  unfold getZ
  rw [noll_spec 5 2 (by norm_num) ((18 : ℕ) : ℤ) (by norm_num)]
  have hm : (if (((18 : ℕ) : ℤ)) % 2 > 0 then -(absM 5 2 : ℤ) else absM 5 2) = 3 := by decide
  simp only [hm]
  rw [func_eq 5 (3) (by decide) (by decide)]
  simp [squares, radS, ang, cs, ev, Zp, List.range_succ, factorial_eq, Nat.factorial]
  try ring

theorem getZ_19 (x y : ℝ) : getZ 19 x y = Real.sqrt 12 * ev (Zp 19) x y := by
  unfold getZ
  rw [noll_spec 5 3 (by norm_num) ((19 : ℕ) : ℤ) (by norm_num)]
  have hm : (if (((19 : ℕ) : ℤ)) % 2 > 0 then -(absM 5 3 : ℤ) else absM 5 3) = -3 := by decide
  simp only [hm]
  rw [func_eq 5 (-3) (by decide) (by decide)]
  simp [squares, radS, ang, cs, ev, Zp, List.range_succ, factorial_eq, Nat.factorial]
  try ring

theorem getZ_20 (x y : ℝ) : getZ 20 x y = Real.sqrt 12 * ev (Zp 20) x y := by
  unfold getZ
  rw [noll_spec 5 4 (by norm_num) ((20 : ℕ) : ℤ) (by norm_num)]
  have hm : (if (((20 : ℕ) : ℤ)) % 2 > 0 then -(absM 5 4 : ℤ) else absM 5 4) = 5 := by decide
  simp only [hm]
  rw [func_eq 5 (5) (by decide) (by decide)]
  simp [squares, radS, ang, cs, ev, Zp, List.range_succ, factorial_eq, Nat.factorial]
  try ring

theorem getZ_21 (x y : ℝ) : getZ 21 x y = Real.sqrt 12 * ev (Zp 21) x y := by
  unfold getZ
  rw [noll_spec 5 5 (by norm_num) ((21 : ℕ) : ℤ) (by norm_num)]
  have hm : (if (((21 : ℕ) : ℤ)) % 2 > 0 then -(absM 5 5 : ℤ) else absM 5 5) = -5 := by decide
  simp only [hm]
  rw [func_eq 5 (-5) (by decide) (by decide)]
  simp [squares, radS, ang, cs, ev, Zp, List.range_succ, factorial_eq, Nat.factorial]
  try ring

theorem getZ_poly (j : Nat) (h1 : 1 ≤ j) (h2 : j ≤ 21) (x y : ℝ) :
    getZ j x y = Real.sqrt (squares.getD j 0) * ev (Zp j) x y := by
  interval_cases j
  · rw [getZ_1]; simp [squares]
  · rw [getZ_2]; simp [squares]
  · rw [getZ_3]; simp [squares]
  · rw [getZ_4]; simp [squares]
  · rw [getZ_5]; simp [squares]
  · rw [getZ_6]; simp [squares]
  · rw [getZ_7]; simp [squares]
  · rw [getZ_8]; simp [squares]
  · rw [getZ_9]; simp [squares]
  · rw [getZ_10]; simp [squares]
  · rw [getZ_11]; simp [squares]
  · rw [getZ_12]; simp [squares]
  · rw [getZ_13]; simp [squares]
  · rw [getZ_14]; simp [squares]
  · rw [getZ_15]; simp [squares]
  · rw [getZ_16]; simp [squares]
  · rw [getZ_17]; simp [squares]
  · rw [getZ_18]; simp [squares]
  · rw [getZ_19]; simp [squares]
  · rw [getZ_20]; simp [squares]
  · rw [getZ_21]; simp [squares]

/-- Normalisation of Noll index `j`. -/
noncomputable def nrm (j : Nat) : ℝ := Real.sqrt (squares.getD j 0)

theorem zx (j : Nat) (h1 : 1 ≤ j) (h2 : j ≤ 21) (x y : ℝ) :
    HasDerivAt (fun t => getZ j t y) (nrm j * ev (dX (Zp j)) x y) x := by
  have e : (fun t => getZ j t y) = fun t => nrm j * ev (Zp j) t y := by
    funext t; exact getZ_poly j h1 h2 t y
  rw [e]; exact (ev_dX _ x y).const_mul _

theorem zy (j : Nat) (h1 : 1 ≤ j) (h2 : j ≤ 21) (x y : ℝ) :
    HasDerivAt (fun t => getZ j x t) (nrm j * ev (dY (Zp j)) x y) y := by
  have e : (fun t => getZ j x t) = fun t => nrm j * ev (Zp j) x t := by
    funext t; exact getZ_poly j h1 h2 x t
  rw [e]; exact (ev_dY _ x y).const_mul _

theorem s2 : Real.sqrt 2 * Real.sqrt 2 = 2 := Real.mul_self_sqrt (by norm_num)
theorem rh_eq : rh = Real.sqrt 2 / 2 := by
  unfold rh
  rw [show (0.5:ℝ) = 2 / 2 ^ 2 by norm_num, Real.sqrt_div (by norm_num), Real.sqrt_sq (by norm_num)]
theorem s4 : Real.sqrt 4 = 2 := by rw [show (4:ℝ) = 2 ^ 2 by norm_num, Real.sqrt_sq (by norm_num)]
theorem s6 : Real.sqrt 6 = Real.sqrt 2 * Real.sqrt 3 := by rw [← Real.sqrt_mul (by norm_num)]; norm_num
theorem s8 : Real.sqrt 8 = 2 * Real.sqrt 2 := by
  rw [show (8:ℝ) = 2 ^ 2 * 2 by norm_num, Real.sqrt_mul (by norm_num), Real.sqrt_sq (by norm_num)]
theorem s10 : Real.sqrt 10 = Real.sqrt 2 * Real.sqrt 5 := by rw [← Real.sqrt_mul (by norm_num)]; norm_num
theorem s12 : Real.sqrt 12 = 2 * Real.sqrt 3 := by
  rw [show (12:ℝ) = 2 ^ 2 * 3 by norm_num, Real.sqrt_mul (by norm_num), Real.sqrt_sq (by norm_num)]

theorem nrm_1 : nrm 1 = 1 := by unfold nrm; simp [squares]
theorem nrm_2 : nrm 2 = 2 := by unfold nrm; simp [squares, s4]
theorem nrm_3 : nrm 3 = 2 := by unfold nrm; simp [squares, s4]
theorem nrm_4 : nrm 4 = Real.sqrt 3 := by unfold nrm; simp [squares]
theorem nrm_5 : nrm 5 = Real.sqrt 2 * Real.sqrt 3 := by unfold nrm; simp [squares, s6]
theorem nrm_6 : nrm 6 = Real.sqrt 2 * Real.sqrt 3 := by unfold nrm; simp [squares, s6]
theorem nrm_7 : nrm 7 = 2 * Real.sqrt 2 := by unfold nrm; simp [squares, s8]
theorem nrm_8 : nrm 8 = 2 * Real.sqrt 2 := by unfold nrm; simp [squares, s8]
theorem nrm_9 : nrm 9 = 2 * Real.sqrt 2 := by unfold nrm; simp [squares, s8]
theorem nrm_10 : nrm 10 = 2 * Real.sqrt 2 := by unfold nrm; simp [squares, s8]
theorem nrm_11 : nrm 11 = Real.sqrt 5 := by unfold nrm; simp [squares]
theorem nrm_12 : nrm 12 = Real.sqrt 2 * Real.sqrt 5 := by unfold nrm; simp [squares, s10]
theorem nrm_13 : nrm 13 = Real.sqrt 2 * Real.sqrt 5 := by unfold nrm; simp [squares, s10]
theorem nrm_14 : nrm 14 = Real.sqrt 2 * Real.sqrt 5 := by unfold nrm; simp [squares, s10]
theorem nrm_15 : nrm 15 = Real.sqrt 2 * Real.sqrt 5 := by unfold nrm; simp [squares, s10]
theorem nrm_16 : nrm 16 = 2 * Real.sqrt 3 := by unfold nrm; simp [squares, s12]
theorem nrm_17 : nrm 17 = 2 * Real.sqrt 3 := by unfold nrm; simp [squares, s12]
theorem nrm_18 : nrm 18 = 2 * Real.sqrt 3 := by unfold nrm; simp [squares, s12]
theorem nrm_19 : nrm 19 = 2 * Real.sqrt 3 := by unfold nrm; simp [squares, s12]
theorem nrm_20 : nrm 20 = 2 * Real.sqrt 3 := by unfold nrm; simp [squares, s12]
theorem nrm_21 : nrm 21 = 2 * Real.sqrt 3 := by unfold nrm; simp [squares, s12]

theorem curl_0 (x y : ℝ) : ∃ d, HasDerivAt (fun t : ℝ => (getZ 1 x t : ℝ)) d y ∧
    HasDerivAt (fun t : ℝ => (0 : ℝ)) d x := by
  refine ⟨_, (zy 1 (by norm_num) (by norm_num) x y), ?_⟩
  have h := (hasDerivAt_const x (0:ℝ))
  refine h.congr_deriv ?_
  simp only [ev, dX, dY, Zp, List.map_cons, List.map_nil, List.sum_cons, List.sum_nil, rh_eq, nrm_1]
  try push_cast
  try ring_nf
  try simp only [Real.sq_sqrt (show (0:ℝ) ≤ 2 by norm_num)]
  try ring

theorem curl_1 (x y : ℝ) : ∃ d, HasDerivAt (fun t : ℝ => (0 : ℝ)) d y ∧
    HasDerivAt (fun t : ℝ => (getZ 1 t y : ℝ)) d x := by
  refine ⟨_, (hasDerivAt_const y (0:ℝ)), ?_⟩
  have h := (zx 1 (by norm_num) (by norm_num) x y)
  refine h.congr_deriv ?_
  simp only [ev, dX, dY, Zp, List.map_cons, List.map_nil, List.sum_cons, List.sum_nil, rh_eq, nrm_1]
  try push_cast
  try ring_nf
  try simp only [Real.sq_sqrt (show (0:ℝ) ≤ 2 by norm_num)]
  try ring

theorem curl_2 (x y : ℝ) : ∃ d, HasDerivAt (fun t : ℝ => (rh * getZ 2 x t : ℝ)) d y ∧
    HasDerivAt (fun t : ℝ => (rh * getZ 3 t y : ℝ)) d x := by
  refine ⟨_, ((zy 2 (by norm_num) (by norm_num) x y).const_mul rh), ?_⟩
  have h := ((zx 3 (by norm_num) (by norm_num) x y).const_mul rh)
  refine h.congr_deriv ?_
  simp only [ev, dX, dY, Zp, List.map_cons, List.map_nil, List.sum_cons, List.sum_nil, rh_eq, nrm_2, nrm_3]
  try push_cast
  try ring_nf
  try simp only [Real.sq_sqrt (show (0:ℝ) ≤ 2 by norm_num)]
  try ring

theorem curl_3 (x y : ℝ) : ∃ d, HasDerivAt (fun t : ℝ => (rh * getZ 3 x t : ℝ)) d y ∧
    HasDerivAt (fun t : ℝ => (rh * getZ 2 t y : ℝ)) d x := by
  refine ⟨_, ((zy 3 (by norm_num) (by norm_num) x y).const_mul rh), ?_⟩
  have h := ((zx 2 (by norm_num) (by norm_num) x y).const_mul rh)
  refine h.congr_deriv ?_
  simp only [ev, dX, dY, Zp, List.map_cons, List.map_nil, List.sum_cons, List.sum_nil, rh_eq, nrm_2, nrm_3]
  try push_cast
  try ring_nf
  try simp only [Real.sq_sqrt (show (0:ℝ) ≤ 2 by norm_num)]
  try ring

theorem curl_4 (x y : ℝ) : ∃ d, HasDerivAt (fun t : ℝ => (rh * getZ 2 x t : ℝ)) d y ∧
    HasDerivAt (fun t : ℝ => (-rh * getZ 3 t y : ℝ)) d x := by
  refine ⟨_, ((zy 2 (by norm_num) (by norm_num) x y).const_mul rh), ?_⟩
  have h := ((zx 3 (by norm_num) (by norm_num) x y).const_mul (-rh))
  refine h.congr_deriv ?_
  simp only [ev, dX, dY, Zp, List.map_cons, List.map_nil, List.sum_cons, List.sum_nil, rh_eq, nrm_2, nrm_3]
  try push_cast
  try ring_nf
  try simp only [Real.sq_sqrt (show (0:ℝ) ≤ 2 by norm_num)]
  try ring

theorem curl_5 (x y : ℝ) : ∃ d, HasDerivAt (fun t : ℝ => (0.5 * getZ 5 x t : ℝ)) d y ∧
    HasDerivAt (fun t : ℝ => (rh * getZ 4 t y - 0.5 * getZ 6 t y : ℝ)) d x := by
  refine ⟨_, ((zy 5 (by norm_num) (by norm_num) x y).const_mul (0.5:ℝ)), ?_⟩
  have h := (((zx 4 (by norm_num) (by norm_num) x y).const_mul rh).sub ((zx 6 (by norm_num) (by norm_num) x y).const_mul (0.5:ℝ)))
  refine h.congr_deriv ?_
  simp only [ev, dX, dY, Zp, List.map_cons, List.map_nil, List.sum_cons, List.sum_nil, rh_eq, nrm_4, nrm_5, nrm_6]
  try push_cast
  try ring_nf
  try simp only [Real.sq_sqrt (show (0:ℝ) ≤ 2 by norm_num)]
  try ring

theorem curl_6 (x y : ℝ) : ∃ d, HasDerivAt (fun t : ℝ => (rh * getZ 4 x t + 0.5 * getZ 6 x t : ℝ)) d y ∧
    HasDerivAt (fun t : ℝ => (0.5 * getZ 5 t y : ℝ)) d x := by
  refine ⟨_, (((zy 4 (by norm_num) (by norm_num) x y).const_mul rh).add ((zy 6 (by norm_num) (by norm_num) x y).const_mul (0.5:ℝ))), ?_⟩
  have h := ((zx 5 (by norm_num) (by norm_num) x y).const_mul (0.5:ℝ))
  refine h.congr_deriv ?_
  simp only [ev, dX, dY, Zp, List.map_cons, List.map_nil, List.sum_cons, List.sum_nil, rh_eq, nrm_4, nrm_5, nrm_6]
  try push_cast
  try ring_nf
  try simp only [Real.sq_sqrt (show (0:ℝ) ≤ 2 by norm_num)]
  try ring

theorem curl_7 (x y : ℝ) : ∃ d, HasDerivAt (fun t : ℝ => (rh * getZ 5 x t : ℝ)) d y ∧
    HasDerivAt (fun t : ℝ => (rh * getZ 6 t y : ℝ)) d x := by
  refine ⟨_, ((zy 5 (by norm_num) (by norm_num) x y).const_mul rh), ?_⟩
  have h := ((zx 6 (by norm_num) (by norm_num) x y).const_mul rh)
  refine h.congr_deriv ?_
  simp only [ev, dX, dY, Zp, List.map_cons, List.map_nil, List.sum_cons, List.sum_nil, rh_eq, nrm_5, nrm_6]
  try push_cast
  try ring_nf
  try simp only [Real.sq_sqrt (show (0:ℝ) ≤ 2 by norm_num)]
  try ring

theorem curl_8 (x y : ℝ) : ∃ d, HasDerivAt (fun t : ℝ => (rh * getZ 6 x t : ℝ)) d y ∧
    HasDerivAt (fun t : ℝ => (-rh * getZ 5 t y : ℝ)) d x := by
  refine ⟨_, ((zy 6 (by norm_num) (by norm_num) x y).const_mul rh), ?_⟩
  have h := ((zx 5 (by norm_num) (by norm_num) x y).const_mul (-rh))
  refine h.congr_deriv ?_
  simp only [ev, dX, dY, Zp, List.map_cons, List.map_nil, List.sum_cons, List.sum_nil, rh_eq, nrm_5, nrm_6]
  try push_cast
  try ring_nf
  try simp only [Real.sq_sqrt (show (0:ℝ) ≤ 2 by norm_num)]
  try ring

theorem curl_9 (x y : ℝ) : ∃ d, HasDerivAt (fun t : ℝ => (rh * getZ 8 x t : ℝ)) d y ∧
    HasDerivAt (fun t : ℝ => (rh * getZ 7 t y : ℝ)) d x := by
  refine ⟨_, ((zy 8 (by norm_num) (by norm_num) x y).const_mul rh), ?_⟩
  have h := ((zx 7 (by norm_num) (by norm_num) x y).const_mul rh)
  refine h.congr_deriv ?_
  simp only [ev, dX, dY, Zp, List.map_cons, List.map_nil, List.sum_cons, List.sum_nil, rh_eq, nrm_7, nrm_8]
  try push_cast
  try ring_nf
  try simp only [Real.sq_sqrt (show (0:ℝ) ≤ 2 by norm_num)]
  try ring

theorem curl_10 (x y : ℝ) : ∃ d, HasDerivAt (fun t : ℝ => (0.5 * getZ 8 x t + 0.5 * getZ 10 x t : ℝ)) d y ∧
    HasDerivAt (fun t : ℝ => (-0.5 * getZ 7 t y + 0.5 * getZ 9 t y : ℝ)) d x := by
  refine ⟨_, (((zy 8 (by norm_num) (by norm_num) x y).const_mul (0.5:ℝ)).add ((zy 10 (by norm_num) (by norm_num) x y).const_mul (0.5:ℝ))), ?_⟩
  have h := (((zx 7 (by norm_num) (by norm_num) x y).const_mul (-0.5:ℝ)).add ((zx 9 (by norm_num) (by norm_num) x y).const_mul (0.5:ℝ)))
  refine h.congr_deriv ?_
  simp only [ev, dX, dY, Zp, List.map_cons, List.map_nil, List.sum_cons, List.sum_nil, rh_eq, nrm_7, nrm_8, nrm_9, nrm_10]
  try push_cast
  try ring_nf
  try simp only [Real.sq_sqrt (show (0:ℝ) ≤ 2 by norm_num)]
  try ring

theorem curl_11 (x y : ℝ) : ∃ d, HasDerivAt (fun t : ℝ => (0.5 * getZ 7 x t + 0.5 * getZ 9 x t : ℝ)) d y ∧
    HasDerivAt (fun t : ℝ => (0.5 * getZ 8 t y - 0.5 * getZ 10 t y : ℝ)) d x := by
  refine ⟨_, (((zy 7 (by norm_num) (by norm_num) x y).const_mul (0.5:ℝ)).add ((zy 9 (by norm_num) (by norm_num) x y).const_mul (0.5:ℝ))), ?_⟩
  have h := (((zx 8 (by norm_num) (by norm_num) x y).const_mul (0.5:ℝ)).sub ((zx 10 (by norm_num) (by norm_num) x y).const_mul (0.5:ℝ)))
  refine h.congr_deriv ?_
  simp only [ev, dX, dY, Zp, List.map_cons, List.map_nil, List.sum_cons, List.sum_nil, rh_eq, nrm_7, nrm_8, nrm_9, nrm_10]
  try push_cast
  try ring_nf
  try simp only [Real.sq_sqrt (show (0:ℝ) ≤ 2 by norm_num)]
  try ring

theorem curl_12 (x y : ℝ) : ∃ d, HasDerivAt (fun t : ℝ => (rh * getZ 10 x t : ℝ)) d y ∧
    HasDerivAt (fun t : ℝ => (-rh * getZ 9 t y : ℝ)) d x := by
  refine ⟨_, ((zy 10 (by norm_num) (by norm_num) x y).const_mul rh), ?_⟩
  have h := ((zx 9 (by norm_num) (by norm_num) x y).const_mul (-rh))
  refine h.congr_deriv ?_
  simp only [ev, dX, dY, Zp, List.map_cons, List.map_nil, List.sum_cons, List.sum_nil, rh_eq, nrm_9, nrm_10]
  try push_cast
  try ring_nf
  try simp only [Real.sq_sqrt (show (0:ℝ) ≤ 2 by norm_num)]
  try ring

theorem curl_13 (x y : ℝ) : ∃ d, HasDerivAt (fun t : ℝ => (rh * getZ 9 x t : ℝ)) d y ∧
    HasDerivAt (fun t : ℝ => (rh * getZ 10 t y : ℝ)) d x := by
  refine ⟨_, ((zy 9 (by norm_num) (by norm_num) x y).const_mul rh), ?_⟩
  have h := ((zx 10 (by norm_num) (by norm_num) x y).const_mul rh)
  refine h.congr_deriv ?_
  simp only [ev, dX, dY, Zp, List.map_cons, List.map_nil, List.sum_cons, List.sum_nil, rh_eq, nrm_9, nrm_10]
  try push_cast
  try ring_nf
  try simp only [Real.sq_sqrt (show (0:ℝ) ≤ 2 by norm_num)]
  try ring

theorem curl_14 (x y : ℝ) : ∃ d, HasDerivAt (fun t : ℝ => (rh * getZ 11 x t + 0.5 * getZ 12 x t : ℝ)) d y ∧
    HasDerivAt (fun t : ℝ => (0.5 * getZ 13 t y : ℝ)) d x := by
  refine ⟨_, (((zy 11 (by norm_num) (by norm_num) x y).const_mul rh).add ((zy 12 (by norm_num) (by norm_num) x y).const_mul (0.5:ℝ))), ?_⟩
  have h := ((zx 13 (by norm_num) (by norm_num) x y).const_mul (0.5:ℝ))
  refine h.congr_deriv ?_
  simp only [ev, dX, dY, Zp, List.map_cons, List.map_nil, List.sum_cons, List.sum_nil, rh_eq, nrm_11, nrm_12, nrm_13]
  try push_cast
  try ring_nf
  try simp only [Real.sq_sqrt (show (0:ℝ) ≤ 2 by norm_num)]
  try ring

theorem curl_15 (x y : ℝ) : ∃ d, HasDerivAt (fun t : ℝ => (0.5 * getZ 13 x t : ℝ)) d y ∧
    HasDerivAt (fun t : ℝ => (rh * getZ 11 t y - 0.5 * getZ 12 t y : ℝ)) d x := by
  refine ⟨_, ((zy 13 (by norm_num) (by norm_num) x y).const_mul (0.5:ℝ)), ?_⟩
  have h := (((zx 11 (by norm_num) (by norm_num) x y).const_mul rh).sub ((zx 12 (by norm_num) (by norm_num) x y).const_mul (0.5:ℝ)))
  refine h.congr_deriv ?_
  simp only [ev, dX, dY, Zp, List.map_cons, List.map_nil, List.sum_cons, List.sum_nil, rh_eq, nrm_11, nrm_12, nrm_13]
  try push_cast
  try ring_nf
  try simp only [Real.sq_sqrt (show (0:ℝ) ≤ 2 by norm_num)]
  try ring

theorem curl_16 (x y : ℝ) : ∃ d, HasDerivAt (fun t : ℝ => (0.5 * getZ 12 x t + 0.5 * getZ 14 x t : ℝ)) d y ∧
    HasDerivAt (fun t : ℝ => (0.5 * getZ 15 t y - 0.5 * getZ 13 t y : ℝ)) d x := by
  refine ⟨_, (((zy 12 (by norm_num) (by norm_num) x y).const_mul (0.5:ℝ)).add ((zy 14 (by norm_num) (by norm_num) x y).const_mul (0.5:ℝ))), ?_⟩
  have h := (((zx 15 (by norm_num) (by norm_num) x y).const_mul (0.5:ℝ)).sub ((zx 13 (by norm_num) (by norm_num) x y).const_mul (0.5:ℝ)))
  refine h.congr_deriv ?_
  simp only [ev, dX, dY, Zp, List.map_cons, List.map_nil, List.sum_cons, List.sum_nil, rh_eq, nrm_12, nrm_13, nrm_14, nrm_15]
  try push_cast
  try ring_nf
  try simp only [Real.sq_sqrt (show (0:ℝ) ≤ 2 by norm_num)]
  try ring

theorem curl_17 (x y : ℝ) : ∃ d, HasDerivAt (fun t : ℝ => (0.5 * getZ 13 x t + 0.5 * getZ 15 x t : ℝ)) d y ∧
    HasDerivAt (fun t : ℝ => (0.5 * getZ 12 t y - 0.5 * getZ 14 t y : ℝ)) d x := by
  refine ⟨_, (((zy 13 (by norm_num) (by norm_num) x y).const_mul (0.5:ℝ)).add ((zy 15 (by norm_num) (by norm_num) x y).const_mul (0.5:ℝ))), ?_⟩
  have h := (((zx 12 (by norm_num) (by norm_num) x y).const_mul (0.5:ℝ)).sub ((zx 14 (by norm_num) (by norm_num) x y).const_mul (0.5:ℝ)))
  refine h.congr_deriv ?_
  simp only [ev, dX, dY, Zp, List.map_cons, List.map_nil, List.sum_cons, List.sum_nil, rh_eq, nrm_12, nrm_13, nrm_14, nrm_15]
  try push_cast
  try ring_nf
  try simp only [Real.sq_sqrt (show (0:ℝ) ≤ 2 by norm_num)]
  try ring

theorem curl_18 (x y : ℝ) : ∃ d, HasDerivAt (fun t : ℝ => (rh * getZ 14 x t : ℝ)) d y ∧
    HasDerivAt (fun t : ℝ => (-rh * getZ 15 t y : ℝ)) d x := by
  refine ⟨_, ((zy 14 (by norm_num) (by norm_num) x y).const_mul rh), ?_⟩
  have h := ((zx 15 (by norm_num) (by norm_num) x y).const_mul (-rh))
  refine h.congr_deriv ?_
  simp only [ev, dX, dY, Zp, List.map_cons, List.map_nil, List.sum_cons, List.sum_nil, rh_eq, nrm_14, nrm_15]
  try push_cast
  try ring_nf
  try simp only [Real.sq_sqrt (show (0:ℝ) ≤ 2 by norm_num)]
  try ring

theorem curl_19 (x y : ℝ) : ∃ d, HasDerivAt (fun t : ℝ => (rh * getZ 15 x t : ℝ)) d y ∧
    HasDerivAt (fun t : ℝ => (rh * getZ 14 t y : ℝ)) d x := by
  refine ⟨_, ((zy 15 (by norm_num) (by norm_num) x y).const_mul rh), ?_⟩
  have h := ((zx 14 (by norm_num) (by norm_num) x y).const_mul rh)
  refine h.congr_deriv ?_
  simp only [ev, dX, dY, Zp, List.map_cons, List.map_nil, List.sum_cons, List.sum_nil, rh_eq, nrm_14, nrm_15]
  try push_cast
  try ring_nf
  try simp only [Real.sq_sqrt (show (0:ℝ) ≤ 2 by norm_num)]
  try ring

theorem curl_20 (x y : ℝ) : ∃ d, HasDerivAt (fun t : ℝ => (rh * getZ 16 x t : ℝ)) d y ∧
    HasDerivAt (fun t : ℝ => (rh * getZ 17 t y : ℝ)) d x := by
  refine ⟨_, ((zy 16 (by norm_num) (by norm_num) x y).const_mul rh), ?_⟩
  have h := ((zx 17 (by norm_num) (by norm_num) x y).const_mul rh)
  refine h.congr_deriv ?_
  simp only [ev, dX, dY, Zp, List.map_cons, List.map_nil, List.sum_cons, List.sum_nil, rh_eq, nrm_16, nrm_17]
  try push_cast
  try ring_nf
  try simp only [Real.sq_sqrt (show (0:ℝ) ≤ 2 by norm_num)]
  try ring

theorem curl_21 (x y : ℝ) : ∃ d, HasDerivAt (fun t : ℝ => (0.5 * getZ 17 x t + 0.5 * getZ 19 x t : ℝ)) d y ∧
    HasDerivAt (fun t : ℝ => (0.5 * getZ 16 t y - 0.5 * getZ 18 t y : ℝ)) d x := by
  refine ⟨_, (((zy 17 (by norm_num) (by norm_num) x y).const_mul (0.5:ℝ)).add ((zy 19 (by norm_num) (by norm_num) x y).const_mul (0.5:ℝ))), ?_⟩
  have h := (((zx 16 (by norm_num) (by norm_num) x y).const_mul (0.5:ℝ)).sub ((zx 18 (by norm_num) (by norm_num) x y).const_mul (0.5:ℝ)))
  refine h.congr_deriv ?_
  simp only [ev, dX, dY, Zp, List.map_cons, List.map_nil, List.sum_cons, List.sum_nil, rh_eq, nrm_16, nrm_17, nrm_18, nrm_19]
  try push_cast
  try ring_nf
  try simp only [Real.sq_sqrt (show (0:ℝ) ≤ 2 by norm_num)]
  try ring

theorem curl_22 (x y : ℝ) : ∃ d, HasDerivAt (fun t : ℝ => (0.5 * getZ 16 x t + 0.5 * getZ 18 x t : ℝ)) d y ∧
    HasDerivAt (fun t : ℝ => (-0.5 * getZ 17 t y + 0.5 * getZ 19 t y : ℝ)) d x := by
  refine ⟨_, (((zy 16 (by norm_num) (by norm_num) x y).const_mul (0.5:ℝ)).add ((zy 18 (by norm_num) (by norm_num) x y).const_mul (0.5:ℝ))), ?_⟩
  have h := (((zx 17 (by norm_num) (by norm_num) x y).const_mul (-0.5:ℝ)).add ((zx 19 (by norm_num) (by norm_num) x y).const_mul (0.5:ℝ)))
  refine h.congr_deriv ?_
  simp only [ev, dX, dY, Zp, List.map_cons, List.map_nil, List.sum_cons, List.sum_nil, rh_eq, nrm_16, nrm_17, nrm_18, nrm_19]
  try push_cast
  try ring_nf
  try simp only [Real.sq_sqrt (show (0:ℝ) ≤ 2 by norm_num)]
  try ring

theorem curl_23 (x y : ℝ) : ∃ d, HasDerivAt (fun t : ℝ => (0.5 * getZ 19 x t + 0.5 * getZ 21 x t : ℝ)) d y ∧
    HasDerivAt (fun t : ℝ => (0.5 * getZ 18 t y - 0.5 * getZ 20 t y : ℝ)) d x := by
  refine ⟨_, (((zy 19 (by norm_num) (by norm_num) x y).const_mul (0.5:ℝ)).add ((zy 21 (by norm_num) (by norm_num) x y).const_mul (0.5:ℝ))), ?_⟩
  have h := (((zx 18 (by norm_num) (by norm_num) x y).const_mul (0.5:ℝ)).sub ((zx 20 (by norm_num) (by norm_num) x y).const_mul (0.5:ℝ)))
  refine h.congr_deriv ?_
  simp only [ev, dX, dY, Zp, List.map_cons, List.map_nil, List.sum_cons, List.sum_nil, rh_eq, nrm_18, nrm_19, nrm_20, nrm_21]
  try push_cast
  try ring_nf
  try simp only [Real.sq_sqrt (show (0:ℝ) ≤ 2 by norm_num)]
  try ring

theorem curl_24 (x y : ℝ) : ∃ d, HasDerivAt (fun t : ℝ => (0.5 * getZ 18 x t + 0.5 * getZ 20 x t : ℝ)) d y ∧
    HasDerivAt (fun t : ℝ => (-0.5 * getZ 19 t y + 0.5 * getZ 21 t y : ℝ)) d x := by
  refine ⟨_, (((zy 18 (by norm_num) (by norm_num) x y).const_mul (0.5:ℝ)).add ((zy 20 (by norm_num) (by norm_num) x y).const_mul (0.5:ℝ))), ?_⟩
  have h := (((zx 19 (by norm_num) (by norm_num) x y).const_mul (-0.5:ℝ)).add ((zx 21 (by norm_num) (by norm_num) x y).const_mul (0.5:ℝ)))
  refine h.congr_deriv ?_
  simp only [ev, dX, dY, Zp, List.map_cons, List.map_nil, List.sum_cons, List.sum_nil, rh_eq, nrm_18, nrm_19, nrm_20, nrm_21]
  try push_cast
  try ring_nf
  try simp only [Real.sq_sqrt (show (0:ℝ) ≤ 2 by norm_num)]
  try ring

theorem curl_25 (x y : ℝ) : ∃ d, HasDerivAt (fun t : ℝ => (rh * getZ 21 x t : ℝ)) d y ∧
    HasDerivAt (fun t : ℝ => (rh * getZ 20 t y : ℝ)) d x := by
  refine ⟨_, ((zy 21 (by norm_num) (by norm_num) x y).const_mul rh), ?_⟩
  have h := ((zx 20 (by norm_num) (by norm_num) x y).const_mul rh)
  refine h.congr_deriv ?_
  simp only [ev, dX, dY, Zp, List.map_cons, List.map_nil, List.sum_cons, List.sum_nil, rh_eq, nrm_20, nrm_21]
  try push_cast
  try ring_nf
  try simp only [Real.sq_sqrt (show (0:ℝ) ≤ 2 by norm_num)]
  try ring

theorem curl_26 (x y : ℝ) : ∃ d, HasDerivAt (fun t : ℝ => (rh * getZ 20 x t : ℝ)) d y ∧
    HasDerivAt (fun t : ℝ => (-rh * getZ 21 t y : ℝ)) d x := by
  refine ⟨_, ((zy 20 (by norm_num) (by norm_num) x y).const_mul rh), ?_⟩
  have h := ((zx 21 (by norm_num) (by norm_num) x y).const_mul (-rh))
  refine h.congr_deriv ?_
  simp only [ev, dX, dY, Zp, List.map_cons, List.map_nil, List.sum_cons, List.sum_nil, rh_eq, nrm_20, nrm_21]
  try push_cast
  try ring_nf
  try simp only [Real.sq_sqrt (show (0:ℝ) ≤ 2 by norm_num)]
  try ring

theorem div_27 (x y : ℝ) : ∃ d, HasDerivAt (fun t : ℝ => (rh * getZ 3 t y : ℝ)) d x ∧
    HasDerivAt (fun t : ℝ => (-rh * getZ 2 x t : ℝ)) (-d) y := by
  refine ⟨_, ((zx 3 (by norm_num) (by norm_num) x y).const_mul rh), ?_⟩
  have h := ((zy 2 (by norm_num) (by norm_num) x y).const_mul (-rh))
  refine h.congr_deriv ?_
  simp only [ev, dX, dY, Zp, List.map_cons, List.map_nil, List.sum_cons, List.sum_nil, rh_eq, nrm_2, nrm_3]
  try push_cast
  try ring_nf
  try simp only [Real.sq_sqrt (show (0:ℝ) ≤ 2 by norm_num)]
  try ring

theorem div_28 (x y : ℝ) : ∃ d, HasDerivAt (fun t : ℝ => (rh * getZ 4 t y - 0.5 * getZ 6 t y : ℝ)) d x ∧
    HasDerivAt (fun t : ℝ => (-0.5 * getZ 5 x t : ℝ)) (-d) y := by
  refine ⟨_, (((zx 4 (by norm_num) (by norm_num) x y).const_mul rh).sub ((zx 6 (by norm_num) (by norm_num) x y).const_mul (0.5:ℝ))), ?_⟩
  have h := ((zy 5 (by norm_num) (by norm_num) x y).const_mul (-0.5:ℝ))
  refine h.congr_deriv ?_
  simp only [ev, dX, dY, Zp, List.map_cons, List.map_nil, List.sum_cons, List.sum_nil, rh_eq, nrm_4, nrm_5, nrm_6]
  try push_cast
  try ring_nf
  try simp only [Real.sq_sqrt (show (0:ℝ) ≤ 2 by norm_num)]
  try ring

theorem div_29 (x y : ℝ) : ∃ d, HasDerivAt (fun t : ℝ => (0.5 * getZ 5 t y : ℝ)) d x ∧
    HasDerivAt (fun t : ℝ => (-rh * getZ 4 x t - 0.5 * getZ 6 x t : ℝ)) (-d) y := by
  refine ⟨_, ((zx 5 (by norm_num) (by norm_num) x y).const_mul (0.5:ℝ)), ?_⟩
  have h := (((zy 4 (by norm_num) (by norm_num) x y).const_mul (-rh)).sub ((zy 6 (by norm_num) (by norm_num) x y).const_mul (0.5:ℝ)))
  refine h.congr_deriv ?_
  simp only [ev, dX, dY, Zp, List.map_cons, List.map_nil, List.sum_cons, List.sum_nil, rh_eq, nrm_4, nrm_5, nrm_6]
  try push_cast
  try ring_nf
  try simp only [Real.sq_sqrt (show (0:ℝ) ≤ 2 by norm_num)]
  try ring

theorem div_30 (x y : ℝ) : ∃ d, HasDerivAt (fun t : ℝ => (rh * getZ 7 t y : ℝ)) d x ∧
    HasDerivAt (fun t : ℝ => (-rh * getZ 8 x t : ℝ)) (-d) y := by
  refine ⟨_, ((zx 7 (by norm_num) (by norm_num) x y).const_mul rh), ?_⟩
  have h := ((zy 8 (by norm_num) (by norm_num) x y).const_mul (-rh))
  refine h.congr_deriv ?_
  simp only [ev, dX, dY, Zp, List.map_cons, List.map_nil, List.sum_cons, List.sum_nil, rh_eq, nrm_7, nrm_8]
  try push_cast
  try ring_nf
  try simp only [Real.sq_sqrt (show (0:ℝ) ≤ 2 by norm_num)]
  try ring

theorem div_31 (x y : ℝ) : ∃ d, HasDerivAt (fun t : ℝ => (-0.5 * getZ 7 t y + 0.5 * getZ 9 t y : ℝ)) d x ∧
    HasDerivAt (fun t : ℝ => (-0.5 * getZ 8 x t - 0.5 * getZ 10 x t : ℝ)) (-d) y := by
  refine ⟨_, (((zx 7 (by norm_num) (by norm_num) x y).const_mul (-0.5:ℝ)).add ((zx 9 (by norm_num) (by norm_num) x y).const_mul (0.5:ℝ))), ?_⟩
  have h := (((zy 8 (by norm_num) (by norm_num) x y).const_mul (-0.5:ℝ)).sub ((zy 10 (by norm_num) (by norm_num) x y).const_mul (0.5:ℝ)))
  refine h.congr_deriv ?_
  simp only [ev, dX, dY, Zp, List.map_cons, List.map_nil, List.sum_cons, List.sum_nil, rh_eq, nrm_7, nrm_8, nrm_9, nrm_10]
  try push_cast
  try ring_nf
  try simp only [Real.sq_sqrt (show (0:ℝ) ≤ 2 by norm_num)]
  try ring

theorem div_32 (x y : ℝ) : ∃ d, HasDerivAt (fun t : ℝ => (0.5 * getZ 8 t y - 0.5 * getZ 10 t y : ℝ)) d x ∧
    HasDerivAt (fun t : ℝ => (-0.5 * getZ 7 x t - 0.5 * getZ 9 x t : ℝ)) (-d) y := by
  refine ⟨_, (((zx 8 (by norm_num) (by norm_num) x y).const_mul (0.5:ℝ)).sub ((zx 10 (by norm_num) (by norm_num) x y).const_mul (0.5:ℝ))), ?_⟩
  have h := (((zy 7 (by norm_num) (by norm_num) x y).const_mul (-0.5:ℝ)).sub ((zy 9 (by norm_num) (by norm_num) x y).const_mul (0.5:ℝ)))
  refine h.congr_deriv ?_
  simp only [ev, dX, dY, Zp, List.map_cons, List.map_nil, List.sum_cons, List.sum_nil, rh_eq, nrm_7, nrm_8, nrm_9, nrm_10]
  try push_cast
  try ring_nf
  try simp only [Real.sq_sqrt (show (0:ℝ) ≤ 2 by norm_num)]
  try ring

/-- S-type fields. -/
theorem termS (i : Nat) (h : i ≤ 26) : ∃ P Q : ℝ → ℝ → ℝ,
    (∀ x y, getZhaoBurgeTerm i x y = .ok (P x y, Q x y, .S)) ∧
    ∀ x y, ∃ d, HasDerivAt (fun t => P x t) d y ∧ HasDerivAt (fun t => Q t y) d x := by
  interval_cases i
  · exact ⟨_, _, fun _ _ => rfl, curl_0⟩
  · exact ⟨_, _, fun _ _ => rfl, curl_1⟩
  · exact ⟨_, _, fun _ _ => rfl, curl_2⟩
  · exact ⟨_, _, fun _ _ => rfl, curl_3⟩
  · exact ⟨_, _, fun _ _ => rfl, curl_4⟩
  · exact ⟨_, _, fun _ _ => rfl, curl_5⟩
  · exact ⟨_, _, fun _ _ => rfl, curl_6⟩
  · exact ⟨_, _, fun _ _ => rfl, curl_7⟩
  · exact ⟨_, _, fun _ _ => rfl, curl_8⟩
  · exact ⟨_, _, fun _ _ => rfl, curl_9⟩
  · exact ⟨_, _, fun _ _ => rfl, curl_10⟩
  · exact ⟨_, _, fun _ _ => rfl, curl_11⟩
  · exact ⟨_, _, fun _ _ => rfl, curl_12⟩
  · exact ⟨_, _, fun _ _ => rfl, curl_13⟩
  · exact ⟨_, _, fun _ _ => rfl, curl_14⟩
  · exact ⟨_, _, fun _ _ => rfl, curl_15⟩
  · exact ⟨_, _, fun _ _ => rfl, curl_16⟩
  · exact ⟨_, _, fun _ _ => rfl, curl_17⟩
  · exact ⟨_, _, fun _ _ => rfl, curl_18⟩
  · exact ⟨_, _, fun _ _ => rfl, curl_19⟩
  · exact ⟨_, _, fun _ _ => rfl, curl_20⟩
  · exact ⟨_, _, fun _ _ => rfl, curl_21⟩
  · exact ⟨_, _, fun _ _ => rfl, curl_22⟩
  · exact ⟨_, _, fun _ _ => rfl, curl_23⟩
  · exact ⟨_, _, fun _ _ => rfl, curl_24⟩
  · exact ⟨_, _, fun _ _ => rfl, curl_25⟩
  · exact ⟨_, _, fun _ _ => rfl, curl_26⟩

/-- T-type fields. -/
theorem termT (i : Nat) (h : 27 ≤ i) (h' : i ≤ 32) : ∃ P Q : ℝ → ℝ → ℝ,
    (∀ x y, getZhaoBurgeTerm i x y = .ok (P x y, Q x y, .T)) ∧
    ∀ x y, ∃ d, HasDerivAt (fun t => P t y) d x ∧ HasDerivAt (fun t => Q x t) (-d) y := by
  interval_cases i
  · exact ⟨_, _, fun _ _ => rfl, div_27⟩
  · exact ⟨_, _, fun _ _ => rfl, div_28⟩
  · exact ⟨_, _, fun _ _ => rfl, div_29⟩
  · exact ⟨_, _, fun _ _ => rfl, div_30⟩
  · exact ⟨_, _, fun _ _ => rfl, div_31⟩
  · exact ⟨_, _, fun _ _ => rfl, div_32⟩

end Verif.Lemmas.ZhaoBurge
