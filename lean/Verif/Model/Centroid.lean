import Verif.Py.Real
import Mathlib.Analysis.SpecialFunctions.Gaussian.GaussianIntegral
import Mathlib.LinearAlgebra.Matrix.NonsingularInverse

/-!
# Model of `py/desimeter/detectspots.py` lines 11-120: convolution, PSF and centroids

`scipy.special.erf` is its definition as an integral, `np.linalg.inv` the inverse of the matrix, `LinAlgError` for a singular
one; `fftconvolve(..., "same")` is the convolution with zeros outside of the image. Stamps of integers behave like real ones.
The barycenter is for square stamps of odd size (it is not used by `detectspots`).
-/

namespace Verif.Model.Centroid
open Verif.Py

/-- `scipy.special.erf`. -/
noncomputable def erf (x : ℝ) : ℝ := 2 / Real.sqrt Real.pi * ∫ t in (0 : ℝ)..x, Real.exp (-t ^ 2)

/-- `a` (lines 54, 58, 62). -/
noncomputable def width (sigma : ℝ) : ℝ := 1 / (Real.sqrt 2 * sigma)

/-- One factor of the PSF: the difference of the error function over pixel `i` for a centre `c`. -/
noncomputable def span (a i c : ℝ) : ℝ := erf (a * (i + 0.5 - c)) - erf (a * (i - 0.5 - c))

/-- The difference of the Gaussian over pixel `i`. -/
noncomputable def jump (a i c : ℝ) : ℝ := Real.exp (-(a * (i + 0.5 - c)) ^ 2) - Real.exp (-(a * (i - 0.5 - c)) ^ 2)

/-- `psf` (lines 53-55). -/
noncomputable def psf (i0 i1 xc yc sigma : ℝ) : ℝ :=
  0.25 * span (width sigma) i1 xc * span (width sigma) i0 yc

/-- `dpsfdxc` (lines 57-59). -/
noncomputable def dpsfdxc (i0 i1 xc yc sigma : ℝ) : ℝ :=
  -width sigma * 0.25 * 2 / Real.sqrt Real.pi * jump (width sigma) i1 xc * span (width sigma) i0 yc

/-- `dpsfdyc` (lines 61-63). -/
noncomputable def dpsfdyc (i0 i1 xc yc sigma : ℝ) : ℝ :=
  -width sigma * 0.25 * 2 / Real.sqrt Real.pi * span (width sigma) i1 xc * jump (width sigma) i0 yc

/-- `flux`, `xc`, `yc`. -/
structure St where
  flux : ℝ
  xc : ℝ
  yc : ℝ

/-- A stamp with `n0` rows and `n1` columns. -/
abbrev Stamp (n0 n1 : ℕ) := Fin n0 → Fin n1 → ℝ

/-- Indices of a stamp read as one list. -/
abbrev Pix (n0 n1 : ℕ) := Fin n0 × Fin n1

variable {n0 n1 : ℕ}

/-- `H` (lines 86-89). -/
noncomputable def rows (sigma : ℝ) (s : St) : Matrix (Fin 3) (Pix n0 n1) ℝ :=
  Matrix.of ![fun p => psf (p.1 : ℕ) (p.2 : ℕ) s.xc s.yc sigma, fun p => s.flux * dpsfdxc (p.1 : ℕ) (p.2 : ℕ) s.xc s.yc sigma,
    fun p => s.flux * dpsfdyc (p.1 : ℕ) (p.2 : ℕ) s.xc s.yc sigma]

/-- `stamp-flux*mod` (line 90). -/
noncomputable def resid (sigma : ℝ) (stamp : Stamp n0 n1) (s : St) (p : Pix n0 n1) : ℝ :=
  stamp p.1 p.2 - s.flux * psf (p.1 : ℕ) (p.2 : ℕ) s.xc s.yc sigma

/-- Lines 94-96. -/
noncomputable def limit (d : Fin 3 → ℝ) : Fin 3 → ℝ :=
  let val := max |d 1| |d 2|
  if val > 0.2 then (0.2 / val) • d else d

/-- Lines 86-96: `delta` and `Ai`. -/
noncomputable def step (sigma : ℝ) (stamp : Stamp n0 n1) (s : St) : Except PyErr ((Fin 3 → ℝ) × Matrix (Fin 3) (Fin 3) ℝ) :=
  let H : Matrix (Fin 3) (Pix n0 n1) ℝ := rows sigma s
  let B := H.mulVec (resid sigma stamp s)
  let A := H * H.transpose
  if A.det = 0 then .error .linAlgError
  else .ok (limit (A⁻¹.mulVec B), A⁻¹)

/-- Lines 98-100. -/
def move (s : St) (d : Fin 3 → ℝ) : St := ⟨s.flux + d 0, s.xc + d 1, s.yc + d 2⟩

/-- Lines 85-102 with `n + 1` passes left. -/
noncomputable def loop (sigma : ℝ) (stamp : Stamp n0 n1) : ℕ → St → Except PyErr (St × Matrix (Fin 3) (Fin 3) ℝ)
  | n, s =>
    match step sigma stamp s with
    | .error e => .error e
    | .ok (d, Ai) =>
      match n with
      | 0 => .ok (move s d, Ai)
      | n + 1 => if |d 1| < 0.001 ∧ |d 2| < 0.001 then .ok (move s d, Ai) else loop sigma stamp n (move s d)

/-- What the fits return. -/
structure Res where
  x : ℝ
  y : ℝ
  xe : ℝ
  ye : ℝ
  flux : ℝ

/-- Lines 71-75. -/
noncomputable def start (stamp : Stamp n0 n1) : St := ⟨∑ i, ∑ j, stamp i j, (n1 / 2 : ℕ), (n0 / 2 : ℕ)⟩

/-- `fitcentroid_gaussian` (lines 65-111). -/
noncomputable def fitGaussian (stamp : Stamp n0 n1) (sigma noise : ℝ) : Except PyErr Res :=
  match loop sigma stamp 4 (start stamp) with
  | .error e => .error e
  | .ok (s, Ai) => .ok ⟨s.xc - (n1 / 2 : ℕ), s.yc - (n0 / 2 : ℕ), noise * Real.sqrt (Ai 1 1), noise * Real.sqrt (Ai 2 2), s.flux⟩

/-- `fitcentroid` (lines 115-121). -/
noncomputable def fitcentroid (stamp : Stamp n0 n1) (noise : ℝ) : Except PyErr Res := fitGaussian stamp 1 noise

/-- `fitcentroid_barycenter` (lines 28-50) for a stamp of size `2 hw + 1`. -/
noncomputable def barycenter {hw : ℕ} (stamp : Stamp (2 * hw + 1) (2 * hw + 1)) : Except PyErr Res :=
  let norm := ∑ i, ∑ j, stamp i j
  if norm ≤ 0 then .error .runtimeError
  else .ok ⟨(∑ j : Fin (2 * hw + 1), (((j : ℕ) : ℝ) - hw) * ∑ i, stamp i j) / norm, (∑ i : Fin (2 * hw + 1), (((i : ℕ) : ℝ) - hw) * ∑ j, stamp i j) / norm, 1, 1, norm⟩

/-- `int(3*sigma)` (line 22) for positive `sigma`. -/
noncomputable def halfWidth (sigma : ℝ) : ℤ := ⌊3 * sigma⌋

/-- The kernel before normalisation (line 24). -/
noncomputable def gauss (sigma : ℝ) (d0 d1 : ℤ) : ℝ := Real.exp (-((d1 : ℝ) ^ 2 + (d0 : ℝ) ^ 2) / 2 / sigma ^ 2)

/-- Indices of the kernel. -/
noncomputable def window (sigma : ℝ) : Finset ℤ := Finset.Icc (-halfWidth sigma) (halfWidth sigma)

/-- Line 25. -/
noncomputable def kernel (sigma : ℝ) (d0 d1 : ℤ) : ℝ :=
  gauss sigma d0 d1 / ∑ e0 ∈ window sigma, ∑ e1 ∈ window sigma, gauss sigma e0 e1

/-- A pixel of the image continued with zeros. -/
def pad (image : Stamp n0 n1) (i j : ℤ) : ℝ :=
  if h : (0 ≤ i ∧ i < n0) ∧ 0 ≤ j ∧ j < n1 then image ⟨i.toNat, by omega⟩ ⟨j.toNat, by omega⟩ else 0

/-- `gaussian_convolve` (lines 11-26). -/
noncomputable def convolve (image : Stamp n0 n1) (sigma : ℝ) : Stamp n0 n1 := fun i j =>
  ∑ d0 ∈ window sigma, ∑ d1 ∈ window sigma, kernel sigma d0 d1 * pad image ((i : ℤ) - d0) ((j : ℤ) - d1)

end Verif.Model.Centroid
