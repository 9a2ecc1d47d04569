import Verif.Model.RayTrace
import Mathlib.LinearAlgebra.UnitaryGroup
import Mathlib.LinearAlgebra.Matrix.Determinant.Basic
import Mathlib.LinearAlgebra.Matrix.Notation
import Mathlib.Analysis.SpecialFunctions.Trigonometric.Inverse
import Mathlib.Tactic.LinearCombination
import Mathlib.Tactic.Linarith
import Mathlib.Tactic.FieldSimp
import Mathlib.Tactic.NormNum
import Mathlib.Tactic.Positivity

/-!
# C91: frames of the optical surfaces

Euler matrices are rotations, and going to the frame of a surface and back changes nothing.
-/

namespace Verif.Props.RayFrames

open Verif.Py Verif.RayTrace

/-! ## Specification -/

/-- Square of the length. -/
def nsq (a : V3) : ℝ := a.x ^ 2 + a.y ^ 2 + a.z ^ 2

/-- Difference of two points. -/
def sub (a b : V3) : V3 := ⟨a.x - b.x, a.y - b.y, a.z - b.z⟩

/-- The nine elements as a matrix. -/
def mat (E : M3) : Matrix (Fin 3) (Fin 3) ℝ :=
  !![E.e11, E.e12, E.e13; E.e21, E.e22, E.e23; E.e31, E.e32, E.e33]

/-- Right-handed rotation about the x axis. -/
noncomputable def rotX (t : ℝ) : Matrix (Fin 3) (Fin 3) ℝ :=
  !![1, 0, 0; 0, Real.cos t, -Real.sin t; 0, Real.sin t, Real.cos t]
/-- Right-handed rotation about the y axis. -/
noncomputable def rotY (t : ℝ) : Matrix (Fin 3) (Fin 3) ℝ :=
  !![Real.cos t, 0, Real.sin t; 0, 1, 0; -Real.sin t, 0, Real.cos t]
/-- Right-handed rotation about the z axis. -/
noncomputable def rotZ (t : ℝ) : Matrix (Fin 3) (Fin 3) ℝ :=
  !![Real.cos t, -Real.sin t, 0; Real.sin t, Real.cos t, 0; 0, 0, 1]

/-- The elements form a matrix with orthonormal columns and rows and determinant 1. -/
structure Rotation (E : M3) : Prop where
  c11 : E.e11 ^ 2 + E.e21 ^ 2 + E.e31 ^ 2 = 1
  c22 : E.e12 ^ 2 + E.e22 ^ 2 + E.e32 ^ 2 = 1
  c33 : E.e13 ^ 2 + E.e23 ^ 2 + E.e33 ^ 2 = 1
  c12 : E.e11 * E.e12 + E.e21 * E.e22 + E.e31 * E.e32 = 0
  c13 : E.e11 * E.e13 + E.e21 * E.e23 + E.e31 * E.e33 = 0
  c23 : E.e12 * E.e13 + E.e22 * E.e23 + E.e32 * E.e33 = 0
  r11 : E.e11 ^ 2 + E.e12 ^ 2 + E.e13 ^ 2 = 1
  r22 : E.e21 ^ 2 + E.e22 ^ 2 + E.e23 ^ 2 = 1
  r33 : E.e31 ^ 2 + E.e32 ^ 2 + E.e33 ^ 2 = 1
  r12 : E.e11 * E.e21 + E.e12 * E.e22 + E.e13 * E.e23 = 0
  r13 : E.e11 * E.e31 + E.e12 * E.e32 + E.e13 * E.e33 = 0
  r23 : E.e21 * E.e31 + E.e22 * E.e32 + E.e23 * E.e33 = 0

/-! ## Euler matrices -/

/-- **C91** (angles). The matrix of a surface is: roll about z first, then pitch about y, then
tilt about x, each right-handed and in degrees. -/
theorem C91_angles (tilt pitch roll : ℝ) :
    mat (euler tilt pitch roll) =
      rotX (radians tilt) * rotY (radians pitch) * rotZ (radians roll) := by
  unfold mat euler rotX rotY rotZ
  ext i j
  fin_cases i <;> fin_cases j <;>
    simp [Matrix.mul_apply, Fin.sum_univ_three] <;> ring

theorem rotX_mem (t : ℝ) : rotX t ∈ Matrix.specialOrthogonalGroup (Fin 3) ℝ := by
  have h := Real.sin_sq_add_cos_sq t
  rw [Matrix.mem_specialOrthogonalGroup_iff]
  constructor
  · rw [Matrix.mem_orthogonalGroup_iff]
    unfold rotX
    ext i j
    fin_cases i <;> fin_cases j <;>
      simp [Matrix.mul_apply, Fin.sum_univ_three] <;>
      first | ring1 | linear_combination h
  · unfold rotX
    rw [Matrix.det_fin_three]
    simp
    linear_combination h

theorem rotY_mem (t : ℝ) : rotY t ∈ Matrix.specialOrthogonalGroup (Fin 3) ℝ := by
  have h := Real.sin_sq_add_cos_sq t
  rw [Matrix.mem_specialOrthogonalGroup_iff]
  constructor
  · rw [Matrix.mem_orthogonalGroup_iff]
    unfold rotY
    ext i j
    fin_cases i <;> fin_cases j <;>
      simp [Matrix.mul_apply, Fin.sum_univ_three] <;>
      first | ring1 | linear_combination h
  · unfold rotY
    rw [Matrix.det_fin_three]
    simp
    linear_combination h

theorem rotZ_mem (t : ℝ) : rotZ t ∈ Matrix.specialOrthogonalGroup (Fin 3) ℝ := by
  have h := Real.sin_sq_add_cos_sq t
  rw [Matrix.mem_specialOrthogonalGroup_iff]
  constructor
  · rw [Matrix.mem_orthogonalGroup_iff]
    unfold rotZ
    ext i j
    fin_cases i <;> fin_cases j <;>
      simp [Matrix.mul_apply, Fin.sum_univ_three] <;>
      first | ring1 | linear_combination h
  · unfold rotZ
    rw [Matrix.det_fin_three]
    simp
    linear_combination h

/-- **C91** (rotation). The matrix of a surface is a rotation, whatever its angles. -/
theorem C91_rotation (tilt pitch roll : ℝ) :
    mat (euler tilt pitch roll) ∈ Matrix.specialOrthogonalGroup (Fin 3) ℝ := by
  rw [C91_angles]
  exact mul_mem (mul_mem (rotX_mem _) (rotY_mem _)) (rotZ_mem _)

theorem rotation_of_mem (E : M3) (h : mat E ∈ Matrix.orthogonalGroup (Fin 3) ℝ) : Rotation E := by
  have h1 := (Matrix.mem_orthogonalGroup_iff (Fin 3) ℝ).1 h
  have h2 := (Matrix.mem_orthogonalGroup_iff' (Fin 3) ℝ).1 h
  have e1 : ∀ i j, (mat E * (mat E).transpose) i j = (1 : Matrix (Fin 3) (Fin 3) ℝ) i j := fun i j => by
    rw [h1]
  have e2 : ∀ i j, ((mat E).transpose * mat E) i j = (1 : Matrix (Fin 3) (Fin 3) ℝ) i j := fun i j => by
    rw [h2]
  have a11 := e1 0 0
  have a22 := e1 1 1
  have a33 := e1 2 2
  have a12 := e1 0 1
  have a13 := e1 0 2
  have a23 := e1 1 2
  have b11 := e2 0 0
  have b22 := e2 1 1
  have b33 := e2 2 2
  have b12 := e2 0 1
  have b13 := e2 0 2
  have b23 := e2 1 2
  simp [mat, Matrix.mul_apply, Fin.sum_univ_three] at a11 a22 a33 a12 a13 a23 b11 b22 b33 b12 b13 b23
  constructor <;> linarith

theorem mem_of_rotation (E : M3) (h : Rotation E) : mat E ∈ Matrix.orthogonalGroup (Fin 3) ℝ := by
  rw [Matrix.mem_orthogonalGroup_iff]
  ext i j
  fin_cases i <;> fin_cases j <;>
    simp [mat, Matrix.mul_apply, Fin.sum_univ_three] <;>
    first
      | linear_combination h.r11
      | linear_combination h.r22
      | linear_combination h.r33
      | linear_combination h.r12
      | linear_combination h.r13
      | linear_combination h.r23

theorem rotE (S : Surf) : Rotation S.E :=
  rotation_of_mem _ (Matrix.mem_specialOrthogonalGroup_iff.1 (C91_rotation _ _ _)).1

theorem tmul_mul (E : M3) (h : Rotation E) (a : V3) : E.tmul (E.mul a) = a := by
  unfold M3.tmul M3.mul
  ext <;> dsimp only
  · linear_combination a.x * h.c11 + a.y * h.c12 + a.z * h.c13
  · linear_combination a.x * h.c12 + a.y * h.c22 + a.z * h.c23
  · linear_combination a.x * h.c13 + a.y * h.c23 + a.z * h.c33

theorem mul_tmul (E : M3) (h : Rotation E) (a : V3) : E.mul (E.tmul a) = a := by
  unfold M3.tmul M3.mul
  ext <;> dsimp only
  · linear_combination a.x * h.r11 + a.y * h.r12 + a.z * h.r13
  · linear_combination a.x * h.r12 + a.y * h.r22 + a.z * h.r23
  · linear_combination a.x * h.r13 + a.y * h.r23 + a.z * h.r33

theorem dot_mul (E : M3) (h : Rotation E) (a b : V3) : dot (E.mul a) (E.mul b) = dot a b := by
  unfold dot M3.mul
  dsimp only
  linear_combination a.x * b.x * h.c11 + a.y * b.y * h.c22 + a.z * b.z * h.c33 +
    (a.x * b.y + a.y * b.x) * h.c12 + (a.x * b.z + a.z * b.x) * h.c13 +
    (a.y * b.z + a.z * b.y) * h.c23

theorem dot_tmul (E : M3) (h : Rotation E) (a b : V3) : dot (E.tmul a) (E.tmul b) = dot a b := by
  have := dot_mul E h (E.tmul a) (E.tmul b)
  rw [mul_tmul E h, mul_tmul E h] at this
  exact this.symm

theorem dot_self (a : V3) : dot a a = nsq a := by unfold dot nsq; ring

/-- **C91** (round trip). Going to the frame of a surface and back to the lab changes
nothing. -/
theorem C91_round_trip (S : Surf) (r : Ray) : vxtolab S (labtovx S r) = r := by
  unfold vxtolab labtovx
  dsimp only
  rw [mul_tmul _ (rotE S), mul_tmul _ (rotE S)]
  ext <;> dsimp only <;> ring

/-- **C91** (round trip). Nor does going to the lab and back. -/
theorem C91_round_trip' (S : Surf) (r : Ray) : labtovx S (vxtolab S r) = r := by
  unfold vxtolab labtovx
  dsimp only
  rw [tmul_mul _ (rotE S)]
  have : (⟨(S.E.mul r.pos).x + S.vertex.x - S.vertex.x, (S.E.mul r.pos).y + S.vertex.y - S.vertex.y,
      (S.E.mul r.pos).z + S.vertex.z - S.vertex.z⟩ : V3) = S.E.mul r.pos := by
    ext <;> dsimp only <;> ring
  rw [this, tmul_mul _ (rotE S)]

/-- **C91** (rigid). Lengths and angles of directions and distances of points are the same in
the lab and in the frame of a surface. -/
theorem C91_rigid (S : Surf) (r q : Ray) :
    dot (labtovx S r).dir (labtovx S q).dir = dot r.dir q.dir ∧
      nsq (labtovx S r).dir = nsq r.dir ∧
      nsq (sub (labtovx S r).pos (labtovx S q).pos) = nsq (sub r.pos q.pos) := by
  refine ⟨dot_tmul _ (rotE S) _ _, ?_, ?_⟩
  · rw [← dot_self, ← dot_self]; exact dot_tmul _ (rotE S) _ _
  · have : sub (labtovx S r).pos (labtovx S q).pos = S.E.tmul (sub r.pos q.pos) := by
      unfold labtovx sub M3.tmul
      ext <;> dsimp only <;> ring
    rw [this, ← dot_self, ← dot_self]; exact dot_tmul _ (rotE S) _ _

theorem cofactors (E : M3) (h : mat E ∈ Matrix.specialOrthogonalGroup (Fin 3) ℝ) :
    (mat E).adjugate = (mat E).transpose := by
  obtain ⟨h1, h2⟩ := Matrix.mem_specialOrthogonalGroup_iff.1 h
  have h3 := (Matrix.mem_orthogonalGroup_iff' (Fin 3) ℝ).1 h1
  have h4 := Matrix.mul_adjugate (mat E)
  rw [h2, one_smul] at h4
  calc (mat E).adjugate = ((mat E).transpose * mat E) * (mat E).adjugate := by rw [h3, one_mul]
    _ = (mat E).transpose := by rw [mul_assoc, h4, mul_one]

theorem cross_mul (E : M3) (h : mat E ∈ Matrix.specialOrthogonalGroup (Fin 3) ℝ) (a b : V3) :
    cross (E.mul a) (E.mul b) = E.mul (cross a b) := by
  have hc := cofactors E h
  rw [Matrix.adjugate_fin_three] at hc
  have e : ∀ i j, _ = (mat E).transpose i j := fun i j => congrFun (congrFun hc i) j
  have a11 := e 0 0
  have a12 := e 0 1
  have a13 := e 0 2
  have a21 := e 1 0
  have a22 := e 1 1
  have a23 := e 1 2
  have a31 := e 2 0
  have a32 := e 2 1
  have a33 := e 2 2
  simp [mat] at a11 a12 a13 a21 a22 a23 a31 a32 a33
  unfold cross M3.mul
  ext <;> dsimp only
  · linear_combination (a.y * b.z - a.z * b.y) * a11 + (a.z * b.x - a.x * b.z) * a21 +
      (a.x * b.y - a.y * b.x) * a31
  · linear_combination (a.y * b.z - a.z * b.y) * a12 + (a.z * b.x - a.x * b.z) * a22 +
      (a.x * b.y - a.y * b.x) * a32
  · linear_combination (a.y * b.z - a.z * b.y) * a13 + (a.z * b.x - a.x * b.z) * a23 +
      (a.x * b.y - a.y * b.x) * a33

/-- **C91** (handedness). The change of frame does not mirror: it keeps cross products. -/
theorem C91_handed (S : Surf) (r q : Ray) :
    cross (vxtolab S r).dir (vxtolab S q).dir = S.E.mul (cross r.dir q.dir) :=
  cross_mul _ (C91_rotation _ _ _) _ _

/-- **C91** (straight lines). The point at distance `d` along a ray is the same point in both
frames. -/
theorem C91_line (S : Surf) (r : Ray) (d : ℝ) :
    along (vxtolab S r) d = (vxtolab S ⟨along r d, r.dir⟩).pos := by
  unfold along vxtolab M3.mul
  ext <;> dsimp only <;> ring

/-! ## Every rotation has angles -/

/-- A matrix as nine elements. -/
def ofMat (M : Matrix (Fin 3) (Fin 3) ℝ) : M3 :=
  ⟨M 0 0, M 0 1, M 0 2, M 1 0, M 1 1, M 1 2, M 2 0, M 2 1, M 2 2⟩

theorem mat_ofMat (M : Matrix (Fin 3) (Fin 3) ℝ) : mat (ofMat M) = M := by
  unfold mat ofMat
  ext i j
  fin_cases i <;> fin_cases j <;> rfl

theorem exists_angle (x y : ℝ) (h : x ^ 2 + y ^ 2 = 1) :
    ∃ t, Real.cos t = x ∧ Real.sin t = y := by
  have hn : ‖(⟨x, y⟩ : ℂ)‖ = 1 := by
    rw [Complex.norm_def, Complex.normSq_mk, show x * x + y * y = 1 by linarith, Real.sqrt_one]
  have h0 : (⟨x, y⟩ : ℂ) ≠ 0 := by
    intro h0; rw [h0] at hn; simp at hn
  refine ⟨Complex.arg ⟨x, y⟩, ?_, ?_⟩
  · rw [Complex.cos_arg h0, hn]; simp
  · rw [Complex.sin_arg, hn]; simp

/-- **C91** (every rotation). Every rotation matrix is the matrix of some angles, so the table
of optics can describe a surface in any orientation. -/
theorem C91_every_rotation (M : Matrix (Fin 3) (Fin 3) ℝ)
    (hM : M ∈ Matrix.specialOrthogonalGroup (Fin 3) ℝ) :
    ∃ tilt pitch roll, mat (euler tilt pitch roll) = M := by
  have hR : Rotation (ofMat M) := rotation_of_mem _ (by
    rw [mat_ofMat]; exact (Matrix.mem_specialOrthogonalGroup_iff.1 hM).1)
  have h33 : M 0 2 ^ 2 + M 1 2 ^ 2 + M 2 2 ^ 2 = 1 := hR.c33
  -- pitch
  obtain ⟨p, hp, hsp⟩ := exists_angle (Real.sqrt (1 - M 0 2 ^ 2)) (M 0 2) (by
    rw [Real.sq_sqrt (by nlinarith [sq_nonneg (M 1 2), sq_nonneg (M 2 2)])]; ring)
  have hcp2 : Real.cos p ^ 2 = M 1 2 ^ 2 + M 2 2 ^ 2 := by
    rw [hp, Real.sq_sqrt (by nlinarith [sq_nonneg (M 1 2), sq_nonneg (M 2 2)])]; linarith
  -- tilt
  obtain ⟨t, ht1, ht2⟩ : ∃ t, Real.cos t * Real.cos p = M 2 2 ∧ -(Real.sin t * Real.cos p) = M 1 2 := by
    by_cases hc : Real.cos p = 0
    · rw [hc] at hcp2
      have a1 : M 1 2 = 0 := by nlinarith [sq_nonneg (M 1 2), sq_nonneg (M 2 2)]
      have a2 : M 2 2 = 0 := by nlinarith [sq_nonneg (M 1 2), sq_nonneg (M 2 2)]
      exact ⟨0, by rw [hc, a2]; ring, by rw [hc, a1]; ring⟩
    · obtain ⟨t, h1, h2⟩ := exists_angle (M 2 2 / Real.cos p) (-(M 1 2) / Real.cos p) (by
        field_simp; linarith)
      refine ⟨t, ?_, ?_⟩
      · rw [h1]; field_simp
      · rw [h2]; field_simp
  set Q := rotX t * rotY p with hQ
  have hQm : Q ∈ Matrix.specialOrthogonalGroup (Fin 3) ℝ := mul_mem (rotX_mem t) (rotY_mem p)
  have hQQ : Q * Q.transpose = 1 :=
    (Matrix.mem_orthogonalGroup_iff (Fin 3) ℝ).1 (Matrix.mem_specialOrthogonalGroup_iff.1 hQm).1
  have hQQ' : Q.transpose * Q = 1 :=
    (Matrix.mem_orthogonalGroup_iff' (Fin 3) ℝ).1 (Matrix.mem_specialOrthogonalGroup_iff.1 hQm).1
  have hQt : Q.transpose ∈ Matrix.specialOrthogonalGroup (Fin 3) ℝ := by
    rw [Matrix.mem_specialOrthogonalGroup_iff]
    constructor
    · rw [Matrix.mem_orthogonalGroup_iff, Matrix.transpose_transpose]; exact hQQ'
    · rw [Matrix.det_transpose]; exact (Matrix.mem_specialOrthogonalGroup_iff.1 hQm).2
  set N := Q.transpose * M with hN
  have hNm : N ∈ Matrix.specialOrthogonalGroup (Fin 3) ℝ := mul_mem hQt hM
  have hMN : M = Q * N := by rw [hN, ← mul_assoc, hQQ, one_mul]
  have hst := Real.sin_sq_add_cos_sq t
  have hspp := Real.sin_sq_add_cos_sq p
  have hQ02 : Q 0 2 = M 0 2 := by
    rw [hQ]; simp [rotX, rotY, Matrix.mul_apply, Fin.sum_univ_three, hsp]
  have hQ12 : Q 1 2 = M 1 2 := by
    rw [hQ]; simp [rotX, rotY, Matrix.mul_apply, Fin.sum_univ_three]; linarith
  have hQ22 : Q 2 2 = M 2 2 := by
    rw [hQ]; simp [rotX, rotY, Matrix.mul_apply, Fin.sum_univ_three]; linarith
  have hcol : ∀ i, N i 2 = (1 : Matrix (Fin 3) (Fin 3) ℝ) i 2 := by
    intro i
    rw [← hQQ', hN, Matrix.mul_apply, Matrix.mul_apply, Fin.sum_univ_three, Fin.sum_univ_three,
      hQ02, hQ12, hQ22]
  have n02 : N 0 2 = 0 := by simpa using hcol 0
  have n12 : N 1 2 = 0 := by simpa using hcol 1
  have n22 : N 2 2 = 1 := by simpa using hcol 2
  have hRN : Rotation (ofMat N) := rotation_of_mem _ (by
    rw [mat_ofMat]; exact (Matrix.mem_specialOrthogonalGroup_iff.1 hNm).1)
  have hr33 : N 2 0 ^ 2 + N 2 1 ^ 2 + N 2 2 ^ 2 = 1 := hRN.r33
  rw [n22] at hr33
  have n20 : N 2 0 = 0 := by nlinarith [sq_nonneg (N 2 0), sq_nonneg (N 2 1)]
  have n21 : N 2 1 = 0 := by nlinarith [sq_nonneg (N 2 0), sq_nonneg (N 2 1)]
  have hc11 : N 0 0 ^ 2 + N 1 0 ^ 2 + N 2 0 ^ 2 = 1 := hRN.c11
  rw [n20] at hc11
  have hcof := cofactors (ofMat N) (by rw [mat_ofMat]; exact hNm)
  rw [mat_ofMat, Matrix.adjugate_fin_three] at hcof
  have e00 := congrFun (congrFun hcof 0) 0
  have e01 := congrFun (congrFun hcof 0) 1
  simp [n02, n12, n22] at e00 e01
  obtain ⟨r, hr1, hr2⟩ := exists_angle (N 0 0) (N 1 0) (by linarith)
  have hNr : N = rotZ r := by
    unfold rotZ
    ext i j
    fin_cases i <;> fin_cases j <;> simp [n02, n12, n22, n20, n21, hr1, hr2] <;> linarith
  have hrad : ∀ a : ℝ, radians (degrees a) = a := by
    intro a; unfold radians degrees
    have := Real.pi_ne_zero
    field_simp
  refine ⟨degrees t, degrees p, degrees r, ?_⟩
  rw [C91_angles, hrad, hrad, hrad, hMN, hNr]

/-- Hypothesis met, by a rotation about all three axes. -/
example : rotZ 1 * rotY 2 * rotX 3 ∈ Matrix.specialOrthogonalGroup (Fin 3) ℝ :=
  mul_mem (mul_mem (rotZ_mem _) (rotY_mem _)) (rotX_mem _)

end Verif.Props.RayFrames
