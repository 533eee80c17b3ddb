import Verif.Spec.Geometry
import Mathlib.Tactic.Ring
import Mathlib.Tactic.LinearCombination
import Mathlib.Tactic.FinCases

/-! # Helper lemmas: 3×3 matrices and rotations -/

set_option linter.unusedSectionVars false

namespace Sumo
variable {K : Type} [CommRing K]

theorem toMatrix_injective : Function.Injective (Mat3.toMatrix : Mat3 K → _) := by
  intro A B h
  have e := fun i j => congrFun (congrFun h i) j
  ext
  · simpa [Mat3.toMatrix] using e 0 0
  · simpa [Mat3.toMatrix] using e 0 1
  · simpa [Mat3.toMatrix] using e 0 2
  · simpa [Mat3.toMatrix] using e 1 0
  · simpa [Mat3.toMatrix] using e 1 1
  · simpa [Mat3.toMatrix] using e 1 2
  · simpa [Mat3.toMatrix] using e 2 0
  · simpa [Mat3.toMatrix] using e 2 1
  · simpa [Mat3.toMatrix] using e 2 2

theorem toMatrix_mul (A B : Mat3 K) : (A.mul B).toMatrix = A.toMatrix * B.toMatrix := by
  ext i j
  fin_cases i <;> fin_cases j <;> simp [Mat3.toMatrix, Mat3.mul, Matrix.mul_apply, Fin.sum_univ_three]

theorem toMatrix_one : (Mat3.one : Mat3 K).toMatrix = 1 := by
  ext i j
  fin_cases i <;> fin_cases j <;> simp [Mat3.toMatrix, Mat3.one]

theorem toMatrix_transpose (A : Mat3 K) : A.transpose.toMatrix = A.toMatrix.transpose := by
  ext i j
  fin_cases i <;> fin_cases j <;> simp [Mat3.toMatrix, Mat3.transpose]

theorem toMatrix_det (A : Mat3 K) : A.toMatrix.det = A.det := by
  rw [Matrix.det_fin_three]
  simp [Mat3.toMatrix, Mat3.det]
  ring

theorem toFun_mulVec (A : Mat3 K) (v : Vec3 K) : (A.mulVec v).toFun = A.toMatrix.mulVec v.toFun := by
  ext i
  fin_cases i <;>
    simp [Mat3.toMatrix, Mat3.mulVec, Vec3.toFun, Matrix.mulVec, dotProduct, Fin.sum_univ_three]

theorem isOrthogonal_iff (R : Mat3 K) : IsOrthogonal R ↔ R.transpose.mul R = Mat3.one := by
  rw [IsOrthogonal, ← toMatrix_transpose, ← toMatrix_mul, ← toMatrix_one (K := K)]
  exact toMatrix_injective.eq_iff

theorem isOrthogonal_iff' (R : Mat3 K) : IsOrthogonal R ↔ R.mul R.transpose = Mat3.one := by
  rw [IsOrthogonal, mul_eq_one_comm, ← toMatrix_transpose, ← toMatrix_mul, ← toMatrix_one (K := K)]
  exact toMatrix_injective.eq_iff

theorem isRotation_iff (R : Mat3 K) : IsRotation R ↔ R.transpose.mul R = Mat3.one ∧ R.det = 1 := by
  rw [IsRotation, isOrthogonal_iff, toMatrix_det]

theorem mul_assoc3 (A B C : Mat3 K) : (A.mul B).mul C = A.mul (B.mul C) := by
  apply toMatrix_injective
  simp [toMatrix_mul, mul_assoc]

theorem one_mul3 (A : Mat3 K) : Mat3.one.mul A = A := by
  apply toMatrix_injective
  simp [toMatrix_mul, toMatrix_one]

theorem mul_one3 (A : Mat3 K) : A.mul Mat3.one = A := by
  apply toMatrix_injective
  simp [toMatrix_mul, toMatrix_one]

theorem transpose_mul3 (A B : Mat3 K) : (A.mul B).transpose = B.transpose.mul A.transpose := by
  apply toMatrix_injective
  simp [toMatrix_mul, toMatrix_transpose]

theorem transpose_transpose3 (A : Mat3 K) : A.transpose.transpose = A := rfl

theorem mulVec_mul (A B : Mat3 K) (v : Vec3 K) : (A.mul B).mulVec v = A.mulVec (B.mulVec v) := by
  ext <;> simp only [Mat3.mulVec, Mat3.mul] <;> ring

theorem mulVec_one (v : Vec3 K) : (Mat3.one : Mat3 K).mulVec v = v := by
  ext <;> simp [Mat3.mulVec, Mat3.one]

theorem mulVec_add (A : Mat3 K) (v w : Vec3 K) : A.mulVec (v + w) = A.mulVec v + A.mulVec w := by
  ext <;> simp only [Mat3.mulVec, Vec3.add_x, Vec3.add_y, Vec3.add_z] <;> ring

theorem mulVec_neg (A : Mat3 K) (v : Vec3 K) : A.mulVec (-v) = -A.mulVec v := by
  ext <;> simp only [Mat3.mulVec, Vec3.neg_x, Vec3.neg_y, Vec3.neg_z] <;> ring

theorem mulVec_sub (A : Mat3 K) (v w : Vec3 K) : A.mulVec (v - w) = A.mulVec v - A.mulVec w := by
  ext <;> simp only [Mat3.mulVec, Vec3.sub_x, Vec3.sub_y, Vec3.sub_z] <;> ring

theorem mulVec_zero (A : Mat3 K) : A.mulVec 0 = 0 := by
  ext <;> simp [Mat3.mulVec]

theorem vadd_assoc (a b c : Vec3 K) : a + b + c = a + (b + c) := by ext <;> simp [add_assoc]
theorem vadd_neg (a : Vec3 K) : a + -a = 0 := by ext <;> simp
theorem vneg_add (a : Vec3 K) : -a + a = 0 := by ext <;> simp
theorem vadd_zero (a : Vec3 K) : a + 0 = a := by ext <;> simp
theorem vzero_add (a : Vec3 K) : 0 + a = a := by ext <;> simp
theorem vadd_sub (a b : Vec3 K) : a + b - b = a := by ext <;> simp
theorem vsub_add (a b : Vec3 K) : a - b + b = a := by ext <;> simp

theorem IsOrthogonal.left {R : Mat3 K} (h : IsOrthogonal R) : R.transpose.mul R = Mat3.one :=
  (isOrthogonal_iff R).1 h

theorem IsOrthogonal.right {R : Mat3 K} (h : IsOrthogonal R) : R.mul R.transpose = Mat3.one :=
  (isOrthogonal_iff' R).1 h

theorem IsOrthogonal.mul {A B : Mat3 K} (hA : IsOrthogonal A) (hB : IsOrthogonal B) :
    IsOrthogonal (A.mul B) := by
  rw [isOrthogonal_iff, transpose_mul3, mul_assoc3, ← mul_assoc3 A.transpose, hA.left, one_mul3, hB.left]

theorem IsOrthogonal.transpose {A : Mat3 K} (hA : IsOrthogonal A) : IsOrthogonal A.transpose := by
  rw [isOrthogonal_iff, transpose_transpose3, hA.right]

theorem isOrthogonal_one : IsOrthogonal (Mat3.one : Mat3 K) := by
  rw [isOrthogonal_iff]; ext <;> simp [Mat3.one, Mat3.mul, Mat3.transpose]

theorem IsRotation.mul {A B : Mat3 K} (hA : IsRotation A) (hB : IsRotation B) :
    IsRotation (A.mul B) :=
  ⟨hA.1.mul hB.1, by rw [toMatrix_mul, Matrix.det_mul, hA.2, hB.2, one_mul]⟩

theorem IsRotation.transpose {A : Mat3 K} (hA : IsRotation A) : IsRotation A.transpose :=
  ⟨hA.1.transpose, by rw [toMatrix_transpose, Matrix.det_transpose, hA.2]⟩

theorem isRotation_one : IsRotation (Mat3.one : Mat3 K) :=
  ⟨isOrthogonal_one, by rw [toMatrix_one, Matrix.det_one]⟩

theorem IsOrthogonal.cancel_left {A B C : Mat3 K} (hA : IsOrthogonal A) (h : A.mul B = A.mul C) : B = C := by
  have := congrArg (A.transpose.mul ·) h
  simpa [← mul_assoc3, hA.left, one_mul3] using this

/-- A rotation is its own cofactor matrix. -/
theorem IsRotation.cofactor {A : Mat3 K} (hA : IsRotation A) :
    A = ⟨A.m11 * A.m22 - A.m12 * A.m21, A.m12 * A.m20 - A.m10 * A.m22, A.m10 * A.m21 - A.m11 * A.m20,
         A.m02 * A.m21 - A.m01 * A.m22, A.m00 * A.m22 - A.m02 * A.m20, A.m01 * A.m20 - A.m00 * A.m21,
         A.m01 * A.m12 - A.m02 * A.m11, A.m02 * A.m10 - A.m00 * A.m12, A.m00 * A.m11 - A.m01 * A.m10⟩ := by
  have hd := ((isRotation_iff A).1 hA).2
  set C : Mat3 K := ⟨A.m11 * A.m22 - A.m12 * A.m21, A.m12 * A.m20 - A.m10 * A.m22,
      A.m10 * A.m21 - A.m11 * A.m20,
      A.m02 * A.m21 - A.m01 * A.m22, A.m00 * A.m22 - A.m02 * A.m20, A.m01 * A.m20 - A.m00 * A.m21,
      A.m01 * A.m12 - A.m02 * A.m11, A.m02 * A.m10 - A.m00 * A.m12,
      A.m00 * A.m11 - A.m01 * A.m10⟩ with hC
  have h1 : A.transpose.mul C = Mat3.one := by
    simp only [Mat3.det] at hd
    ext <;> simp only [hC, Mat3.mul, Mat3.transpose, Mat3.one] <;>
      first | ring1 | linear_combination hd
  have h2 := hA.1.left
  exact hA.1.transpose.cancel_left (h2.trans h1.symm)

/-- The nine equations of `Rᵀ R = I`, columns. -/
theorem IsOrthogonal.cols {A : Mat3 K} (h : IsOrthogonal A) :
    A.m00 * A.m00 + A.m10 * A.m10 + A.m20 * A.m20 = 1 ∧
    A.m01 * A.m01 + A.m11 * A.m11 + A.m21 * A.m21 = 1 ∧
    A.m02 * A.m02 + A.m12 * A.m12 + A.m22 * A.m22 = 1 ∧
    A.m00 * A.m01 + A.m10 * A.m11 + A.m20 * A.m21 = 0 ∧
    A.m00 * A.m02 + A.m10 * A.m12 + A.m20 * A.m22 = 0 ∧
    A.m01 * A.m02 + A.m11 * A.m12 + A.m21 * A.m22 = 0 := by
  have h := h.left
  refine ⟨?_, ?_, ?_, ?_, ?_, ?_⟩
  · simpa [Mat3.mul, Mat3.transpose, Mat3.one] using congrArg Mat3.m00 h
  · simpa [Mat3.mul, Mat3.transpose, Mat3.one] using congrArg Mat3.m11 h
  · simpa [Mat3.mul, Mat3.transpose, Mat3.one] using congrArg Mat3.m22 h
  · simpa [Mat3.mul, Mat3.transpose, Mat3.one] using congrArg Mat3.m01 h
  · simpa [Mat3.mul, Mat3.transpose, Mat3.one] using congrArg Mat3.m02 h
  · simpa [Mat3.mul, Mat3.transpose, Mat3.one] using congrArg Mat3.m12 h

/-- The equations of `R Rᵀ = I`, rows. -/
theorem IsOrthogonal.rows {A : Mat3 K} (h : IsOrthogonal A) :
    A.m00 * A.m00 + A.m01 * A.m01 + A.m02 * A.m02 = 1 ∧
    A.m10 * A.m10 + A.m11 * A.m11 + A.m12 * A.m12 = 1 ∧
    A.m20 * A.m20 + A.m21 * A.m21 + A.m22 * A.m22 = 1 ∧
    A.m00 * A.m10 + A.m01 * A.m11 + A.m02 * A.m12 = 0 ∧
    A.m00 * A.m20 + A.m01 * A.m21 + A.m02 * A.m22 = 0 ∧
    A.m10 * A.m20 + A.m11 * A.m21 + A.m12 * A.m22 = 0 := h.transpose.cols

theorem dot_mulVec (A : Mat3 K) (hA : IsOrthogonal A) (v w : Vec3 K) :
    (A.mulVec v).dot (A.mulVec w) = v.dot w := by
  obtain ⟨h1, h2, h3, h4, h5, h6⟩ := hA.cols
  simp only [Vec3.dot, Mat3.mulVec]
  linear_combination v.x * w.x * h1 + v.y * w.y * h2 + v.z * w.z * h3 + (v.x * w.y + v.y * w.x) * h4
    + (v.x * w.z + v.z * w.x) * h5 + (v.y * w.z + v.z * w.y) * h6

open Rot3

theorem isRotation_Rx (t : ℝ) : IsRotation (Rx t) := by
  rw [isRotation_iff]
  have h := Real.cos_sq_add_sin_sq t
  refine ⟨?_, ?_⟩
  · ext <;> simp only [Rx, fromScalars, Mat3.mul, Mat3.transpose, Mat3.one] <;>
      first | ring1 | linear_combination h
  · simp only [Rx, fromScalars, Mat3.det]; linear_combination h

theorem isRotation_Ry (t : ℝ) : IsRotation (Ry t) := by
  rw [isRotation_iff]
  have h := Real.cos_sq_add_sin_sq t
  refine ⟨?_, ?_⟩
  · ext <;> simp only [Ry, fromScalars, Mat3.mul, Mat3.transpose, Mat3.one] <;>
      first | ring1 | linear_combination h
  · simp only [Ry, fromScalars, Mat3.det]; linear_combination h

theorem isRotation_Rz (t : ℝ) : IsRotation (Rz t) := by
  rw [isRotation_iff]
  have h := Real.cos_sq_add_sin_sq t
  refine ⟨?_, ?_⟩
  · ext <;> simp only [Rz, fromScalars, Mat3.mul, Mat3.transpose, Mat3.one] <;>
      first | ring1 | linear_combination h
  · simp only [Rz, fromScalars, Mat3.det]; linear_combination h

theorem isRotation_ENU : IsRotation (ENU_R_CAMERA : Mat3 K) := by
  rw [isRotation_iff]
  refine ⟨?_, ?_⟩
  · ext <;> simp [ENU_R_CAMERA, Mat3.mul, Mat3.transpose, Mat3.one]
  · simp [ENU_R_CAMERA, Mat3.det, Mat3.transpose]

theorem isRotation_Maya : IsRotation (MAYA_R_CAMERA : Mat3 K) := by
  rw [isRotation_iff]
  refine ⟨?_, ?_⟩
  · ext <;> simp [MAYA_R_CAMERA, Mat3.mul, Mat3.transpose, Mat3.one]
  · simp [MAYA_R_CAMERA, Mat3.det, Mat3.transpose]

theorem isRotation_axisAngle (d : Vec3 ℝ) (hd : d.normSq = 1) (a : ℝ) : IsRotation (axisAngle d a) := by
  rw [isRotation_iff]
  have h := Real.cos_sq_add_sin_sq a
  simp only [Vec3.normSq, Vec3.dot] at hd
  generalize hc : Real.cos a = c at *
  generalize hs : Real.sin a = s at *
  refine ⟨?_, ?_⟩
  · ext <;> simp only [axisAngle, hc, hs, Mat3.mul, Mat3.transpose, Mat3.one]
    · linear_combination (d.x * d.x * (1 - c) ^ 2 + s ^ 2) * hd + (1 - d.x * d.x) * h
    · linear_combination (d.x * d.y * (1 - c) ^ 2) * hd - d.x * d.y * h
    · linear_combination (d.x * d.z * (1 - c) ^ 2) * hd - d.x * d.z * h
    · linear_combination (d.x * d.y * (1 - c) ^ 2) * hd - d.x * d.y * h
    · linear_combination (d.y * d.y * (1 - c) ^ 2 + s ^ 2) * hd + (1 - d.y * d.y) * h
    · linear_combination (d.y * d.z * (1 - c) ^ 2) * hd - d.y * d.z * h
    · linear_combination (d.x * d.z * (1 - c) ^ 2) * hd - d.x * d.z * h
    · linear_combination (d.y * d.z * (1 - c) ^ 2) * hd - d.y * d.z * h
    · linear_combination (d.z * d.z * (1 - c) ^ 2 + s ^ 2) * hd + (1 - d.z * d.z) * h
  · simp only [axisAngle, hc, hs, Mat3.det]
    linear_combination
      (c * s ^ 2 + (1 - c) * (c ^ 2 + s ^ 2 * (d.x * d.x + d.y * d.y + d.z * d.z + 1))) * hd + h

end Sumo
