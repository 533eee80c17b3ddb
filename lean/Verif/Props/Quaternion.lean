import Verif.Model.Arrays
import Verif.Lemmas.Rotation
import Verif.Props.Xml

/-! # C119: quaternions made of arrays -/

namespace Sumo

/-- C119: the quaternion of a `float64` array that is a rotation matrix has length 1, and its rotation matrix is that matrix. -/
theorem C119_matrix_partial (a : NdArray ℝ) (R : Mat3 ℝ) (ht : a.dtype = .f64) (hs : a.shape = [3, 3])
    (h0 : a.elem [0, 0] = R.m00 ∧ a.elem [0, 1] = R.m01 ∧ a.elem [0, 2] = R.m02)
    (h1 : a.elem [1, 0] = R.m10 ∧ a.elem [1, 1] = R.m11 ∧ a.elem [1, 2] = R.m12)
    (h2 : a.elem [2, 0] = R.m20 ∧ a.elem [2, 1] = R.m21 ∧ a.elem [2, 2] = R.m22) (hR : IsRotation R) :
    ∃ q, quaternionOfArray a = .ok q ∧ q.w ^ 2 + q.x ^ 2 + q.y ^ 2 + q.z ^ 2 = 1 ∧ eigenMatrixOfQuat q = R := by
  refine ⟨eigenQuatOfMatrix R, ?_, (eigenQuat_isQuatOf hR).unit, (eigenQuat_isQuatOf hR).eigenMatrix⟩
  unfold quaternionOfArray
  rw [hs]
  simp only [ht, and_self, if_true, NdArray.entry, h0, h1, h2]

/-- C119: the quaternion of four numbers, in a vector or a column, has these entries; unless all are 0, its rotation matrix is a
rotation, whatever its length. -/
theorem C119_vector (a : NdArray ℝ) (w x y z : ℝ)
    (h : (a.shape = [4] ∧ a.elem [0] = w ∧ a.elem [1] = x ∧ a.elem [2] = y ∧ a.elem [3] = z) ∨
      (a.shape = [4, 1] ∧ a.elem [0, 0] = w ∧ a.elem [1, 0] = x ∧ a.elem [2, 0] = y ∧ a.elem [3, 0] = z)) :
    quaternionOfArray a = .ok ⟨w, x, y, z⟩ ∧
      (¬ (x = 0 ∧ y = 0 ∧ z = 0 ∧ w = 0) → IsRotation (eigenMatrixOfQuat ⟨w, x, y, z⟩)) := by
  refine ⟨?_, isRotation_eigenMatrixOfQuat w x y z⟩
  rcases h with ⟨hs, rfl, rfl, rfl, rfl⟩ | ⟨hs, rfl, rfl, rfl, rfl⟩
  · unfold quaternionOfArray; rw [hs]; simp
  · unfold quaternionOfArray; rw [hs]; simp

/-- C119: other vectors and matrices are an `AssertionError`. -/
theorem C119_refused (a : NdArray ℝ) (hne : a.shape ≠ []) (h4 : a.shape.head? ≠ some 4)
    (h3 : a.shape.head? = some 3 → a.shape[1]? ≠ some 3) : quaternionOfArray a = .error .assertionError := by
  unfold quaternionOfArray
  split
  · contradiction
  · next hs => rw [hs] at h3; simp at h3
  · next hs => rw [hs] at h4; simp at h4
  · rfl

/-- C119 is false: the identity matrix as an array of integers (or of `float32`) is accepted, and the quaternion is computed from
memory that was never written. -/
theorem C119_false (a : NdArray ℝ) (ht : a.dtype ≠ .f64) (hs : a.shape = [3, 3]) : quaternionOfArray a = .error .undefined := by
  unfold quaternionOfArray
  rw [hs]
  simp [ht]

/-- Non-vacuity of `C119_matrix_partial`: a quarter turn around z. -/
example : ∃ (a : NdArray ℝ) (R : Mat3 ℝ), a.dtype = .f64 ∧ a.shape = [3, 3] ∧ IsRotation R ∧ R.m01 = -1 ∧
    (a.elem [0, 0] = R.m00 ∧ a.elem [0, 1] = R.m01 ∧ a.elem [0, 2] = R.m02) ∧
    (a.elem [1, 0] = R.m10 ∧ a.elem [1, 1] = R.m11 ∧ a.elem [1, 2] = R.m12) ∧
    (a.elem [2, 0] = R.m20 ∧ a.elem [2, 1] = R.m21 ∧ a.elem [2, 2] = R.m22) := by
  refine ⟨⟨.f64, [3, 3], fun i => if i = [0, 1] then -1 else if i = [1, 0] then 1 else if i = [2, 2] then 1 else 0⟩,
    ⟨0, -1, 0, 1, 0, 0, 0, 0, 1⟩, rfl, rfl, ?_, rfl, ?_⟩
  · rw [isRotation_iff]
    constructor
    · ext <;> simp [Mat3.mul, Mat3.transpose, Mat3.one]
    · simp [Mat3.det]
  · simp

/-- Non-vacuity of `C119_refused` and `C119_false`. -/
example : (∃ a : NdArray ℝ, a.shape = [3] ∧ a.shape ≠ [] ∧ a.shape.head? ≠ some 4 ∧ (a.shape.head? = some 3 → a.shape[1]? ≠ some 3)) ∧
    ∃ a : NdArray ℝ, a.dtype ≠ .f64 ∧ a.shape = [3, 3] :=
  ⟨⟨⟨.f64, [3], fun _ => 0⟩, rfl, by decide, by decide, by decide⟩, ⟨.other, [3, 3], fun _ => 0⟩, by decide, rfl⟩

end Sumo
