import Verif.Model.Geometry
import Mathlib.LinearAlgebra.Matrix.Determinant.Basic
import Mathlib.LinearAlgebra.Matrix.NonsingularInverse
import Mathlib.LinearAlgebra.Matrix.Notation

/-!
# What a rotation is

Mathlib matrices as the reference for the model's explicit 3×3 arithmetic.
-/

namespace Sumo

variable {K : Type} [CommRing K]

/-- The Mathlib matrix with the same entries. -/
def Mat3.toMatrix (A : Mat3 K) : Matrix (Fin 3) (Fin 3) K :=
  !![A.m00, A.m01, A.m02; A.m10, A.m11, A.m12; A.m20, A.m21, A.m22]

/-- The Mathlib vector with the same entries. -/
def Vec3.toFun (v : Vec3 K) : Fin 3 → K := ![v.x, v.y, v.z]

/-- Orthogonal: `Rᵀ R = I`. -/
def IsOrthogonal (R : Mat3 K) : Prop := R.toMatrix.transpose * R.toMatrix = 1

/-- Proper rotation: `Rᵀ R = I` and `det R = 1`. -/
def IsRotation (R : Mat3 K) : Prop := IsOrthogonal R ∧ R.toMatrix.det = 1

/-- A list of rows read as a 4×4 matrix (missing entries are 0). -/
def ofRows4 (l : List (List K)) : Matrix (Fin 4) (Fin 4) K :=
  fun i j => ((l[i.val]?).getD [])[j.val]?.getD 0

end Sumo
