import Mathlib.Algebra.Ring.Defs


/-!
# Small vectors and matrices

`numpy` 3-vectors and 3×3 matrices (`base/vector.pyx:19-47`), with exact entries.  The operations are the
`numpy` ones the code uses: `+`, `-`, unary `-`, `np.dot`, `np.transpose`, `np.stack(..., axis=1)`.
A `3*n` array of points is the list of its columns.
-/

namespace Sumo

/-- A 3-vector: `Vector3(x, y, z)` (`base/vector.pyx:27-29`). -/
@[ext] structure Vec3 (K : Type) where
  x : K
  y : K
  z : K
  deriving DecidableEq

/-- A 3×3 matrix, `mij` is row `i`, column `j`: `Matrix3` (`base/vector.pyx:39-41`). -/
@[ext] structure Mat3 (K : Type) where
  m00 : K
  m01 : K
  m02 : K
  m10 : K
  m11 : K
  m12 : K
  m20 : K
  m21 : K
  m22 : K
  deriving DecidableEq

section
variable {K : Type} [CommRing K]

namespace Vec3

/-- `numpy` elementwise `+`. -/
instance : Add (Vec3 K) := ⟨fun a b => ⟨a.x + b.x, a.y + b.y, a.z + b.z⟩⟩
/-- `numpy` elementwise `-`. -/
instance : Sub (Vec3 K) := ⟨fun a b => ⟨a.x - b.x, a.y - b.y, a.z - b.z⟩⟩
/-- `numpy` elementwise negation. -/
instance : Neg (Vec3 K) := ⟨fun a => ⟨-a.x, -a.y, -a.z⟩⟩
/-- `Vector3(0, 0, 0)`. -/
instance : Zero (Vec3 K) := ⟨⟨0, 0, 0⟩⟩

/-- scalar times vector. -/
def smul (k : K) (a : Vec3 K) : Vec3 K := ⟨k * a.x, k * a.y, k * a.z⟩

/-- `np.dot` of two vectors. -/
def dot (a b : Vec3 K) : K := a.x * b.x + a.y * b.y + a.z * b.z

/-- `np.cross`. -/
def cross (a b : Vec3 K) : Vec3 K :=
  ⟨a.y * b.z - a.z * b.y, a.z * b.x - a.x * b.z, a.x * b.y - a.y * b.x⟩

/-- square of `np.linalg.norm`. -/
def normSq (a : Vec3 K) : K := dot a a

@[simp] theorem add_x (a b : Vec3 K) : (a + b).x = a.x + b.x := rfl
@[simp] theorem add_y (a b : Vec3 K) : (a + b).y = a.y + b.y := rfl
@[simp] theorem add_z (a b : Vec3 K) : (a + b).z = a.z + b.z := rfl
@[simp] theorem sub_x (a b : Vec3 K) : (a - b).x = a.x - b.x := rfl
@[simp] theorem sub_y (a b : Vec3 K) : (a - b).y = a.y - b.y := rfl
@[simp] theorem sub_z (a b : Vec3 K) : (a - b).z = a.z - b.z := rfl
@[simp] theorem neg_x (a : Vec3 K) : (-a).x = -a.x := rfl
@[simp] theorem neg_y (a : Vec3 K) : (-a).y = -a.y := rfl
@[simp] theorem neg_z (a : Vec3 K) : (-a).z = -a.z := rfl
@[simp] theorem zero_x : (0 : Vec3 K).x = 0 := rfl
@[simp] theorem zero_y : (0 : Vec3 K).y = 0 := rfl
@[simp] theorem zero_z : (0 : Vec3 K).z = 0 := rfl

end Vec3

namespace Mat3

/-- `np.transpose`. -/
def transpose (A : Mat3 K) : Mat3 K :=
  ⟨A.m00, A.m10, A.m20, A.m01, A.m11, A.m21, A.m02, A.m12, A.m22⟩

/-- `np.dot(A, B)` for two 3×3 matrices. -/
def mul (A B : Mat3 K) : Mat3 K :=
  ⟨A.m00 * B.m00 + A.m01 * B.m10 + A.m02 * B.m20,
   A.m00 * B.m01 + A.m01 * B.m11 + A.m02 * B.m21,
   A.m00 * B.m02 + A.m01 * B.m12 + A.m02 * B.m22,
   A.m10 * B.m00 + A.m11 * B.m10 + A.m12 * B.m20,
   A.m10 * B.m01 + A.m11 * B.m11 + A.m12 * B.m21,
   A.m10 * B.m02 + A.m11 * B.m12 + A.m12 * B.m22,
   A.m20 * B.m00 + A.m21 * B.m10 + A.m22 * B.m20,
   A.m20 * B.m01 + A.m21 * B.m11 + A.m22 * B.m21,
   A.m20 * B.m02 + A.m21 * B.m12 + A.m22 * B.m22⟩

/-- `np.dot(A, v)` for a vector. -/
def mulVec (A : Mat3 K) (v : Vec3 K) : Vec3 K :=
  ⟨A.m00 * v.x + A.m01 * v.y + A.m02 * v.z,
   A.m10 * v.x + A.m11 * v.y + A.m12 * v.z,
   A.m20 * v.x + A.m21 * v.y + A.m22 * v.z⟩

/-- `np.identity(3)`. -/
def one : Mat3 K := ⟨1, 0, 0, 0, 1, 0, 0, 0, 1⟩

/-- `np.stack((x, y, z), axis=1)`: the matrix with columns `x`, `y`, `z`. -/
def ofColumns (x y z : Vec3 K) : Mat3 K := ⟨x.x, y.x, z.x, x.y, y.y, z.y, x.z, y.z, z.z⟩

/-- `R[:, 0]`. -/
def col0 (A : Mat3 K) : Vec3 K := ⟨A.m00, A.m10, A.m20⟩
/-- `R[:, 1]`. -/
def col1 (A : Mat3 K) : Vec3 K := ⟨A.m01, A.m11, A.m21⟩
/-- `R[:, 2]`. -/
def col2 (A : Mat3 K) : Vec3 K := ⟨A.m02, A.m12, A.m22⟩

/-- determinant (not computed by the code; used in specifications). -/
def det (A : Mat3 K) : K :=
  A.m00 * (A.m11 * A.m22 - A.m12 * A.m21) - A.m01 * (A.m10 * A.m22 - A.m12 * A.m20)
    + A.m02 * (A.m10 * A.m21 - A.m11 * A.m20)

/-- trace. -/
def trace (A : Mat3 K) : K := A.m00 + A.m11 + A.m22

end Mat3
end
end Sumo
