import Verif.Model.FloatRigid
import Verif.Model.PoseError
import Verif.Spec.FloatPose
import Verif.Spec.Geometry

/-!
# What C155 and C156 say

The programs a user can write with `Rot3` and `Pose3`, what they mean in exact arithmetic, and how many roundings each has.
-/

namespace Sumo
namespace FloatRigidSpec
open FloatPoseSpec

/-- A rational vector as a real one. -/
def rv (p : Vec3 ℚ) : Vec3 ℝ := ⟨p.x, p.y, p.z⟩

/-- A rational matrix as a real one. -/
def rm (A : Mat3 ℚ) : Mat3 ℝ := ⟨A.m00, A.m01, A.m02, A.m10, A.m11, A.m12, A.m20, A.m21, A.m22⟩

/-- `v` is the product of `A` and `p`, each entry accurate. -/
def DottedVec (A : Mat3 ℚ) (p v : Vec3 ℚ) : Prop :=
  Dotted A.m00 A.m01 A.m02 p v.x ∧ Dotted A.m10 A.m11 A.m12 p v.y ∧ Dotted A.m20 A.m21 A.m22 p v.z

/-- The library's products are accurate; nothing is said about the order of operations, or about the same product being computed
alike in one call and in another. -/
structure GoodProducts (D : Fl.Products) : Prop where
  vec : ∀ A p, DottedVec A p (D.vec A p)
  all : ∀ A l, List.Forall₂ (DottedVec A) l (D.all A l)
  mat : ∀ A B, DottedVec A ⟨B.m00, B.m10, B.m20⟩ ⟨(D.mat A B).m00, (D.mat A B).m10, (D.mat A B).m20⟩ ∧
    DottedVec A ⟨B.m01, B.m11, B.m21⟩ ⟨(D.mat A B).m01, (D.mat A B).m11, (D.mat A B).m21⟩ ∧
    DottedVec A ⟨B.m02, B.m12, B.m22⟩ ⟨(D.mat A B).m02, (D.mat A B).m12, (D.mat A B).m22⟩

/-- The library's sine and cosine are accurate to `2^-53`. -/
structure GoodTrig (T : Fl.Trig) : Prop where
  sin : ∀ t : ℚ, |(T.sin t : ℝ) - Real.sin t| ≤ 1 / 2 ^ 53
  cos : ∀ t : ℚ, |(T.cos t : ℝ) - Real.cos t| ≤ 1 / 2 ^ 53

/-- The matrix moves every vector to where the rotation moves it, up to `ε` times its length. -/
def Near (ε : ℝ) (A : Mat3 ℚ) (R : Mat3 ℝ) : Prop := ∀ v : Vec3 ℝ, ((rm A).mulVec v - R.mulVec v).norm ≤ ε * v.norm

/-- The relative error of `n` operations. -/
noncomputable def err (n : ℕ) : ℝ := (1 + 1 / 2 ^ 48) ^ n - 1

/-- An expression for a rotation. -/
inductive RotE where
  | one
  | enu
  | maya
  | rx (t : ℚ)
  | ry (t : ℚ)
  | rz (t : ℚ)
  /-- a matrix from elsewhere, not exactly a rotation -/
  | given (n : ℕ) (A : Mat3 ℚ) (R : Mat3 ℝ) (h : IsRotation R ∧ Near (err n) A R)
  | mul (a b : RotE)
  | inv (a : RotE)

/-- What the code computes. -/
def RotE.run (D : Fl.Products) (T : Fl.Trig) : RotE → Mat3 ℚ
  | one => Rot3.identity
  | enu => Rot3.ENU_R_CAMERA
  | maya => Rot3.MAYA_R_CAMERA
  | rx t => Fl.Rot3.Rx T t
  | ry t => Fl.Rot3.Ry T t
  | rz t => Fl.Rot3.Rz T t
  | given _ A _ _ => A
  | mul a b => D.mat (a.run D T) (b.run D T)
  | inv a => (a.run D T).transpose

/-- What it should compute. -/
noncomputable def RotE.ideal : RotE → Mat3 ℝ
  | one => Mat3.one
  | enu => ⟨1, 0, 0, 0, 0, 1, 0, -1, 0⟩
  | maya => ⟨1, 0, 0, 0, -1, 0, 0, 0, -1⟩
  | rx t => Rot3.Rx t
  | ry t => Rot3.Ry t
  | rz t => Rot3.Rz t
  | given _ _ R _ => R
  | mul a b => a.ideal.mul b.ideal
  | inv a => a.ideal.transpose

/-- The number of inexact operations. -/
def RotE.steps : RotE → ℕ
  | one | enu | maya => 0
  | rx _ | ry _ | rz _ => 1
  | given n _ _ _ => n
  | mul a b => a.steps + b.steps + 1
  | inv a => a.steps

/-- An expression for a pose. -/
inductive PoseE where
  | make (R : RotE) (t : Vec3 ℚ)
  | compose (a b : PoseE)
  | inverse (a : PoseE)

/-- What the code computes. -/
def PoseE.run (D : Fl.Products) (T : Fl.Trig) : PoseE → Pose3 ℚ
  | make R t => ⟨R.run D T, t⟩
  | compose a b => Fl.Pose3.compose D (a.run D T) (b.run D T)
  | inverse a => Fl.Pose3.inverse D (a.run D T)

/-- The rigid motion it should compute: `(R, t)` is `p ↦ R p + t`. -/
noncomputable def PoseE.move : PoseE → Vec3 ℝ → Vec3 ℝ
  | make R t, p => R.ideal.mulVec p + rv t
  | compose a b, p => a.move (b.move p)
  | inverse a, p => Function.invFun a.move p

/-- The inexact operations in the rotation. -/
def PoseE.rotSteps : PoseE → ℕ
  | make R _ => R.steps
  | compose a b => a.rotSteps + b.rotSteps + 1
  | inverse a => a.rotSteps

/-- The inexact operations in the translation. -/
def PoseE.steps : PoseE → ℕ
  | make _ _ => 0
  | compose a b => max (a.rotSteps + b.steps) a.steps + 1
  | inverse a => a.rotSteps + a.steps + 1

/-- The lengths of all translations in the expression. -/
noncomputable def PoseE.size : PoseE → ℝ
  | make _ t => (rv t).norm
  | compose a b => a.size + b.size
  | inverse a => a.size

end FloatRigidSpec
end Sumo
