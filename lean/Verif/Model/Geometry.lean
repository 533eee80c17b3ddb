import Verif.Model.Vec
import Verif.Model.Py
import Mathlib.Analysis.SpecialFunctions.Trigonometric.Basic

/-!
# Rotations and poses

Model of `sumo-api/sumo/geometry/rot3.pyx` and `sumo-api/sumo/geometry/pose3.pyx` (without the
serialisation functions, which are in `Model/Xml`).  `Rot3` is a thin wrapper of a 3×3 array
(`rot3.pyx:30-32`), modelled by the array itself.  Nothing in the code checks that the array is a rotation.
-/

namespace Sumo

/-- `Rot3` (`geometry/rot3.pyx:29-32`). -/
abbrev Rot3 (K : Type) := Mat3 K

namespace Rot3
section
variable {K : Type} [CommRing K]

/-- `Rot3()` (`geometry/rot3.pyx:30`). -/
def identity : Rot3 K := Mat3.one

/-- `Rot3.inverse` (`geometry/rot3.pyx:42-44`). -/
def inverse (R : Rot3 K) : Rot3 K := Mat3.transpose R

/-- `Rot3.rotate` (`geometry/rot3.pyx:46-48`). -/
def rotate (R : Rot3 K) (p : Vec3 K) : Vec3 K := Mat3.mulVec R p

/-- `Rot3.unrotate` (`geometry/rot3.pyx:50-52`). -/
def unrotate (R : Rot3 K) (q : Vec3 K) : Vec3 K := Mat3.mulVec (Mat3.transpose R) q

/-- `Rot3.unrotate` on a 3×n array (`geometry/rot3.pyx:50-52`). -/
def unrotateAll (R : Rot3 K) (q : List (Vec3 K)) : List (Vec3 K) :=
  q.map (Mat3.mulVec (Mat3.transpose R))

/-- `Rot3.__mul__` with a `Rot3` (`geometry/rot3.pyx:58-61`). -/
def compose (R S : Rot3 K) : Rot3 K := Mat3.mul R S

/-- `Rot3.__mul__` with a 3-vector (`geometry/rot3.pyx:62-64`). -/
def apply (R : Rot3 K) (p : Vec3 K) : Vec3 K := Mat3.mulVec R p

/-- `Rot3.__mul__` with a 3×n array (`geometry/rot3.pyx:62-64`). -/
def applyAll (R : Rot3 K) (p : List (Vec3 K)) : List (Vec3 K) := p.map (Mat3.mulVec R)

/-- `Rot3.FromScalars` (`geometry/rot3.pyx:66-71`). -/
def fromScalars (r11 r12 r13 r21 r22 r23 r31 r32 r33 : K) : Rot3 K :=
  ⟨r11, r12, r13, r21, r22, r23, r31, r32, r33⟩

/-- `Rot3.FromColumns` (`geometry/rot3.pyx:73-76`). -/
def fromColumns (x y z : Vec3 K) : Rot3 K := Mat3.ofColumns x y z

/-- `ENU_R_CAMERA` (`geometry/rot3.pyx:19-21`). -/
def ENU_R_CAMERA : Mat3 K := Mat3.transpose ⟨1, 0, 0, 0, 0, -1, 0, 1, 0⟩

/-- `MAYA_R_CAMERA` (`geometry/rot3.pyx:24-26`). -/
def MAYA_R_CAMERA : Mat3 K := Mat3.transpose ⟨1, 0, 0, 0, -1, 0, 0, 0, -1⟩
end

/-- `Rot3.Rx` (`geometry/rot3.pyx:78-81`). -/
noncomputable def Rx (t : ℝ) : Rot3 ℝ :=
  fromScalars 1 0 0 0 (Real.cos t) (-Real.sin t) 0 (Real.sin t) (Real.cos t)

/-- `Rot3.Ry` (`geometry/rot3.pyx:83-86`). -/
noncomputable def Ry (t : ℝ) : Rot3 ℝ :=
  fromScalars (Real.cos t) 0 (Real.sin t) 0 1 0 (-Real.sin t) 0 (Real.cos t)

/-- `Rot3.Rz` (`geometry/rot3.pyx:88-91`). -/
noncomputable def Rz (t : ℝ) : Rot3 ℝ :=
  fromScalars (Real.cos t) (-Real.sin t) 0 (Real.sin t) (Real.cos t) 0 0 0 1

/-- `Rot3.AxisAngle` (`geometry/rot3.pyx:93-107`): `ddᵀ + cos a (I - ddᵀ) + sin a skew(d)`. -/
noncomputable def axisAngle (d : Vec3 ℝ) (a : ℝ) : Rot3 ℝ :=
  let c := Real.cos a
  let s := Real.sin a
  ⟨d.x * d.x + c * (1 - d.x * d.x) + s * 0,
   d.x * d.y + c * (0 - d.x * d.y) + s * -d.z,
   d.x * d.z + c * (0 - d.x * d.z) + s * d.y,
   d.y * d.x + c * (0 - d.y * d.x) + s * d.z,
   d.y * d.y + c * (1 - d.y * d.y) + s * 0,
   d.y * d.z + c * (0 - d.y * d.z) + s * -d.x,
   d.z * d.x + c * (0 - d.z * d.x) + s * -d.y,
   d.z * d.y + c * (0 - d.z * d.y) + s * d.x,
   d.z * d.z + c * (1 - d.z * d.z) + s * 0⟩

/-- `Rot3.ENU_camera` (`geometry/rot3.pyx:126-135`). -/
noncomputable def ENU_camera (roll pitch yaw : ℝ) : Rot3 ℝ :=
  compose (compose (compose ENU_R_CAMERA (Ry yaw)) (Rx pitch)) (Rz roll)

/-- `Rot3.Maya_camera` (`geometry/rot3.pyx:137-147`). -/
noncomputable def Maya_camera (roll pitch yaw : ℝ) : Rot3 ℝ :=
  compose (compose (compose MAYA_R_CAMERA (Ry yaw)) (Rx pitch)) (Rz roll)

end Rot3

/-- `Pose3` (`geometry/pose3.pyx:25-32`). -/
@[ext] structure Pose3 (K : Type) where
  R : Rot3 K
  t : Vec3 K
  deriving DecidableEq

namespace Pose3
section
variable {K : Type} [CommRing K]

/-- `Pose3()` (`geometry/pose3.pyx:25-26`). -/
def identity : Pose3 K := ⟨Rot3.identity, 0⟩

/-- `Pose3.compose` (`geometry/pose3.pyx:43-44`). -/
def compose (a b : Pose3 K) : Pose3 K := ⟨Rot3.compose a.R b.R, Rot3.apply a.R b.t + a.t⟩

/-- `Pose3.inverse` (`geometry/pose3.pyx:46-48`). -/
def inverse (a : Pose3 K) : Pose3 K :=
  let Rt := Rot3.inverse a.R
  ⟨Rt, -(Rot3.apply Rt a.t)⟩

/-- `Pose3.transform_from` (`geometry/pose3.pyx:50-52`). -/
def transformFrom (a : Pose3 K) (p : Vec3 K) : Vec3 K := Rot3.apply a.R p + a.t

/-- `Pose3.transform_all_from` (`geometry/pose3.pyx:54-57`) on the columns of a 3×n array (the assertion
on the shape holds by construction). -/
def transformAllFrom (a : Pose3 K) (p : List (Vec3 K)) : List (Vec3 K) :=
  (Rot3.applyAll a.R p).map (fun v => v + a.t)

/-- `Pose3.transform_to` (`geometry/pose3.pyx:71-73`). -/
def transformTo (a : Pose3 K) (q : Vec3 K) : Vec3 K := Rot3.unrotate a.R (q - a.t)

/-- `Pose3.transform_all_to` (`geometry/pose3.pyx:75-78`). -/
def transformAllTo (a : Pose3 K) (q : List (Vec3 K)) : List (Vec3 K) :=
  Rot3.unrotateAll a.R (q.map (fun v => v - a.t))

/-- `Pose3.matrix34` (`geometry/pose3.pyx:80-81`): the list of the three rows. -/
def matrix34 (a : Pose3 K) : List (List K) :=
  [[a.R.m00, a.R.m01, a.R.m02, a.t.x],
   [a.R.m10, a.R.m11, a.R.m12, a.t.y],
   [a.R.m20, a.R.m21, a.R.m22, a.t.z]]

/-- `Pose3.matrix` (`geometry/pose3.pyx:83-84`): the list of the four rows. -/
def matrix (a : Pose3 K) : List (List K) := matrix34 a ++ [[0, 0, 0, 1]]

/-- `Pose3.FromMatrix34` (`geometry/pose3.pyx:103-107`) on a list of rows; `ValueError` unless 3×4. -/
def fromMatrix34 (T : List (List K)) : Except PyErr (Pose3 K) :=
  match T with
  | [[a, b, c, x], [d, e, f, y], [g, h, i, z]] => .ok ⟨⟨a, b, c, d, e, f, g, h, i⟩, ⟨x, y, z⟩⟩
  | _ => .error .valueError
end

/-- `Pose3.ENU_camera` (`geometry/pose3.pyx:109-120`). -/
noncomputable def ENU_camera (roll pitch yaw : ℝ) (position : Vec3 ℝ) : Pose3 ℝ :=
  ⟨Rot3.ENU_camera roll pitch yaw, position⟩

/-- `Pose3.Maya_camera` (`geometry/pose3.pyx:122-134`). -/
noncomputable def Maya_camera (roll pitch yaw : ℝ) (position : Vec3 ℝ) : Pose3 ℝ :=
  ⟨Rot3.Maya_camera roll pitch yaw, position⟩

end Pose3

/-- What `Pose3.__mul__` accepts on its right (`geometry/pose3.pyx:59-69`): a pose, a 3-vector, a
3×n array. Arrays of another shape fail the assertions. -/
inductive PoseArg (K : Type) where
  | pose (p : Pose3 K)
  | vec (l : List K)
  | points (rows : Nat) (cols : List (List K))
  deriving DecidableEq

/-- A column of a 3×n array as a vector. -/
def vec3OfList? {K : Type} : List K → Option (Vec3 K)
  | [a, b, c] => some ⟨a, b, c⟩
  | _ => none

/-- `Pose3.__mul__` (`geometry/pose3.pyx:59-69`).  A 1-D array of `l` numbers has `shape[0] = len(l)`. For a
2-D array, `rows` is `shape[0]`, each element of `cols` one column (of length `rows`). -/
def Pose3.mul {K : Type} [CommRing K] (a : Pose3 K) : PoseArg K → Except PyErr (PoseArg K)
  | .pose b => .ok (.pose (a.compose b))
  | .vec l =>
    match vec3OfList? l with
    | some v => let w := a.transformFrom v; .ok (.vec [w.x, w.y, w.z])
    | none => .error .assertionError
  | .points rows cols =>
    if rows ≠ 3 then .error .assertionError else
    match cols.mapM vec3OfList? with
    | some vs => .ok (.points 3 ((a.transformAllFrom vs).map (fun w => [w.x, w.y, w.z])))
    | none => .error .assertionError

end Sumo
