import Verif.Model.FloatVoxel
import Verif.Model.Geometry

/-!
# Rotations and poses in machine precision

`sumo-api/sumo/geometry/rot3.pyx` and `sumo-api/sumo/geometry/pose3.pyx` with every operation rounded.  Library code is a
parameter: `np.dot` (`Products`), and `math.sin` and `math.cos` (`Trig`).
-/

namespace Sumo
namespace Fl

/-- `np.dot` of a 3×3 matrix with a 3-vector, with a 3×n array and with a 3×3 matrix. -/
structure Products where
  vec : Mat3 ℚ → Vec3 ℚ → Vec3 ℚ
  all : Mat3 ℚ → List (Vec3 ℚ) → List (Vec3 ℚ)
  mat : Mat3 ℚ → Mat3 ℚ → Mat3 ℚ

/-- `math.sin` and `math.cos`. -/
structure Trig where
  sin : ℚ → ℚ
  cos : ℚ → ℚ

/-- `numpy` elementwise `+` of two 3-vectors, rounded. -/
def plus (a b : Vec3 ℚ) : Vec3 ℚ := ⟨double (a.x + b.x), double (a.y + b.y), double (a.z + b.z)⟩

/-- `numpy` elementwise `-` of two 3-vectors, rounded. -/
def minus (a b : Vec3 ℚ) : Vec3 ℚ := ⟨double (a.x - b.x), double (a.y - b.y), double (a.z - b.z)⟩

namespace Rot3

/-- `Rot3.Rx` (`geometry/rot3.pyx:78-81`). -/
def Rx (T : Trig) (t : ℚ) : Rot3 ℚ := Sumo.Rot3.fromScalars 1 0 0 0 (T.cos t) (-T.sin t) 0 (T.sin t) (T.cos t)

/-- `Rot3.Ry` (`geometry/rot3.pyx:83-86`). -/
def Ry (T : Trig) (t : ℚ) : Rot3 ℚ := Sumo.Rot3.fromScalars (T.cos t) 0 (T.sin t) 0 1 0 (-T.sin t) 0 (T.cos t)

/-- `Rot3.Rz` (`geometry/rot3.pyx:88-91`). -/
def Rz (T : Trig) (t : ℚ) : Rot3 ℚ := Sumo.Rot3.fromScalars (T.cos t) (-T.sin t) 0 (T.sin t) (T.cos t) 0 0 0 1

/-- `Rot3.ENU_camera` (`geometry/rot3.pyx:126-135`). -/
def ENU_camera (D : Products) (T : Trig) (roll pitch yaw : ℚ) : Rot3 ℚ :=
  D.mat (D.mat (D.mat Sumo.Rot3.ENU_R_CAMERA (Ry T yaw)) (Rx T pitch)) (Rz T roll)

/-- `Rot3.Maya_camera` (`geometry/rot3.pyx:137-147`). -/
def Maya_camera (D : Products) (T : Trig) (roll pitch yaw : ℚ) : Rot3 ℚ :=
  D.mat (D.mat (D.mat Sumo.Rot3.MAYA_R_CAMERA (Ry T yaw)) (Rx T pitch)) (Rz T roll)

end Rot3

namespace Pose3

/-- `Pose3.compose` (`geometry/pose3.pyx:43-44`). -/
def compose (D : Products) (a b : Pose3 ℚ) : Pose3 ℚ := ⟨D.mat a.R b.R, plus (D.vec a.R b.t) a.t⟩

/-- `Pose3.inverse` (`geometry/pose3.pyx:46-48`). -/
def inverse (D : Products) (a : Pose3 ℚ) : Pose3 ℚ := ⟨a.R.transpose, -(D.vec a.R.transpose a.t)⟩

/-- `Pose3.transform_from` (`geometry/pose3.pyx:50-52`). -/
def transformFrom (D : Products) (a : Pose3 ℚ) (p : Vec3 ℚ) : Vec3 ℚ := plus (D.vec a.R p) a.t

/-- `Pose3.transform_all_from` (`geometry/pose3.pyx:54-57`) on the columns of an array. -/
def transformAllFrom (D : Products) (a : Pose3 ℚ) (p : List (Vec3 ℚ)) : List (Vec3 ℚ) := (D.all a.R p).map fun v => plus v a.t

/-- `Pose3.transform_to` (`geometry/pose3.pyx:71-73`) with `Rot3.unrotate` (`geometry/rot3.pyx:50-52`). -/
def transformTo (D : Products) (a : Pose3 ℚ) (q : Vec3 ℚ) : Vec3 ℚ := D.vec a.R.transpose (minus q a.t)

/-- `Pose3.transform_all_to` (`geometry/pose3.pyx:75-78`) on the columns of an array. -/
def transformAllTo (D : Products) (a : Pose3 ℚ) (q : List (Vec3 ℚ)) : List (Vec3 ℚ) :=
  D.all a.R.transpose (q.map fun v => minus v a.t)

/-- `Pose3.ENU_camera` (`geometry/pose3.pyx:109-120`): the angles are declared `float` (110), which in Cython is a C `float`, so they
are rounded to single precision first. -/
def ENU_camera (D : Products) (T : Trig) (roll pitch yaw : ℚ) (position : Vec3 ℚ) : Pose3 ℚ :=
  ⟨Rot3.ENU_camera D T (single roll) (single pitch) (single yaw), position⟩

/-- `Pose3.Maya_camera` (`geometry/pose3.pyx:122-134`): as above (123). -/
def Maya_camera (D : Products) (T : Trig) (roll pitch yaw : ℚ) (position : Vec3 ℚ) : Pose3 ℚ :=
  ⟨Rot3.Maya_camera D T (single roll) (single pitch) (single yaw), position⟩

end Pose3
end Fl
end Sumo
