import Verif.Model.Geometry
import Mathlib.Analysis.SpecialFunctions.Trigonometric.Inverse
import Mathlib.Analysis.SpecialFunctions.Complex.Arg

/-!
# Rotation representations

Model of `sumo-api/sumo/metrics/utils.py:61-209` (quaternions, Euler angles) over the real numbers, and of
Eigen's matrix/quaternion conversions used by `sumo-api/sumo/geometry/quaternion.pyx`.
`math.atan2 y x` is `Complex.arg (x + y i)` (same value everywhere, including `atan2 0 0 = 0`).
-/

namespace Sumo

/-- A quaternion `(w, i, j, k)` (`metrics/utils.py:69`). -/
@[ext] structure Quat (K : Type) where
  w : K
  x : K
  y : K
  z : K

/-- ZYX Euler angles; index 0 of the numpy vector is `z` (`metrics/utils.py:138`). -/
@[ext] structure Euler where
  z : ℝ
  y : ℝ
  x : ℝ

/-- `math.atan2(y, x)`. -/
noncomputable def atan2 (y x : ℝ) : ℝ := Complex.arg ⟨x, y⟩

/-- The final normalisation of `matrix_to_quat` (`metrics/utils.py:105-106`). -/
noncomputable def quatNormalize (q : Quat ℝ) : Quat ℝ :=
  let D := Real.sqrt (q.w ^ 2 + q.x ^ 2 + q.y ^ 2 + q.z ^ 2)
  ⟨q.w / D, q.x / D, q.y / D, q.z / D⟩

/-- `matrix_to_quat` (`metrics/utils.py:61-106`). -/
noncomputable def matrixToQuat (M : Mat3 ℝ) : Quat ℝ :=
  let tr := M.m00 + M.m11 + M.m22
  let q : Quat ℝ :=
    if tr > 0 then
      let S := Real.sqrt (tr + 1.0) * 2
      ⟨0.25 * S, (M.m21 - M.m12) / S, (M.m02 - M.m20) / S, (M.m10 - M.m01) / S⟩
    else if M.m00 > M.m11 ∧ M.m00 > M.m22 then
      let S := Real.sqrt (1.0 + M.m00 - M.m11 - M.m22) * 2
      ⟨(M.m21 - M.m12) / S, 0.25 * S, (M.m01 + M.m10) / S, (M.m02 + M.m20) / S⟩
    else if M.m11 > M.m22 then
      let S := Real.sqrt (1.0 + M.m11 - M.m00 - M.m22) * 2
      ⟨(M.m02 - M.m20) / S, (M.m01 + M.m10) / S, 0.25 * S, (M.m12 + M.m21) / S⟩
    else
      let S := Real.sqrt (1.0 + M.m22 - M.m00 - M.m11) * 2
      ⟨(M.m10 - M.m01) / S, (M.m02 + M.m20) / S, (M.m12 + M.m21) / S, 0.25 * S⟩
  quatNormalize q

/-- `quat_to_matrix` (`metrics/utils.py:109-126`). `o a b` is entry of the outer product of `sqrt(2)*quat`. -/
noncomputable def quatToMatrix (q : Quat ℝ) : Mat3 ℝ :=
  let s := Real.sqrt 2.0
  let w := s * q.w
  let x := s * q.x
  let y := s * q.y
  let z := s * q.z
  ⟨1 - y * y - z * z, x * y - z * w, x * z + y * w,
   x * y + z * w, 1.0 - x * x - z * z, y * z - x * w,
   x * z - y * w, y * z + x * w, 1.0 - x * x - y * y⟩

/-- `quat_to_euler` (`metrics/utils.py:129-150`). -/
noncomputable def quatToEuler (q : Quat ℝ) : Euler :=
  ⟨atan2 (2 * (q.x * q.y + q.w * q.z)) (q.w * q.w + q.x * q.x - q.y * q.y - q.z * q.z),
   Real.arcsin (-2 * (q.x * q.z - q.w * q.y)),
   atan2 (2 * (q.y * q.z + q.w * q.x)) (q.w * q.w - q.x * q.x - q.y * q.y + q.z * q.z)⟩

/-- `euler_to_quat` (`metrics/utils.py:153-174`). -/
noncomputable def eulerToQuat (e : Euler) : Quat ℝ :=
  let cz := Real.cos (0.5 * e.z)
  let sz := Real.sin (0.5 * e.z)
  let cy := Real.cos (0.5 * e.y)
  let sy := Real.sin (0.5 * e.y)
  let cx := Real.cos (0.5 * e.x)
  let sx := Real.sin (0.5 * e.x)
  ⟨cz * cy * cx + sz * sy * sx, cz * cy * sx - sz * sy * cx,
   cz * sy * cx + sz * cy * sx, sz * cy * cx - cz * sy * sx⟩

/-- `euler_to_matrix` (`metrics/utils.py:177-191`). -/
noncomputable def eulerToMatrix (e : Euler) : Mat3 ℝ :=
  Rot3.compose (Rot3.compose (Rot3.Rz e.z) (Rot3.Ry e.y)) (Rot3.Rx e.x)

/-- `matrix_to_euler` (`metrics/utils.py:194-209`). -/
noncomputable def matrixToEuler (M : Mat3 ℝ) : Euler := quatToEuler (matrixToQuat M)

/-! ### Eigen's conversions (`geometry/quaternion.pyx:32-48`, library code) -/

/-- `Quaterniond(Matrix3d)`: Eigen's `quaternionbase_assign_impl` (Shoemake), called at
`geometry/quaternion.pyx:36`. -/
noncomputable def eigenQuatOfMatrix (M : Mat3 ℝ) : Quat ℝ :=
  let t := M.m00 + M.m11 + M.m22
  if t > 0 then
    let s := Real.sqrt (t + 1)
    let r := 0.5 / s
    ⟨0.5 * s, (M.m21 - M.m12) * r, (M.m02 - M.m20) * r, (M.m10 - M.m01) * r⟩
  else if M.m11 > M.m00 then
    if M.m22 > M.m11 then
      let s := Real.sqrt (M.m22 - M.m00 - M.m11 + 1)
      let r := 0.5 / s
      ⟨(M.m10 - M.m01) * r, (M.m02 + M.m20) * r, (M.m12 + M.m21) * r, 0.5 * s⟩
    else
      let s := Real.sqrt (M.m11 - M.m22 - M.m00 + 1)
      let r := 0.5 / s
      ⟨(M.m02 - M.m20) * r, (M.m01 + M.m10) * r, 0.5 * s, (M.m21 + M.m12) * r⟩
  else if M.m22 > M.m00 then
    let s := Real.sqrt (M.m22 - M.m00 - M.m11 + 1)
    let r := 0.5 / s
    ⟨(M.m10 - M.m01) * r, (M.m02 + M.m20) * r, (M.m12 + M.m21) * r, 0.5 * s⟩
  else
    let s := Real.sqrt (M.m00 - M.m11 - M.m22 + 1)
    let r := 0.5 / s
    ⟨(M.m21 - M.m12) * r, 0.5 * s, (M.m10 + M.m01) * r, (M.m20 + M.m02) * r⟩

/-- `Quaternion.to_rotation_matrix` (`geometry/quaternion.pyx:46-48`): Eigen's `normalized().matrix()`.
A zero quaternion is left as it is by `normalized`. -/
noncomputable def eigenMatrixOfQuat (q : Quat ℝ) : Mat3 ℝ :=
  let n := q.w ^ 2 + q.x ^ 2 + q.y ^ 2 + q.z ^ 2
  let u : Quat ℝ := if n > 0 then
      ⟨q.w / Real.sqrt n, q.x / Real.sqrt n, q.y / Real.sqrt n, q.z / Real.sqrt n⟩ else q
  let tx := 2 * u.x
  let ty := 2 * u.y
  let tz := 2 * u.z
  ⟨1 - (ty * u.y + tz * u.z), ty * u.x - tz * u.w, tz * u.x + ty * u.w,
   ty * u.x + tz * u.w, 1 - (tx * u.x + tz * u.z), tz * u.y - tx * u.w,
   tz * u.x - ty * u.w, tz * u.y + tx * u.w, 1 - (tx * u.x + ty * u.y)⟩

end Sumo
