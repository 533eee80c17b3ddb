import Verif.Model.Double
import Verif.Model.PoseError

/-!
# Rotation conversions and pose error in double precision

Model of `sumo-api/sumo/metrics/utils.py:61-209` and `evaluator.py:321-445` as `Verif.Model.Rotation` and
`Verif.Model.PoseError`, with every arithmetic operation rounded.  The functions of the C library, matrix products and scipy's
`logm` are parameters (`Libm`): which numbers they return does not matter here, only which calls raise.
-/

namespace Sumo

/-- `np.sqrt` of a positive number: the exact root rounded to 53 bits, to nearest.  `Nat.sqrt` rounds down. -/
def sqrtD (x : ℚ) : ℚ :=
  let k := Int.log 2 x / 2 - 52
  let y := x / 4 ^ k
  let n := Nat.sqrt ⌊y⌋.toNat
  let m : ℕ := if y < (n + 1 / 2 : ℚ) ^ 2 then n else if (n + 1 / 2 : ℚ) ^ 2 < y then n + 1 else if n % 2 = 0 then n else n + 1
  m * 2 ^ k

namespace Fl

/-- Library functions: `math.sin`, `math.cos`, `math.asin` (within its domain), `math.atan2`; the product of 3×3 matrices;
`np.linalg.norm(logm(M))`; the norm of a vector; the mean of a list that is not empty. -/
structure Libm where
  sin : ℚ → ℚ
  cos : ℚ → ℚ
  asin : ℚ → ℚ
  atan2 : ℚ → ℚ → ℚ
  mul : Mat3 ℚ → Mat3 ℚ → Mat3 ℚ
  logNorm : Mat3 ℚ → ℚ
  norm : Vec3 ℚ → ℚ
  mean : List ℚ → ℚ
  halfSqrt : ℚ
  pi : ℚ

/-- ZYX Euler angles as doubles; see `Sumo.Euler` (`metrics/utils.py:138`). -/
structure Euler where
  z : ℚ
  y : ℚ
  x : ℚ

/-- The final normalisation of `matrix_to_quat` (`metrics/utils.py:105-106`).  `qw**2` is the rounded product. -/
def quatNormalize (q : Quat ℚ) : Quat ℚ :=
  let D := sqrtD (double (double (double (double (q.w * q.w) + double (q.x * q.x)) + double (q.y * q.y)) + double (q.z * q.z)))
  ⟨double (q.w / D), double (q.x / D), double (q.y / D), double (q.z / D)⟩

/-- `matrix_to_quat` (`metrics/utils.py:61-106`). -/
def matrixToQuat (M : Mat3 ℚ) : Quat ℚ :=
  let tr := double (double (M.m00 + M.m11) + M.m22)
  let q : Quat ℚ :=
    if tr > 0 then
      let S := double (sqrtD (double (tr + 1.0)) * 2)
      ⟨double (0.25 * S), double (double (M.m21 - M.m12) / S), double (double (M.m02 - M.m20) / S), double (double (M.m10 - M.m01) / S)⟩
    else if M.m00 > M.m11 ∧ M.m00 > M.m22 then
      let S := double (sqrtD (double (double (double (1.0 + M.m00) - M.m11) - M.m22)) * 2)
      ⟨double (double (M.m21 - M.m12) / S), double (0.25 * S), double (double (M.m01 + M.m10) / S), double (double (M.m02 + M.m20) / S)⟩
    else if M.m11 > M.m22 then
      let S := double (sqrtD (double (double (double (1.0 + M.m11) - M.m00) - M.m22)) * 2)
      ⟨double (double (M.m02 - M.m20) / S), double (double (M.m01 + M.m10) / S), double (0.25 * S), double (double (M.m12 + M.m21) / S)⟩
    else
      let S := double (sqrtD (double (double (double (1.0 + M.m22) - M.m00) - M.m11)) * 2)
      ⟨double (double (M.m10 - M.m01) / S), double (double (M.m02 + M.m20) / S), double (double (M.m12 + M.m21) / S), double (0.25 * S)⟩
  quatNormalize q

/-- The argument of `math.asin` in `quat_to_euler` (`metrics/utils.py:148`). -/
def asinArg (q : Quat ℚ) : ℚ := double (-2 * double (double (q.x * q.z) - double (q.w * q.y)))

/-- `math.asin` (`metrics/utils.py:148`): `ValueError: math domain error` outside `[-1, 1]`. -/
def pyAsin (L : Libm) (x : ℚ) : Except PyErr ℚ := if |x| ≤ 1 then .ok (L.asin x) else .error .valueError

/-- `quat_to_euler` (`metrics/utils.py:129-150`). -/
def quatToEuler (L : Libm) (q : Quat ℚ) : Except PyErr Euler := do
  let y ← pyAsin L (asinArg q)
  let ww := double (q.w * q.w)
  let xx := double (q.x * q.x)
  let yy := double (q.y * q.y)
  let zz := double (q.z * q.z)
  return ⟨L.atan2 (double (2 * double (double (q.x * q.y) + double (q.w * q.z)))) (double (double (double (ww + xx) - yy) - zz)), y,
    L.atan2 (double (2 * double (double (q.y * q.z) + double (q.w * q.x)))) (double (double (double (ww - xx) - yy) + zz))⟩

/-- `matrix_to_euler` (`metrics/utils.py:194-209`). -/
def matrixToEuler (L : Libm) (M : Mat3 ℚ) : Except PyErr Euler := quatToEuler L (matrixToQuat M)

/-- `axis_rot_func[axis]` (`metrics/evaluator.py:420`, `geometry/rot3.pyx:78-91`). -/
def axisRot (L : Libm) (axis : Fin 3) (t : ℚ) : Mat3 ℚ :=
  let s := L.sin t
  let c := L.cos t
  match axis with
  | 0 => ⟨1, 0, 0, 0, c, -s, 0, s, c⟩
  | 1 => ⟨c, 0, s, 0, 1, 0, -s, 0, c⟩
  | 2 => ⟨c, -s, 0, s, c, 0, 0, 0, 1⟩

/-- `euler_to_matrix` (`metrics/utils.py:177-191`). -/
def eulerToMatrix (L : Libm) (e : Euler) : Mat3 ℚ := L.mul (L.mul (axisRot L 2 e.z) (axisRot L 1 e.y)) (axisRot L 0 e.x)

/-- `symmetric_rot` (`metrics/evaluator.py:411-421`). -/
def symmetricRot (L : Libm) (rot : Mat3 ℚ) (axis : Fin 3) (rotation : ℚ) : Mat3 ℚ := L.mul rot (axisRot L axis rotation)

/-- `e[2 - axis] = v` (`metrics/evaluator.py:444`). -/
def Euler.setAxis (e : Euler) (axis : Fin 3) (v : ℚ) : Euler :=
  match axis with
  | 0 => { e with x := v }
  | 1 => { e with y := v }
  | 2 => { e with z := v }

/-- `e[2 - axis]` (`metrics/evaluator.py:444`). -/
def Euler.getAxis (e : Euler) (axis : Fin 3) : ℚ :=
  match axis with
  | 0 => e.x
  | 1 => e.y
  | 2 => e.z

/-- `cylindrical_symmetric_rot` (`metrics/evaluator.py:423-445`). -/
def cylindricalSymmetricRot (L : Libm) (detRot gtRot : Mat3 ℚ) (axis : Fin 3) : Except PyErr (Mat3 ℚ) := do
  let detEuler ← matrixToEuler L detRot
  let gtEuler ← matrixToEuler L gtRot
  return eulerToMatrix L (gtEuler.setAxis axis (detEuler.getAxis axis))

/-- The loop of `rotation_error_1` over the axes (`metrics/evaluator.py:382-402`); `none` is the early `return 0`. -/
def rotsToCheck (L : Libm) (det : Mat3 ℚ) : List (Fin 3 × SymmetryType) → List (Mat3 ℚ) → Except PyErr (Option (List (Mat3 ℚ)))
  | [], rots => .ok (some rots)
  | (axis, sym) :: rest, rots =>
    match sym with
    | .spherical => .ok none
    | .twoFold => rotsToCheck L det rest (rots ++ rots.map (fun r => symmetricRot L r axis L.pi))
    | .fourFold => rotsToCheck L det rest (rots ++
        (rots.map (fun r => symmetricRot L r axis (double (0.5 * L.pi))) ++ rots.map (fun r => symmetricRot L r axis L.pi) ++
         rots.map (fun r => symmetricRot L r axis (double (1.5 * L.pi)))))
    | .cylindrical => do
      let rots' ← rots.mapM (fun r => cylindricalSymmetricRot L det r axis)
      rotsToCheck L det rest rots'
    | .none => rotsToCheck L det rest rots

/-- Python's `min(l)` (`metrics/evaluator.py:409`). -/
def pyMin : List ℚ → Except PyErr ℚ
  | [] => .error .valueError
  | a :: l => .ok (l.foldl min a)

/-- `rotation_error_1` (`metrics/evaluator.py:366-409`). -/
def rotationError1 (L : Libm) (det gt : Mat3 ℚ) (sym : ObjectSymmetry) : Except PyErr ℚ := do
  match ← rotsToCheck L det [(0, sym.x), (1, sym.y), (2, sym.z)] [gt] with
  | none => .ok 0
  | some rots => pyMin (rots.map (fun r => double (L.halfSqrt * L.logNorm (L.mul det.transpose r))))

/-- The attributes of `ProjectObject` (`semantic/project_object.py:34-52`) used by `pose_error`, besides those in `Obj`. -/
structure Payload where
  R : Mat3 ℚ
  t : Vec3 ℚ
  symmetry : ObjectSymmetry

variable {ι σ τ : Type} [DecidableEq ι] [LinearOrder σ] [LinearOrder τ]

/-- The correspondence loop of `pose_error` at one threshold (`metrics/evaluator.py:343-356`). -/
def poseErrors1 (L : Libm) (ev : Evaluator ι σ τ Payload) (corrs : List (Corr ι σ τ)) : Except PyErr (List (ℚ × ℚ)) :=
  corrs.foldlM (fun acc corr => do
    let det ← ev.submission.get corr.detId
    let gt ← ev.groundTruth.get corr.gtId
    if gt.evaluated then do
      let r ← rotationError1 L det.payload.R gt.payload.R gt.payload.symmetry
      let d := gt.payload.t - det.payload.t
      pure (acc ++ [(r, L.norm ⟨double d.x, double d.y, double d.z⟩)])
    else pure acc) []

/-- `pose_error` (`metrics/evaluator.py:321-364`).  `none` is `(math.inf, math.inf)`. -/
def poseError (L : Libm) (ev : Evaluator ι σ τ Payload) : Except PyErr (Option (ℚ × ℚ)) := do
  let errs ← ev.settings.thresholds.foldlM (fun acc t => do
    let a ← ev.agnostic.get t
    let errs1 ← poseErrors1 L ev a.values
    if errs1.length > 0 then pure (acc ++ [(L.mean (errs1.map Prod.fst), L.mean (errs1.map Prod.snd))])
    else pure acc) []
  if errs.length = 0 then return none
  else return some (L.mean (errs.map Prod.fst), L.mean (errs.map Prod.snd))

end Fl
end Sumo
