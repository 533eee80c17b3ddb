import Verif.Model.Rotation
import Verif.Model.Symmetry
import Verif.Model.Assoc
import Verif.Model.Box

/-!
# Rotation error and pose error

Model of `sumo-api/sumo/metrics/evaluator.py:321-445`, over the real numbers.
-/

namespace Sumo

/-- The attributes of `ProjectObject` (`semantic/project_object.py:34-52`) used by the pose and perceptual
metrics, besides those in `Obj`. -/
structure Payload where
  bounds : Box3d ℝ
  pose : Pose3 ℝ
  symmetry : ObjectSymmetry

/-- `np.sqrt(0.5) * np.linalg.norm(logm(np.matmul(A.T, B)))` (`metrics/evaluator.py:405-408`). scipy's `logm`
is library code; for a rotation by an angle `θ ∈ [0, π]` the Frobenius norm of the principal logarithm is `√2 θ`,
so the expression is the rotation angle of `Aᵀ B`, computed here from the trace. -/
noncomputable def geodesic (A B : Rot3 ℝ) : ℝ := Real.arccos (((A.transpose.mul B).trace - 1) / 2)

/-- `axis_rot_func[axis]` (`metrics/evaluator.py:420`). -/
noncomputable def axisRot (axis : Fin 3) (a : ℝ) : Rot3 ℝ :=
  match axis with
  | 0 => Rot3.Rx a
  | 1 => Rot3.Ry a
  | 2 => Rot3.Rz a

/-- `symmetric_rot` (`metrics/evaluator.py:411-421`). -/
noncomputable def symmetricRot (rot : Rot3 ℝ) (axis : Fin 3) (rotation : ℝ) : Rot3 ℝ :=
  Rot3.compose rot (axisRot axis rotation)

/-- `e[2 - axis] = v` on a zyx Euler vector (`metrics/evaluator.py:444`). -/
def Euler.setAxis (e : Euler) (axis : Fin 3) (v : ℝ) : Euler :=
  match axis with
  | 0 => { e with x := v }
  | 1 => { e with y := v }
  | 2 => { e with z := v }

/-- `e[2 - axis]` on a zyx Euler vector (`metrics/evaluator.py:444`). -/
def Euler.getAxis (e : Euler) (axis : Fin 3) : ℝ :=
  match axis with
  | 0 => e.x
  | 1 => e.y
  | 2 => e.z

/-- `cylindrical_symmetric_rot` (`metrics/evaluator.py:423-445`). -/
noncomputable def cylindricalSymmetricRot (detRot gtRot : Rot3 ℝ) (axis : Fin 3) : Rot3 ℝ :=
  let detEuler := matrixToEuler detRot
  let gtEuler := matrixToEuler gtRot
  eulerToMatrix (gtEuler.setAxis axis (detEuler.getAxis axis))

/-- The loop of `rotation_error_1` over the axes (`metrics/evaluator.py:382-402`); `none` is the early
`return 0`. -/
noncomputable def rotsToCheck (det : Rot3 ℝ) : List (Fin 3 × SymmetryType) → List (Rot3 ℝ) →
    Option (List (Rot3 ℝ))
  | [], rots => some rots
  | (axis, sym) :: rest, rots =>
    match sym with
    | .spherical => none
    | .twoFold => rotsToCheck det rest (rots ++ rots.map (fun r => symmetricRot r axis Real.pi))
    | .fourFold => rotsToCheck det rest (rots ++
        (rots.map (fun r => symmetricRot r axis (0.5 * Real.pi)) ++
         rots.map (fun r => symmetricRot r axis Real.pi) ++
         rots.map (fun r => symmetricRot r axis (1.5 * Real.pi))))
    | .cylindrical => rotsToCheck det rest (rots.map (fun r => cylindricalSymmetricRot det r axis))
    | .none => rotsToCheck det rest rots

/-- Python's `min(l)`. -/
noncomputable def pyMin : List ℝ → Except PyErr ℝ
  | [] => .error .valueError
  | a :: l => .ok (l.foldl min a)

/-- `rotation_error_1` (`metrics/evaluator.py:366-409`) from the rotation of the detection, and the rotation and
symmetry of the ground truth element. -/
noncomputable def rotationError1 (det gt : Rot3 ℝ) (sym : ObjectSymmetry) : Except PyErr ℝ :=
  match rotsToCheck det [(0, sym.x), (1, sym.y), (2, sym.z)] [gt] with
  | none => .ok 0
  | some rots => pyMin (rots.map (fun r => geodesic det r))

/-- `np.linalg.norm` of a 3-vector. -/
noncomputable def Vec3.norm (v : Vec3 ℝ) : ℝ := Real.sqrt v.normSq

/-- `np.mean` of a non-empty list (the only way `pose_error` calls it). -/
noncomputable def meanR (l : List ℝ) : ℝ := l.sum / l.length

variable {ι σ τ : Type} [DecidableEq ι] [LinearOrder σ] [LinearOrder τ]

/-- The correspondence loop of `pose_error` at one threshold (`metrics/evaluator.py:343-356`): the list of
(rotation error, translation error). -/
noncomputable def poseErrors1 (ev : Evaluator ι σ τ Payload) (corrs : List (Corr ι σ τ)) :
    Except PyErr (List (ℝ × ℝ)) :=
  corrs.foldlM (fun acc corr => do
    let det ← ev.submission.get corr.detId
    let gt ← ev.groundTruth.get corr.gtId
    if gt.evaluated then do
      let r ← rotationError1 det.payload.pose.R gt.payload.pose.R gt.payload.symmetry
      pure (acc ++ [(r, (gt.payload.pose.t - det.payload.pose.t).norm)])
    else pure acc) []

/-- `pose_error` (`metrics/evaluator.py:321-364`). `none` is `(math.inf, math.inf)`. -/
noncomputable def poseError (ev : Evaluator ι σ τ Payload) : Except PyErr (Option (ℝ × ℝ)) := do
  let errs ← ev.settings.thresholds.foldlM (fun acc t => do
    let a ← ev.agnostic.get t
    let errs1 ← poseErrors1 ev a.values
    if errs1.length > 0 then
      pure (acc ++ [(meanR (errs1.map Prod.fst), meanR (errs1.map Prod.snd))])
    else pure acc) []
  if errs.length = 0 then return none
  else return some (meanR (errs.map Prod.fst), meanR (errs.map Prod.snd))

end Sumo
