import Verif.Model.Track
import Verif.Spec.RotationError
import Verif.Spec.Geometry

/-!
# Vocabulary for statements about evaluator objects
-/

namespace Sumo
namespace Track

variable {ι σ : Type} [DecidableEq ι] [LinearOrder σ]

/-- A call of one of the constructors; `draws` are the random numbers it happens to get. -/
structure Call (ι : Type) where
  kind : Kind
  draws : ℕ → ℕ → ℝ × ℝ
  submission : SceneObj ι
  groundTruth : SceneObj ι
  settings : Option Ref

/-- The element objects of the two scenes of a call. -/
def Call.touches (c : Call ι) (r : Ref) : Prop := r ∈ c.submission.values ∨ r ∈ c.groundTruth.values

/-- The world after a sequence of constructor calls, whether they succeed or raise. -/
noncomputable def afterCalls (interVol : InterVol) (nn : List (Vec3 ℝ) → Vec3 ℝ → ℕ) (w : World ι σ) (cs : List (Call ι)) :
    World ι σ :=
  cs.foldl (fun w c => (construct interVol nn c.draws c.kind w c.submission c.groundTruth c.settings).1) w

/-- The element objects of an evaluator. -/
def Ev.uses (e : Ev ι σ) (r : Ref) : Prop := r ∈ e.submission.values ∨ r ∈ e.groundTruth.values

/-- Two scenes with the same ids, and for every id elements that agree in everything but the score. -/
structure IsCopy (w : World ι σ) (sub gt : SceneObj ι) : Prop where
  keys : ∀ k, (sub.get? k).isSome ↔ (gt.get? k).isSome
  same : ∀ k r r', sub.get? k = some r → gt.get? k = some r' →
    (w.elem r).category = (w.elem r').category ∧ (w.elem r).evaluated = (w.elem r').evaluated ∧
    (w.elem r).payload.bounds = (w.elem r').payload.bounds ∧ (w.elem r).payload.pose = (w.elem r').payload.pose ∧
    (w.elem r).payload.symmetry = (w.elem r').payload.symmetry ∧ (w.elem r).payload.shape = (w.elem r').payload.shape

/-- What the metrics expect of an element: a rotation in its pose, a symmetry the constructor admits, and no cylinder axis in
gimbal lock (C28). -/
def FitElement (o : Obj ι σ Fields) : Prop :=
  IsRotation o.payload.pose.R ∧ RotSpec.Admitted o.payload.symmetry ∧
  (RotSpec.NoCylinder o.payload.symmetry ∨ o.payload.pose.R.m20 ^ 2 ≠ 1)

/-- What the metrics expect of a ground truth scene: fit elements, and floors that are evaluated and do have an area. -/
structure FitScene (w : World ι σ) (gt : SceneObj ι) : Prop where
  fit : ∀ r ∈ gt.values, FitElement (w.elem r)
  floors : ∀ r ∈ gt.values, (w.elem r).category = "floor" → (w.elem r).evaluated = true ∧
    (w.elem r).payload.bounds.minCorner.x ≤ (w.elem r).payload.bounds.maxCorner.x ∧
    (w.elem r).payload.bounds.minCorner.z ≤ (w.elem r).payload.bounds.maxCorner.z
  floor : ∃ r ∈ gt.values, (w.elem r).category = "floor" ∧
    (w.elem r).payload.bounds.minCorner.x < (w.elem r).payload.bounds.maxCorner.x ∧
    (w.elem r).payload.bounds.minCorner.z < (w.elem r).payload.bounds.maxCorner.z

/-- Number of evaluated elements of a scene. -/
def World.countEvaluated (w : World ι σ) (gt : SceneObj ι) : ℕ :=
  (gt.values.filter fun r => (w.elem r).evaluated).length

end Track
end Sumo
