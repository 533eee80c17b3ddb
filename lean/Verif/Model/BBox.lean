import Verif.Model.Box
import Verif.Model.Geometry

/-!
# The bounding-box track

Model of `sumo-api/sumo/metrics/bb_evaluator.py`.  `pymesh.boolean` and `Mesh.volume` are not modelled: the volume of
the intersection solid is a parameter `interVol`, the volume of a solid is the signed tetrahedron sum
(pymesh's definition).
-/

namespace Sumo
variable {K : Type} [Field K] [LinearOrder K]

/-- The part of a `ProjectObject` this track uses (`semantic/project_object.py:34-52`). -/
structure BoxedElement (K : Type) where
  bounds : Box3d K
  pose : Pose3 K

/-- `e.posed_bbox` (`metrics/bb_evaluator.py:37-44`). -/
def posedBbox (e : BoxedElement K) : Box3d K :=
  bboxOfPoints (e.pose.transformAllFrom e.bounds.corners)

/-- The quick rejection (`metrics/bb_evaluator.py:89-96`): the loop over the three axes. -/
def bbReject (b1 b2 : Box3d K) : Bool :=
  [(b1.minCorner.x, b1.maxCorner.x, b2.minCorner.x, b2.maxCorner.x),
   (b1.minCorner.y, b1.maxCorner.y, b2.minCorner.y, b2.maxCorner.y),
   (b1.minCorner.z, b1.maxCorner.z, b2.minCorner.z, b2.maxCorner.z)].any
    fun (min1, max1, min2, max2) => decide (min1 > max2) || decide (min2 > max1)

/-- The face table of `_bbox2pymesh` (`metrics/bb_evaluator.py:123-126`), flattened. -/
def bboxFaces : List ℕ :=
  [0, 1, 2, 0, 2, 3, 3, 2, 7, 3, 7, 4,
   4, 7, 6, 4, 6, 5, 5, 6, 1, 5, 1, 0,
   0, 3, 4, 0, 4, 5, 1, 6, 7, 1, 7, 2]

/-- `_bbox2pymesh` (`metrics/bb_evaluator.py:110-128`): vertices and faces. -/
def bbox2pymesh (e : BoxedElement K) : List (Vec3 K) × List ℕ :=
  (e.pose.transformAllFrom e.bounds.corners, bboxFaces)

/-- `mesh.volume` of pymesh: the sum of the signed volumes of the tetrahedra spanned by the origin and a face. Faces with an
index out of range do not occur in the table above. -/
def meshVolume (vs : List (Vec3 K)) : List ℕ → K
  | i :: j :: k :: rest =>
    Vec3.dot (vs[i]?.getD 0) (Vec3.cross (vs[j]?.getD 0) (vs[k]?.getD 0)) / 6 + meshVolume vs rest
  | _ => 0

/-- `BBEvaluator._shape_similarity` (`metrics/bb_evaluator.py:75-107`).  `interVol m1 m2` stands for
`inter_mesh.volume`. `none` is the NaN of a division by zero. -/
def bbSimilarity (interVol : List (Vec3 K) × List ℕ → List (Vec3 K) × List ℕ → K)
    (e1 e2 : BoxedElement K) : Option K :=
  if bbReject (posedBbox e1) (posedBbox e2) then some 0 else
  let box1 := bbox2pymesh e1
  let box2 := bbox2pymesh e2
  let intersection := |interVol box1 box2|
  let union := |meshVolume box1.1 box1.2| + |meshVolume box2.1 box2.2| - intersection
  if union = 0 then none else some (intersection / union)

end Sumo
