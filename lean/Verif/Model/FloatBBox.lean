import Verif.Model.BBox
import Verif.Model.FloatPose

/-!
# The bounding-box track in machine precision

`sumo-api/sumo/metrics/bb_evaluator.py` with every operation rounded.  The matrix product is library code: a parameter `mul`
(see `Model/FloatPose.lean`).  So are the volumes pymesh computes: `vol` of a solid, and `interVol` of the intersection of two.
-/

namespace Sumo
namespace Fl

/-- `e.posed_bbox` (`metrics/bb_evaluator.py:37-44`). -/
def posedBbox (mul : Mat3 ℚ → List (Vec3 ℚ) → List (Vec3 ℚ)) (R : Mat3 ℚ) (t : Vec3 ℚ) (bounds : Box3d ℚ) : Box3d ℚ :=
  bboxOfPoints (transformAllFrom mul R t bounds.corners)

/-- `_bbox2pymesh` (`metrics/bb_evaluator.py:110-128`): vertices and faces.  The product `pose * corners` calls
`transform_all_from` (`geometry/pose3.pyx:59-69`). -/
def bbox2pymesh (mul : Mat3 ℚ → List (Vec3 ℚ) → List (Vec3 ℚ)) (R : Mat3 ℚ) (t : Vec3 ℚ) (bounds : Box3d ℚ) :
    List (Vec3 ℚ) × List ℕ :=
  (transformAllFrom mul R t bounds.corners, bboxFaces)

/-- The last three lines of `_shape_similarity` (`metrics/bb_evaluator.py:105-107`): `v1`, `v2` and `i` are the three volumes.
`none` is the NaN of a division by zero. -/
def bbIou (v1 v2 i : ℚ) : Option ℚ :=
  let intersection := |i|
  let union := double (double (|v1| + |v2|) - intersection)
  if union = 0 then none else some (double (intersection / union))

/-- `BBEvaluator._shape_similarity` (`metrics/bb_evaluator.py:75-107`). -/
def bbSimilarity (mul : Mat3 ℚ → List (Vec3 ℚ) → List (Vec3 ℚ))
    (vol : List (Vec3 ℚ) × List ℕ → ℚ) (interVol : List (Vec3 ℚ) × List ℕ → List (Vec3 ℚ) × List ℕ → ℚ)
    (e1 e2 : BoxedElement ℚ) : Option ℚ :=
  if bbReject (posedBbox mul e1.pose.R e1.pose.t e1.bounds) (posedBbox mul e2.pose.R e2.pose.t e2.bounds) then some 0 else
  let box1 := bbox2pymesh mul e1.pose.R e1.pose.t e1.bounds
  let box2 := bbox2pymesh mul e2.pose.R e2.pose.t e2.bounds
  bbIou (vol box1) (vol box2) (interVol box1 box2)

end Fl
end Sumo
