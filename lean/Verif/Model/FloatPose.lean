import Verif.Model.FloatPoints
import Verif.Model.FloatVoxel
import Verif.Model.Geometry

/-!
# Posed points and boxes in machine precision

`sumo-api/sumo/geometry/pose3.pyx:54-57`, and what the constructors of the voxel and mesh evaluators store in the elements, with
every operation rounded.  The product of a 3×3 matrix and a 3×n array is library code (BLAS): a parameter `mul`.  The order of its
additions is not fixed, and may depend on `n`; theorems assume of it how accurate it is, or that it treats every column alike.
-/

namespace Sumo
namespace Fl

/-- `Pose3.transform_all_from` (`geometry/pose3.pyx:54-57`) on the columns of an array. -/
def transformAllFrom (mul : Mat3 ℚ → List (Vec3 ℚ) → List (Vec3 ℚ)) (R : Mat3 ℚ) (t : Vec3 ℚ) (p : List (Vec3 ℚ)) : List (Vec3 ℚ) :=
  (mul R p).map fun v => ⟨double (v.x + t.x), double (v.y + t.y), double (v.z + t.z)⟩

/-- `posed_points` and `posed_bbox` of an element of the voxel track (`metrics/voxel_evaluator.py:38-43`, 44-49). -/
def posedVoxels (mul : Mat3 ℚ → List (Vec3 ℚ) → List (Vec3 ℚ)) (R : Mat3 ℚ) (t : Vec3 ℚ) (g : Grid) :
    Except PyErr (List (Vec3 ℚ) × Box3d ℚ) :=
  let points := transformAllFrom mul R t (voxelCenters g)
  match bounds g with
  | .error e => .error e
  | .ok b => .ok (points, bboxOfPoints (transformAllFrom mul R t b.corners))

end Fl
end Sumo
