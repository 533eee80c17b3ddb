import Verif.Spec.Voxel
import Mathlib.Algebra.Order.Field.Rat
import Mathlib.Algebra.Order.Group.Abs

/-!
# How far rounding may move voxel grids
-/

namespace Sumo
namespace VoxelSpec

/-- The error allowed on one axis for a coordinate `p` in a grid that starts at `corner`: `2^-48` of the distance to the corner,
plus a part that does not depend on the point and is larger when the corner is a vector of `float32`. -/
def slack (isSingle : Bool) (size corner p : ℚ) : ℚ :=
  (p - corner) / 2 ^ 48 + (|corner| + size) / (if isSingle then 2 ^ 21 else 2 ^ 48)

/-- `i` is a cell of coordinate `p` on one axis, up to `2^-51` of the distance to the corner. -/
def NearCell (size corner : ℚ) (i : ℤ) (p : ℚ) : Prop :=
  corner + i * size ≤ p + (p - corner) / 2 ^ 51 ∧ p - (p - corner) / 2 ^ 51 < corner + (i + 1) * size

end VoxelSpec
end Sumo
