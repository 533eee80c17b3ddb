import Verif.Model.Vec
import Mathlib.Algebra.Order.Field.Basic

/-!
# What a voxel grid is

The cells of a regular grid of cubes of side `size` starting at `corner`, as sets of points.
-/

namespace Sumo
namespace VoxelSpec
variable {K : Type} [Field K] [LinearOrder K]

/-- `p` lies in cell `v`. -/
def InCell (size : K) (corner : Vec3 K) (v : Vec3 ℤ) (p : Vec3 K) : Prop :=
  (corner.x + v.x * size ≤ p.x ∧ p.x < corner.x + (v.x + 1) * size) ∧
  (corner.y + v.y * size ≤ p.y ∧ p.y < corner.y + (v.y + 1) * size) ∧
  (corner.z + v.z * size ≤ p.z ∧ p.z < corner.z + (v.z + 1) * size)

/-- `p` is not below the corner on any axis. -/
def Above (corner p : Vec3 K) : Prop := corner.x ≤ p.x ∧ corner.y ≤ p.y ∧ corner.z ≤ p.z

/-- `p` is less than `nx`, `ny`, `nz` cells from the corner. -/
def Within (size : K) (corner : Vec3 K) (nx ny nz : ℤ) (p : Vec3 K) : Prop :=
  p.x < corner.x + nx * size ∧ p.y < corner.y + ny * size ∧ p.z < corner.z + nz * size

/-- No cell of a point of `A` is further out, in `x` or in `y`, than all cells of points of `B`. -/
def ExtentLe (size : K) (corner : Vec3 K) (A B : List (Vec3 K)) : Prop :=
  ∀ a ∈ A, ∀ v, InCell size corner v a →
    (∃ b ∈ B, ∃ w, InCell size corner w b ∧ v.x ≤ w.x) ∧ (∃ b ∈ B, ∃ w, InCell size corner w b ∧ v.y ≤ w.y)

end VoxelSpec
end Sumo
