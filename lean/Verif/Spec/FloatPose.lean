import Verif.Model.FloatVoxel

/-!
# What C150 says of the library's matrix product
-/

namespace Sumo
namespace FloatPoseSpec

/-- `v` is the product of the row `(a, b, c)` and the column `p`, up to `2^-50` of the sum of the sizes of the terms: any order of
the additions, with each operation rounded, or with fused operations. -/
def Dotted (a b c : ℚ) (p : Vec3 ℚ) (v : ℚ) : Prop :=
  |v - (a * p.x + b * p.y + c * p.z)| ≤ (|a * p.x| + |b * p.y| + |c * p.z|) / 2 ^ 50

/-- The columns are products, each one accurate; nothing is said about the order of operations. -/
def Accurate (mul : Mat3 ℚ → List (Vec3 ℚ) → List (Vec3 ℚ)) : Prop := ∀ R l, List.Forall₂ (fun p v =>
  Dotted R.m00 R.m01 R.m02 p v.x ∧ Dotted R.m10 R.m11 R.m12 p v.y ∧ Dotted R.m20 R.m21 R.m22 p v.z) l (mul R l)

/-- Every entry is computed alike from its row and column, and does not become smaller if a term of the sum grows. -/
def Uniform (mul : Mat3 ℚ → List (Vec3 ℚ) → List (Vec3 ℚ)) : Prop := ∃ dot : ℚ → ℚ → ℚ → Vec3 ℚ → ℚ,
  (∀ a b c p q, a * p.x ≤ a * q.x → b * p.y ≤ b * q.y → c * p.z ≤ c * q.z → dot a b c p ≤ dot a b c q) ∧
  ∀ R l, mul R l = l.map fun p => ⟨dot R.m00 R.m01 R.m02 p, dot R.m10 R.m11 R.m12 p, dot R.m20 R.m21 R.m22 p⟩

/-- The grid is not absurdly far from the origin: its corner at most `2^43` voxel sizes; its voxels have 32 bit indices. -/
def NearOrigin (g : Fl.Grid) : Prop :=
  |g.grid.minCorner.x| ≤ 2 ^ 43 * Fl.voxelSize g ∧ |g.grid.minCorner.y| ≤ 2 ^ 43 * Fl.voxelSize g ∧
  |g.grid.minCorner.z| ≤ 2 ^ 43 * Fl.voxelSize g ∧
  ∀ v ∈ g.grid.voxels, |v.x| ≤ 2 ^ 31 ∧ |v.y| ≤ 2 ^ 31 ∧ |v.z| ≤ 2 ^ 31

end FloatPoseSpec

end Sumo
