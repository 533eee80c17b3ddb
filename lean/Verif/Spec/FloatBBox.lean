import Verif.Model.BBox

/-!
# What C152 says of posed boxes
-/

namespace Sumo
namespace FloatBBoxSpec

/-- `q` belongs to the convex hull of `l`: it lies in every half-space that holds all of `l`. -/
def InHull (l : List (Vec3 ℚ)) (q : Vec3 ℚ) : Prop :=
  ∀ a b c d : ℚ, (∀ p ∈ l, a * p.x + b * p.y + c * p.z ≤ d) → a * q.x + b * q.y + c * q.z ≤ d

/-- The coordinates of the box and of the translation have size at most `B`, the entries of the matrix at most 2. -/
def Sized (B : ℚ) (e : BoxedElement ℚ) : Prop :=
  (∀ p ∈ e.bounds.corners, |p.x| ≤ B ∧ |p.y| ≤ B ∧ |p.z| ≤ B) ∧
  (|e.pose.t.x| ≤ B ∧ |e.pose.t.y| ≤ B ∧ |e.pose.t.z| ≤ B) ∧
  (|e.pose.R.m00| ≤ 2 ∧ |e.pose.R.m01| ≤ 2 ∧ |e.pose.R.m02| ≤ 2) ∧
  (|e.pose.R.m10| ≤ 2 ∧ |e.pose.R.m11| ≤ 2 ∧ |e.pose.R.m12| ≤ 2) ∧
  (|e.pose.R.m20| ≤ 2 ∧ |e.pose.R.m21| ≤ 2 ∧ |e.pose.R.m22| ≤ 2)

end FloatBBoxSpec

end Sumo
