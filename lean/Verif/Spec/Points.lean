import Verif.Model.PoseError

/-!
# Specification of point-set metrics

In terms of distances between points only; no nearest-neighbour structure, box or cache.
-/

namespace Sumo
namespace PointSpec

/-- Euclidean distance. -/
noncomputable def dist (p q : Vec3 ℝ) : ℝ := Real.sqrt ((p.x - q.x) ^ 2 + (p.y - q.y) ^ 2 + (p.z - q.z) ^ 2)

open Classical in
/-- Number of points of `A` that have a point of `B` within `t`. -/
noncomputable def near (A B : List (Vec3 ℝ)) (t : ℝ) : ℕ := A.countP (fun p => ∃ q ∈ B, dist p q ≤ t)

/-- Overlapping points over all points. -/
noncomputable def iou (A B : List (Vec3 ℝ)) (t : ℝ) : ℝ :=
  ((near A B t + near B A t : ℕ) : ℝ) / ((A.length + B.length : ℕ) : ℝ)

/-- All points lie in the closed box. -/
def Inside (A : List (Vec3 ℝ)) (b : Box3d ℝ) : Prop := ∀ p ∈ A,
  (b.minCorner.x ≤ p.x ∧ p.x ≤ b.maxCorner.x) ∧ (b.minCorner.y ≤ p.y ∧ p.y ≤ b.maxCorner.y) ∧
  (b.minCorner.z ≤ p.z ∧ p.z ≤ b.maxCorner.z)

/-- Distance of a point to a set. -/
noncomputable def distTo (p : Vec3 ℝ) (B : List (Vec3 ℝ)) : ℝ := sInf {d | ∃ q ∈ B, d = dist p q}

/-- Root mean squared symmetric distance of two non-empty point sets. -/
noncomputable def rms (A B : List (Vec3 ℝ)) : ℝ :=
  Real.sqrt (((A.map (fun p => distTo p B ^ 2)).sum + (B.map (fun q => distTo q A ^ 2)).sum) /
    (A.length + B.length))

end PointSpec
end Sumo
