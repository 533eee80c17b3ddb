import Verif.Model.FloatRotation
import Verif.Model.Box

/-!
# Point IoU in double precision

Model of `sumo-api/sumo/metrics/utils.py:393-467` as `Verif.Model.Points`, with every arithmetic operation rounded.  sklearn's
`BallTree.query` is library code: a parameter `nn` returns the index of a neighbour; the distance it returns is the one sklearn
computes for the two points (`fdist`).  Theorems assume of `nn` that the computed distance is the smallest, or only that the
index exists.
-/

namespace Sumo
namespace Fl

/-- sklearn's `euclidean_dist`: the squares of the differences summed up, then the root. -/
def fdist (p q : Vec3 ℚ) : ℚ :=
  let dx := double (p.x - q.x)
  let dy := double (p.y - q.y)
  let dz := double (p.z - q.z)
  sqrtD (double (double (double (dx * dx) + double (dy * dy)) + double (dz * dz)))

/-- The two arrays of distances returned by `nearest_neighbors` (`metrics/utils.py:431-467`). -/
structure Distances where
  dist1to2 : List ℚ
  dist2to1 : List ℚ

/-- `nearest_neighbors` (`metrics/utils.py:431-467`), the distances. -/
def nearestNeighbors (nn : List (Vec3 ℚ) → Vec3 ℚ → ℕ) (points1 points2 : List (Vec3 ℚ)) : Distances :=
  if points1.length = 0 ∨ points2.length = 0 then ⟨[], []⟩
  else
    ⟨points1.map (fun p => fdist p (points2[nn points2 p]?.getD 0)),
     points2.map (fun p => fdist p (points1[nn points1 p]?.getD 0))⟩

/-- The test on one axis of the quick rejection (`metrics/utils.py:417-418`). -/
def axisReject (min1 max1 min2 max2 thresh : ℚ) : Bool := min1 > double (max2 + thresh) || min2 > double (max1 + thresh)

/-- The quick rejection loop (`metrics/utils.py:416-419`). -/
def quickReject (b1 b2 : Box3d ℚ) (thresh : ℚ) : Bool :=
  axisReject b1.minCorner.x b1.maxCorner.x b2.minCorner.x b2.maxCorner.x thresh ||
  axisReject b1.minCorner.y b1.maxCorner.y b2.minCorner.y b2.maxCorner.y thresh ||
  axisReject b1.minCorner.z b1.maxCorner.z b2.minCorner.z b2.maxCorner.z thresh

/-- `points_iou` after the quick rejection (`metrics/utils.py:421-428`). -/
def iouCount (nn : List (Vec3 ℚ) → Vec3 ℚ → ℕ) (points1 points2 : List (Vec3 ℚ)) (thresh : ℚ) : ℚ :=
  let n := nearestNeighbors nn points1 points2
  let intersection := (n.dist1to2.filter (fun d => d ≤ thresh)).length + (n.dist2to1.filter (fun d => d ≤ thresh)).length
  let union := points1.length + points2.length
  if union = 0 then 0 else double ((intersection : ℚ) / (union : ℚ))

/-- `points_iou` (`metrics/utils.py:393-428`), on the positions of the points. -/
def pointsIou (nn : List (Vec3 ℚ) → Vec3 ℚ → ℕ) (points1 : List (Vec3 ℚ)) (bbox1 : Box3d ℚ)
    (points2 : List (Vec3 ℚ)) (bbox2 : Box3d ℚ) (thresh : ℚ) : ℚ :=
  if quickReject bbox1 bbox2 thresh then 0 else iouCount nn points1 points2 thresh

end Fl
end Sumo
