import Verif.Model.PoseError

/-!
# Point-set metrics

Model of `sumo-api/sumo/metrics/utils.py:393-591` (point IoU, nearest neighbours, RMS surface errors), over the
real numbers. sklearn's `BallTree.query` is library code: a parameter `nn`, of which theorems assume only that it returns
the index of some nearest point (`IsNearest`).
-/

namespace Sumo

/-- One row of `posed_points`: columns 0-2 and 3-5 (`metrics/mesh_evaluator.py:21-35`). -/
@[ext] structure ColorPoint where
  pos : Vec3 ℝ
  color : Vec3 ℝ

/-- Euclidean distance, the metric of `BallTree`. -/
noncomputable def pdist (p q : Vec3 ℝ) : ℝ := (p - q).norm

/-- Contract of `BallTree(points).query(p)` for non-empty `points`: the index of a nearest point. -/
def IsNearest (nn : List (Vec3 ℝ) → Vec3 ℝ → ℕ) : Prop :=
  ∀ pts p, pts ≠ [] → ∃ q, pts[nn pts p]? = some q ∧ ∀ r ∈ pts, pdist p q ≤ pdist p r

/-- The four arrays returned by `nearest_neighbors`. -/
structure Neighbors where
  ind1to2 : List ℕ
  ind2to1 : List ℕ
  dist1to2 : List ℝ
  dist2to1 : List ℝ

/-- `nearest_neighbors` (`metrics/utils.py:431-467`). -/
noncomputable def nearestNeighbors (nn : List (Vec3 ℝ) → Vec3 ℝ → ℕ) (points1 points2 : List (Vec3 ℝ)) : Neighbors :=
  if points1.length = 0 ∨ points2.length = 0 then ⟨[], [], [], []⟩
  else
    ⟨points1.map (nn points2), points2.map (nn points1),
     points1.map (fun p => pdist p (points2[nn points2 p]?.getD 0)),
     points2.map (fun p => pdist p (points1[nn points1 p]?.getD 0))⟩

/-- The test on one axis of the quick rejection (`metrics/utils.py:417-419`). -/
def axisReject (min1 max1 min2 max2 thresh : ℝ) : Prop := min1 > max2 + thresh ∨ min2 > max1 + thresh

/-- The quick rejection loop (`metrics/utils.py:416-419`). -/
def quickReject (b1 b2 : Box3d ℝ) (thresh : ℝ) : Prop :=
  axisReject b1.minCorner.x b1.maxCorner.x b2.minCorner.x b2.maxCorner.x thresh ∨
  axisReject b1.minCorner.y b1.maxCorner.y b2.minCorner.y b2.maxCorner.y thresh ∨
  axisReject b1.minCorner.z b1.maxCorner.z b2.minCorner.z b2.maxCorner.z thresh

open Classical in
/-- `points_iou` (`metrics/utils.py:393-428`), on the positions of the points. -/
noncomputable def pointsIou (nn : List (Vec3 ℝ) → Vec3 ℝ → ℕ) (points1 : List (Vec3 ℝ)) (bbox1 : Box3d ℝ)
    (points2 : List (Vec3 ℝ)) (bbox2 : Box3d ℝ) (thresh : ℝ) : ℝ :=
  if quickReject bbox1 bbox2 thresh then 0
  else
    let n := nearestNeighbors nn points1 points2
    let intersection := (n.dist1to2.filter (fun d => d ≤ thresh)).length +
      (n.dist2to1.filter (fun d => d ≤ thresh)).length
    let union := points1.length + points2.length
    if union = 0 then 0 else (intersection : ℝ) / (union : ℝ)

/-- The attributes the point evaluators store on elements (`metrics/mesh_evaluator.py:142-147`). -/
structure PointPayload where
  posedPoints : List ColorPoint
  posedBbox : Box3d ℝ

/-- `points[:, 0:3]`. -/
def positions (l : List ColorPoint) : List (Vec3 ℝ) := l.map ColorPoint.pos

/-- `_shape_similarity` of the mesh and voxel evaluators (`metrics/mesh_evaluator.py:206-221`,
`metrics/voxel_evaluator.py:110-125`). -/
noncomputable def pointSimilarity {ι σ : Type} (nn : List (Vec3 ℝ) → Vec3 ℝ → ℕ) (thresh : ℝ)
    (e1 e2 : Obj ι σ PointPayload) : ℝ :=
  pointsIou nn (positions e1.payload.posedPoints) e1.payload.posedBbox
    (positions e2.payload.posedPoints) e2.payload.posedBbox thresh

/-- The RMS distance of one pair (`metrics/utils.py:510-520`). -/
noncomputable def pairPointsRms (nn : List (Vec3 ℝ) → Vec3 ℝ → ℕ) (points1 points2 : List ColorPoint) :
    Except PyErr ℝ :=
  let n := nearestNeighbors nn (positions points1) (positions points2)
  let nMatched := n.dist1to2.length + n.dist2to1.length
  if nMatched > 0 then
    .ok (Real.sqrt (((n.dist1to2.map (fun d => d ^ 2)).sum + (n.dist2to1.map (fun d => d ^ 2)).sum) / nMatched))
  else .ok 0

/-- `a - b` for arrays of shapes `n × 3` and `m × 3`: numpy broadcasting allows equal row counts and row count 1;
otherwise `ValueError`. -/
def rowDiff (a b : List (Vec3 ℝ)) : Except PyErr (List (Vec3 ℝ)) :=
  if a.length = b.length then .ok (List.zipWith (· - ·) a b)
  else match a, b with
    | [p], b => .ok (b.map (fun q => p - q))
    | a, [q] => .ok (a.map (fun p => p - q))
    | _, _ => .error .valueError

/-- `points[indices, 3:6]`; out-of-range indices do not occur (`IsNearest`). -/
def colorsAt (points : List ColorPoint) (indices : List ℕ) : List (Vec3 ℝ) :=
  indices.map (fun i => (points[i]?.map ColorPoint.color).getD 0)

/-- The RMS colour distance of one pair (`metrics/utils.py:567-584`). -/
noncomputable def pairColorRms (nn : List (Vec3 ℝ) → Vec3 ℝ → ℕ) (subPoints gtPoints : List ColorPoint) :
    Except PyErr ℝ := do
  let n := nearestNeighbors nn (positions subPoints) (positions gtPoints)
  let diff1to2 ← rowDiff (subPoints.map ColorPoint.color) (colorsAt gtPoints n.ind1to2)
  let diff2to1 ← rowDiff (gtPoints.map ColorPoint.color) (colorsAt subPoints n.ind2to1)
  let nMatched := diff1to2.length + diff2to1.length
  if nMatched > 0 then
    .ok (Real.sqrt (((diff1to2.map Vec3.normSq).sum + (diff2to1.map Vec3.normSq).sum) / nMatched))
  else .ok 0

variable {ι σ τ : Type} [DecidableEq ι] [LinearOrder σ] [LinearOrder τ]

/-- One iteration of the detection loop of `points_rmsssd` / `color_rmsssd` (`metrics/utils.py:496-522, 554-586`);
the state is (cache, list of errors), `compute` the per-pair error.  `K` is the type of numbers. -/
def rmsStep {K : Type} (compute : ι → ι → Except PyErr K) (a : Dict ι (Corr ι σ τ))
    (st : Dict ι (Dict ι K) × List K) (detId : ι) : Except PyErr (Dict ι (Dict ι K) × List K) := do
  let cache := if st.1.has detId then st.1 else st.1.set detId []
  let corr ← a.get detId
  let row ← cache.get detId
  match row.get? corr.gtId with
  | some v => pure (cache, st.2 ++ [v])
  | none => do
    let v ← compute detId corr.gtId
    pure (cache.set detId (row.set corr.gtId v), st.2 ++ [v])

/-- The loops of `points_rmsssd` / `color_rmsssd` (`metrics/utils.py:488-527, 546-591`); `none` is `math.inf`. -/
noncomputable def rmsLoop (compute : ι → ι → Except PyErr ℝ) {P : Type} (ev : Evaluator ι σ τ P) :
    Except PyErr (Option ℝ) := do
  let st ← ev.settings.thresholds.foldlM (fun st t => do
    let a ← ev.agnostic.get t
    a.keys.foldlM (rmsStep compute a) st) (([], []) : Dict ι (Dict ι ℝ) × List ℝ)
  return if st.2.length > 0 then some (meanR st.2) else none

/-- `points_rmsssd` (`metrics/utils.py:470-527`). -/
noncomputable def pointsRmsssd (nn : List (Vec3 ℝ) → Vec3 ℝ → ℕ) (ev : Evaluator ι σ τ PointPayload) :
    Except PyErr (Option ℝ) :=
  rmsLoop (fun detId gtId => do
    let d ← ev.submission.get detId
    let g ← ev.groundTruth.get gtId
    pairPointsRms nn d.payload.posedPoints g.payload.posedPoints) ev

/-- `color_rmsssd` (`metrics/utils.py:530-591`). -/
noncomputable def colorRmsssd (nn : List (Vec3 ℝ) → Vec3 ℝ → ℕ) (ev : Evaluator ι σ τ PointPayload) :
    Except PyErr (Option ℝ) :=
  rmsLoop (fun detId gtId => do
    let d ← ev.submission.get detId
    let g ← ev.groundTruth.get gtId
    pairColorRms nn d.payload.posedPoints g.payload.posedPoints) ev

end Sumo
