import Verif.Model.FloatAp
import Verif.Model.FloatPoints
import Verif.Model.Points

/-!
# RMS surface errors in double precision

Model of `sumo-api/sumo/metrics/utils.py:470-591` as `Verif.Model.Points`, with every arithmetic operation rounded.  How numpy
adds up arrays is a parameter `sum`; theorems assume of it `FlSum`.
-/

namespace Sumo
namespace Fl

/-- One row of `posed_points`; see `Sumo.ColorPoint`. -/
structure CloudPoint where
  pos : Vec3 ℚ
  color : Vec3 ℚ

/-- The attribute of elements used here; see `Sumo.PointPayload`. -/
structure CloudPayload where
  posedPoints : List CloudPoint

/-- `points[:, 0:3]`. -/
def cloudPositions (l : List CloudPoint) : List (Vec3 ℚ) := l.map CloudPoint.pos

/-- `np.square(a)` on doubles. -/
def squares (l : List ℚ) : List ℚ := l.map (fun d => double (d * d))

/-- The RMS distance of one pair (`metrics/utils.py:510-520`). -/
def pairPointsRms (sum : List ℚ → ℚ) (nn : List (Vec3 ℚ) → Vec3 ℚ → ℕ) (points1 points2 : List CloudPoint) : ℚ :=
  let n := nearestNeighbors nn (cloudPositions points1) (cloudPositions points2)
  let nMatched := n.dist1to2.length + n.dist2to1.length
  if nMatched > 0 then
    sqrtD (double (double (sum (squares n.dist1to2) + sum (squares n.dist2to1)) / double nMatched))
  else 0

/-- The index arrays of `nearest_neighbors` (`metrics/utils.py:455-467`). -/
def neighborIndices (nn : List (Vec3 ℚ) → Vec3 ℚ → ℕ) (points1 points2 : List (Vec3 ℚ)) : List ℕ :=
  if points1.length = 0 ∨ points2.length = 0 then [] else points1.map (nn points2)

/-- The difference of two vectors, rounded. -/
def vsub (p q : Vec3 ℚ) : Vec3 ℚ := ⟨double (p.x - q.x), double (p.y - q.y), double (p.z - q.z)⟩

/-- `a - b` for arrays of shapes `n × 3` and `m × 3`; see `Sumo.rowDiff`. -/
def rowDiff (a b : List (Vec3 ℚ)) : Except PyErr (List (Vec3 ℚ)) :=
  if a.length = b.length then .ok (List.zipWith vsub a b)
  else match a, b with
    | [p], b => .ok (b.map (fun q => vsub p q))
    | a, [q] => .ok (a.map (fun p => vsub p q))
    | _, _ => .error .valueError

/-- `points[indices, 3:6]`; see `Sumo.colorsAt`. -/
def colorsAt (points : List CloudPoint) (indices : List ℕ) : List (Vec3 ℚ) :=
  indices.map (fun i => (points[i]?.map CloudPoint.color).getD 0)

/-- The entries of an `n × 3` array. -/
def entries (l : List (Vec3 ℚ)) : List ℚ := l.flatMap (fun v => [v.x, v.y, v.z])

/-- The RMS colour distance of one pair (`metrics/utils.py:567-584`). -/
def pairColorRms (sum : List ℚ → ℚ) (nn : List (Vec3 ℚ) → Vec3 ℚ → ℕ) (subPoints gtPoints : List CloudPoint) :
    Except PyErr ℚ := do
  let ind1to2 := neighborIndices nn (cloudPositions subPoints) (cloudPositions gtPoints)
  let ind2to1 := neighborIndices nn (cloudPositions gtPoints) (cloudPositions subPoints)
  let diff1to2 ← rowDiff (subPoints.map CloudPoint.color) (colorsAt gtPoints ind1to2)
  let diff2to1 ← rowDiff (gtPoints.map CloudPoint.color) (colorsAt subPoints ind2to1)
  let nMatched := diff1to2.length + diff2to1.length
  if nMatched > 0 then
    .ok (sqrtD (double (double (sum (squares (entries diff1to2)) + sum (squares (entries diff2to1))) / double nMatched)))
  else .ok 0

variable {ι σ τ : Type} [DecidableEq ι] [LinearOrder σ] [LinearOrder τ]

/-- The loops of `points_rmsssd` / `color_rmsssd` (`metrics/utils.py:488-527, 546-591`); `none` is `math.inf`. -/
def rmsLoop (sum : List ℚ → ℚ) (compute : ι → ι → Except PyErr ℚ) {P : Type} (ev : Evaluator ι σ τ P) :
    Except PyErr (Option ℚ) := do
  let st ← ev.settings.thresholds.foldlM (fun st t => do
    let a ← ev.agnostic.get t
    a.keys.foldlM (rmsStep compute a) st) (([], []) : Dict ι (Dict ι ℚ) × List ℚ)
  return if st.2.length > 0 then npMean sum st.2 else none

/-- `points_rmsssd` (`metrics/utils.py:470-527`). -/
def pointsRmsssd (sum : List ℚ → ℚ) (nn : List (Vec3 ℚ) → Vec3 ℚ → ℕ) (ev : Evaluator ι σ τ CloudPayload) :
    Except PyErr (Option ℚ) :=
  rmsLoop sum (fun detId gtId => do
    let d ← ev.submission.get detId
    let g ← ev.groundTruth.get gtId
    pure (pairPointsRms sum nn d.payload.posedPoints g.payload.posedPoints)) ev

/-- `color_rmsssd` (`metrics/utils.py:530-591`). -/
def colorRmsssd (sum : List ℚ → ℚ) (nn : List (Vec3 ℚ) → Vec3 ℚ → ℕ) (ev : Evaluator ι σ τ CloudPayload) :
    Except PyErr (Option ℚ) :=
  rmsLoop sum (fun detId gtId => do
    let d ← ev.submission.get detId
    let g ← ev.groundTruth.get gtId
    pairColorRms sum nn d.payload.posedPoints g.payload.posedPoints) ev

end Fl
end Sumo
