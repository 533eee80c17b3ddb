import Verif.Model.Py
import Mathlib.Algebra.Order.Field.Rat
import Mathlib.Data.Rat.Defs

/-!
# Precision-recall curves and average precision

Model of `sumo-api/sumo/metrics/utils.py`, lines 216-363.

Numpy vectors are lists; floats are rationals (exact arithmetic); scores live in an arbitrary linear order.
`np.argsort` uses an unstable sort, so its result is a parameter `order` constrained only by `IsArgsort`.
-/

namespace Sumo

/-- `np.spacing(1)` (`metrics/utils.py:288,349`): the distance from 1 to the next double, `2^-52`. -/
def epsilon : ℚ := 1 / 2 ^ 52

/-- What `np.argsort(-scores)` (`metrics/utils.py:276,337`) guarantees: a permutation of the indices along
which the scores do not increase. Nothing is said about ties. -/
def IsArgsort {σ : Type} [LinearOrder σ] (order : List ℕ) (scores : List σ) : Prop :=
  order.Perm (List.range scores.length) ∧ (order.filterMap (fun i => scores[i]?)).Pairwise (· ≥ ·)

/-- Fancy indexing `v[indices]` (`metrics/utils.py:277,338`): `IndexError` if an index is out of range. -/
def gather {α : Type} (v : List α) (indices : List ℕ) : Except PyErr (List α) :=
  indices.mapM (fun i => match v[i]? with
    | some x => .ok x
    | none => .error .indexError)

/-- `np.cumsum` of a Boolean vector, with running total `acc`. -/
def cumsumFrom (acc : ℕ) : List Bool → List ℕ
  | [] => []
  | b :: l => (acc + b.toNat) :: cumsumFrom (acc + b.toNat) l

/-- `np.cumsum` (`metrics/utils.py:284-285,345-346`). -/
def cumsum (l : List Bool) : List ℕ := cumsumFrom 0 l

/-- `precision = tp_sum / (tp_sum + fp_sum + epsilon)` (`metrics/utils.py:290,351`). -/
def rawPrecision (sorted : List ℤ) : List ℚ :=
  List.zipWith (fun (tp fp : ℕ) => (tp : ℚ) / ((tp : ℚ) + (fp : ℚ) + epsilon))
    (cumsum (sorted.map (fun m => decide (m ≠ 0)))) (cumsum (sorted.map (fun m => decide (m = 0))))

/-- `recall = tp_sum / n_gt` (`metrics/utils.py:291,352`). Numpy division by `n_gt = 0` gives NaN without
raising; callers guard `n_gt > 0` (`evaluator.py:307,525`) and so do the theorems. -/
def rawRecall (sorted : List ℤ) (nGt : ℕ) : List ℚ :=
  (cumsum (sorted.map (fun m => decide (m ≠ 0)))).map (fun (tp : ℕ) => (tp : ℚ) / (nGt : ℚ))

/-- The indices `range(n - 1, 0, -1)` (`metrics/utils.py:295,357`). -/
def downIndices (n : ℕ) : List ℕ := (List.range' 1 (n - 1)).reverse

/-- `if precision[i] > precision[i-1]: precision[i-1] = precision[i]` (`metrics/utils.py:296-297,358-359`);
`i` and `i - 1` are always in range. -/
def interpStep (p : List ℚ) (i : ℕ) : List ℚ :=
  if p.getD i 0 > p.getD (i - 1) 0 then p.set (i - 1) (p.getD i 0) else p

/-- The result of `np.searchsorted(a, v, side='left')` on an ascending vector: the number of entries below `v`. -/
def searchsortedLeft (a : List ℚ) (v : ℚ) : ℕ := (a.filter (fun x => decide (x < v))).length

/-- `compute_pr` (`metrics/utils.py:251-317`). `order` is the result of `np.argsort(-det_scores)`. -/
def computePr (order : List ℕ) (detMatches : List ℤ) (nGt : ℕ) (recallSamples : Option (List ℚ))
    (interp : Bool) : Except PyErr (List ℚ × List ℚ) := do
  let sorted ← gather detMatches order
  let precision := rawPrecision sorted
  let recall := rawRecall sorted nGt
  let precision := if interp then (downIndices precision.length).foldl interpStep precision else precision
  match recallSamples with
  | none => return (precision, recall)
  | some samples =>
    return (samples.map (fun r =>
      let i := searchsortedLeft recall r
      if i < precision.length then precision.getD i 0 else 0), samples)

/-- One iteration of the loop of `compute_auc_ap` (`metrics/utils.py:357-361`); state (`precision`, `ap`). -/
def aucStep (recall : List ℚ) (st : List ℚ × ℚ) (i : ℕ) : List ℚ × ℚ :=
  let p := interpStep st.1 i
  (p, st.2 + p.getD i 0 * (recall.getD i 0 - recall.getD (i - 1) 0))

/-- `compute_auc_ap` (`metrics/utils.py:320-363`). -/
def computeAucAp (order : List ℕ) (detMatches : List ℤ) (nGt : ℕ) :
    Except PyErr (ℚ × List ℚ × List ℚ) := do
  let sorted ← gather detMatches order
  let precision := rawPrecision sorted
  let recall := rawRecall sorted nGt
  if precision.length > 0 then
    let st := (downIndices precision.length).foldl (aucStep recall) (precision, 0)
    return (st.2 + st.1.getD 0 0 * recall.getD 0 0, st.1, recall)
  else return (0, precision, recall)

/-- `np.mean`: `none` stands for the NaN of an empty vector. -/
def npMean (l : List ℚ) : Option ℚ := if l.length = 0 then none else some (l.sum / l.length)

/-- `compute_ap` (`metrics/utils.py:216-248`). The `recall_samples` and `interp` arguments are only used when
`area_under_curve` is false. -/
def computeAp (order : List ℕ) (detMatches : List ℤ) (nGt : ℕ) (recallSamples : Option (List ℚ))
    (interp areaUnderCurve : Bool) : Except PyErr (Option ℚ × List ℚ × List ℚ) := do
  if areaUnderCurve then
    let (ap, p, r) ← computeAucAp order detMatches nGt
    return (some ap, p, r)
  else
    let (p, r) ← computePr order detMatches nGt recallSamples interp
    return (npMean p, p, r)

end Sumo
