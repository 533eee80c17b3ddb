import Verif.Model.Ap
import Verif.Model.Double
import Verif.Model.Scores

/-!
# Average precision in double precision

Model of `sumo-api/sumo/metrics/utils.py`, lines 216-363, and of `evaluator.py`, lines 277-319 and 475-533, as
`Verif.Model.Ap` and `Verif.Model.Scores`, but with every arithmetic operation rounded to double precision (`double`).
Integers are `int64` and exact; numpy converts them to doubles before it divides them or adds a float to them.
-/

namespace Sumo
namespace Fl

/-- `precision = tp_sum / (tp_sum + fp_sum + epsilon)` (`metrics/utils.py:290,351`). -/
def rawPrecision (sorted : List ℤ) : List ℚ :=
  List.zipWith (fun (tp fp : ℕ) => double (double tp / double (double (tp + fp : ℕ) + epsilon)))
    (cumsum (sorted.map (fun m => decide (m ≠ 0)))) (cumsum (sorted.map (fun m => decide (m = 0))))

/-- `recall = tp_sum / n_gt` (`metrics/utils.py:291,352`); see `Sumo.rawRecall` about `n_gt = 0`. -/
def rawRecall (sorted : List ℤ) (nGt : ℕ) : List ℚ :=
  (cumsum (sorted.map (fun m => decide (m ≠ 0)))).map (fun (tp : ℕ) => double (double tp / double nGt))

/-- `compute_pr` (`metrics/utils.py:251-317`).  Interpolation and sampling only compare and copy. -/
def computePr (order : List ℕ) (detMatches : List ℤ) (nGt : ℕ) (recallSamples : Option (List ℚ))
    (interp : Bool) : Except PyErr (List ℚ × List ℚ) := do
  let sorted ← gather detMatches order
  let precision := rawPrecision sorted
  let recall := rawRecall sorted nGt
  let precision := if interp then (downIndices precision.length).foldl interpStep precision else precision
  match recallSamples with
  | none => return (precision, recall)
  | some samples =>
    return (samples.map (fun r =>
      let i := searchsortedLeft recall r
      if i < precision.length then precision.getD i 0 else 0), samples)

/-- One iteration of the loop of `compute_auc_ap` (`metrics/utils.py:357-360`); state (`precision`, `ap`). -/
def aucStep (recall : List ℚ) (st : List ℚ × ℚ) (i : ℕ) : List ℚ × ℚ :=
  let p := interpStep st.1 i
  (p, double (st.2 + double (p.getD i 0 * double (recall.getD i 0 - recall.getD (i - 1) 0))))

/-- `compute_auc_ap` (`metrics/utils.py:320-363`). -/
def computeAucAp (order : List ℕ) (detMatches : List ℤ) (nGt : ℕ) :
    Except PyErr (ℚ × List ℚ × List ℚ) := do
  let sorted ← gather detMatches order
  let precision := rawPrecision sorted
  let recall := rawRecall sorted nGt
  if precision.length > 0 then
    let st := (downIndices precision.length).foldl (aucStep recall) (precision, 0)
    return (double (st.2 + double (st.1.getD 0 0 * recall.getD 0 0)), st.1, recall)
  else return (0, precision, recall)

/-- What a sum of doubles can be: the terms are added two at a time, in some order, with every sum rounded.  Numpy adds in an
order that depends on the length and on the processor ("pairwise summation"). -/
inductive FlSum : List ℚ → ℚ → Prop
  | nil : FlSum [] 0
  | one (x : ℚ) : FlSum [x] x
  | add {l k : List ℚ} {s t : ℚ} : l ≠ [] → k ≠ [] → FlSum l s → FlSum k t → FlSum (l ++ k) (double (s + t))
  | perm {l k : List ℚ} {s : ℚ} : FlSum l s → l.Perm k → FlSum k s

/-- `np.mean`, given how numpy adds: the sum divided by the number of terms; `none` stands for the NaN of an empty vector. -/
def npMean (sum : List ℚ → ℚ) (l : List ℚ) : Option ℚ :=
  if l.length = 0 then none else some (double (sum l / double l.length))

/-- `compute_ap` (`metrics/utils.py:216-248`). -/
def computeAp (sum : List ℚ → ℚ) (order : List ℕ) (detMatches : List ℤ) (nGt : ℕ) (recallSamples : Option (List ℚ))
    (interp areaUnderCurve : Bool) : Except PyErr (Option ℚ × List ℚ × List ℚ) := do
  if areaUnderCurve then
    let (ap, p, r) ← computeAucAp order detMatches nGt
    return (some ap, p, r)
  else
    let (p, r) ← computePr order detMatches nGt recallSamples interp
    return (npMean sum p, p, r)

/-- See `Sumo.npMeanNan`. -/
def npMeanNan (sum : List ℚ → ℚ) (l : List (Option ℚ)) : Option ℚ := (l.mapM id).bind (npMean sum)

variable {ι σ τ P : Type} [DecidableEq ι] [LinearOrder σ] [LinearOrder τ]

/-- `Evaluator.shape_score` (`metrics/evaluator.py:277-319`). -/
def shapeScore (sum : List ℚ → ℚ) (argsort : List σ → List ℕ) (ev : Evaluator ι σ τ P) (recallSamples : List ℚ) :
    Except PyErr (Option ℚ) := do
  let nGt := (ev.groundTruth.values.filter (fun v => v.evaluated)).length
  let aps ← ev.settings.thresholds.foldlM (fun aps t => do
    let a ← ev.agnostic.get t
    let v := detVectors ev.submission.values a
    if nGt > 0 then do
      let r ← computeAp sum (argsort v.2) v.1 nGt (some recallSamples) true true
      pure (aps ++ [r.1])
    else pure aps) []
  return npMeanNan sum aps

/-- `Evaluator.semantics_score` (`metrics/evaluator.py:475-533`). -/
def semanticsScore (sum : List ℚ → ℚ) (argsort : List σ → List ℕ) (ev : Evaluator ι σ τ P) : Except PyErr (Option ℚ) := do
  let nGt ← nGtByCategory ev.settings.categories ev.groundTruth.values
  let aps ← ev.settings.thresholds.foldlM (fun aps t => do
    let vs ← detVectorsByCategory ev t
    ev.settings.categories.foldlM (fun aps cat => do
      let n ← nGt.get cat
      if n > 0 then do
        let v ← vs.get cat
        let r ← computeAp sum (argsort v.2) v.1 n none false true
        pure (aps ++ [r.1])
      else pure aps) aps) []
  return npMeanNan sum aps

end Fl
end Sumo
