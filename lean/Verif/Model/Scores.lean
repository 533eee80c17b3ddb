import Verif.Model.Assoc
import Verif.Model.Ap

/-!
# Shape score, semantics score and the three evaluator constructors

Model of `sumo-api/sumo/metrics/evaluator.py`, lines 277-319 and 475-533, and of the super-constructor calls of
`bb_evaluator.py:46`, `voxel_evaluator.py:51`, `mesh_evaluator.py:149`.

`argsort` is numpy's `np.argsort(-scores)`: an arbitrary function returning some sorting permutation (`IsArgsort`).
-/

namespace Sumo

variable {ι σ τ P : Type} [DecidableEq ι] [LinearOrder σ] [LinearOrder τ]

/-- One iteration of the element loop (`metrics/evaluator.py:296-307`, and `514-523`): append to
`det_matches` and `det_scores`. -/
def detStep (a : Dict ι (Corr ι σ τ)) (st : List ℤ × List σ) (e : Obj ι σ P) : List ℤ × List σ :=
  match a.get? e.id with
  | some c => if c.evaluated then (st.1 ++ [1], st.2 ++ [e.score]) else st
  | none => (st.1 ++ [0], st.2 ++ [e.score])

/-- `det_matches`, `det_scores` at one threshold (`metrics/evaluator.py:293-307`). -/
def detVectors (els : List (Obj ι σ P)) (a : Dict ι (Corr ι σ τ)) : List ℤ × List σ :=
  els.foldl (detStep a) ([], [])

/-- `np.mean` of a list of floats some of which may be NaN (`none`): NaN if one of them is, or if empty. -/
def npMeanNan (l : List (Option ℚ)) : Option ℚ := (l.mapM id).bind npMean

/-- `Evaluator.shape_score` (`metrics/evaluator.py:277-319`). -/
def shapeScore (argsort : List σ → List ℕ) (ev : Evaluator ι σ τ P) (recallSamples : List ℚ) :
    Except PyErr (Option ℚ) := do
  let nGt := (ev.groundTruth.values.filter (fun v => v.evaluated)).length
  let aps ← ev.settings.thresholds.foldlM (fun aps t => do
    let a ← ev.agnostic.get t
    let v := detVectors ev.submission.values a
    if nGt > 0 then do
      let r ← computeAp (argsort v.2) v.1 nGt (some recallSamples) true true
      pure (aps ++ [r.1])
    else pure aps) []
  return npMeanNan aps

/-- `n_gt` (`metrics/evaluator.py:489-495`). -/
def nGtByCategory (cats : List String) (gts : List (Obj ι σ P)) : Except PyErr (Dict String ℕ) :=
  gts.foldlM (fun d e =>
    if e.category ∈ cats ∧ e.evaluated = true then do
      let n ← Dict.get d e.category
      pure (d.set e.category (n + 1))
    else pure d) (cats.foldl (fun d c => Dict.set d c 0) [])

/-- `det_matches`, `det_scores` of all categories at one threshold (`metrics/evaluator.py:499-523`).
The two dicts have the same keys and are modelled by one dict of pairs. -/
def detVectorsByCategory (ev : Evaluator ι σ τ P) (t : τ) : Except PyErr (Dict String (List ℤ × List σ)) :=
  ev.submission.values.foldlM (fun d e =>
    if e.category ∈ ev.settings.categories then do
      let da ← ev.category.get e.category
      let a ← da.get t
      let v ← Dict.get d e.category
      pure (d.set e.category (detStep a v e))
    else pure d) (ev.settings.categories.foldl (fun d c => Dict.set d c ([], [])) [])

/-- `Evaluator.semantics_score` (`metrics/evaluator.py:475-533`). -/
def semanticsScore (argsort : List σ → List ℕ) (ev : Evaluator ι σ τ P) : Except PyErr (Option ℚ) := do
  let nGt ← nGtByCategory ev.settings.categories ev.groundTruth.values
  let aps ← ev.settings.thresholds.foldlM (fun aps t => do
    let vs ← detVectorsByCategory ev t
    ev.settings.categories.foldlM (fun aps cat => do
      let n ← nGt.get cat
      if n > 0 then do
        let v ← vs.get cat
        let r ← computeAp (argsort v.2) v.1 n none false true
        pure (aps ++ [r.1])
      else pure aps) aps) []
  return npMeanNan aps

/-- `BBEvaluator(submission, ground_truth, settings)` after posing the boxes (`metrics/bb_evaluator.py:46`). -/
def bbEvaluator (sim : Obj ι σ P → Obj ι σ P → τ) (submission groundTruth : Elements ι σ P)
    (settings : AssocSettings τ) : Except PyErr (Evaluator ι σ τ P) :=
  Evaluator.build sim submission groundTruth settings

/-- `MeshEvaluator(submission, ground_truth, settings)` (`metrics/mesh_evaluator.py:149`). -/
def meshEvaluator (sim : Obj ι σ P → Obj ι σ P → τ) (submission groundTruth : Elements ι σ P)
    (settings : AssocSettings τ) : Except PyErr (Evaluator ι σ τ P) :=
  Evaluator.build sim submission groundTruth settings

/-- `VoxelEvaluator(submission, ground_truth, settings)` (`metrics/voxel_evaluator.py:21-51`): line 51 passes
`ground_truth` and `submission` to the base class in the wrong order. -/
def voxelEvaluator (sim : Obj ι σ P → Obj ι σ P → τ) (submission groundTruth : Elements ι σ P)
    (settings : AssocSettings τ) : Except PyErr (Evaluator ι σ τ P) :=
  Evaluator.build sim groundTruth submission settings

end Sumo
