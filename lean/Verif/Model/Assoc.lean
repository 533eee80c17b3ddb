import Verif.Model.Py

/-!
# Data association of the evaluator

Model of `sumo-api/sumo/metrics/evaluator.py`, lines 47-79 (constructor), 564-592 (similarity cache),
610-688 (category-agnostic association), 690-759 (category-aware association), 943-964 (`Corr`,
`sort_corrs_by_similarity`).

Types: `ι` object ids (Python strings), `σ` detection scores, `τ` similarities and thresholds, `P` the rest
of an element (bounds, pose, ...), which the association never looks at except through the similarity
function.  `σ` and `τ` are arbitrary linear orders: finite, non-NaN floats.
-/

namespace Sumo

/-- The attributes of `ProjectObject` (`semantic/project_object.py:34-52`) the evaluator uses; `payload` stands
for bounds, shape, pose and symmetry. Categories are strings. -/
structure Obj (ι σ P : Type) where
  id : ι
  category : String
  score : σ
  evaluated : Bool
  payload : P
  deriving DecidableEq

/-- The `elements` attribute of `ProjectScene` (`semantic/project_scene.py:29-49`): a
`ProjectObjectDict`, i.e. a dict from keys to `ProjectObject`s.  Keys and `element.id` may differ;
`WellKeyed` below says they do not. -/
abbrev Elements (ι σ P : Type) := Dict ι (Obj ι σ P)

/-- `Corr` (`metrics/evaluator.py:943-954`). -/
structure Corr (ι σ τ : Type) where
  detId : ι
  gtId : ι
  similarity : τ
  detScore : σ
  evaluated : Bool
  deriving DecidableEq

/-- `sim_cache[det_id][gt_id]` (`metrics/evaluator.py:573-578`). -/
abbrev SimCache (ι σ τ : Type) := Dict ι (Dict ι (Corr ι σ τ))

variable {ι σ τ P : Type} [DecidableEq ι]

/-- Inner loop of `_make_similarity_cache` (`metrics/evaluator.py:585-591`). -/
def simRow (sim : Obj ι σ P → Obj ι σ P → τ) (det : Obj ι σ P) (gts : List (Obj ι σ P)) :
    Dict ι (Corr ι σ τ) :=
  gts.foldl (fun row gt => row.set gt.id
    { detId := det.id, gtId := gt.id, similarity := sim det gt,
      detScore := det.score, evaluated := gt.evaluated }) []

/-- `_make_similarity_cache` (`metrics/evaluator.py:564-592`). `sim` is the track's `_shape_similarity`. -/
def makeSimCache (sim : Obj ι σ P → Obj ι σ P → τ) (sub gt : Elements ι σ P) : SimCache ι σ τ :=
  sub.values.foldl (fun cache det => cache.set det.id (simRow sim det gt.values)) []

variable [LinearOrder σ] [LinearOrder τ]

/-- `for gt_id in list(row.keys()): if row[gt_id].similarity < thresh: row.pop(gt_id)`
(`metrics/evaluator.py:659-661`). -/
def pruneRow (thresh : τ) (row : Dict ι (Corr ι σ τ)) : Dict ι (Corr ι σ τ) :=
  row.keys.foldl (fun r g =>
    match r.get? g with
    | some c => if c.similarity < thresh then r.pop g else r
    | none => r) row

/-- `for det_id in sim_cache2.keys(): ...` (`metrics/evaluator.py:658-661`). -/
def pruneCache (thresh : τ) (cache : SimCache ι σ τ) : SimCache ι σ τ :=
  cache.map (fun p => (p.1, pruneRow thresh p.2))

/-- `sort_corrs_by_similarity` (`metrics/evaluator.py:957-964`): in-place stable ascending sort. -/
def sortCorrsBySimilarity (cs : List (Corr ι σ τ)) : List (Corr ι σ τ) :=
  pySorted (fun c => c.similarity) cs

/-- State of the detection loop: `data_assoc[thresh]` and `assigned_gts`
(`metrics/evaluator.py:655,665`). -/
structure MatchState (ι σ τ : Type) where
  assoc : Dict ι (Corr ι σ τ)
  assigned : Dict ι ι

/-- One iteration of the detection loop (`metrics/evaluator.py:673-686`).  `sim_cache2[det_id]` raises
`KeyError` if the id is not in the cache. -/
def matchStep (cache : SimCache ι σ τ) (st : MatchState ι σ τ) (det : Obj ι σ P) :
    Except PyErr (MatchState ι σ τ) := do
  let row ← cache.get det.id
  let possible := row.values.filter (fun c => !st.assigned.has c.gtId)
  match (sortCorrsBySimilarity possible).getLast? with
  | some c => .ok { assoc := st.assoc.set det.id c, assigned := st.assigned.set c.gtId det.id }
  | none => .ok st

/-- The detection loop at one threshold, on the pruned cache (`metrics/evaluator.py:665-686`). -/
def matchAll (cache : SimCache ι σ τ) (dets : List (Obj ι σ P)) :
    Except PyErr (Dict ι (Corr ι σ τ)) := do
  let st ← (pySortedRev (fun e : Obj ι σ P => e.score) dets).foldlM (matchStep cache) ⟨[], []⟩
  return st.assoc

/-- `data_assoc`, the result of `_compute_agnostic_data_assoc`: threshold ↦ det id ↦ `Corr`. -/
abbrev DataAssoc (ι σ τ : Type) := Dict τ (Dict ι (Corr ι σ τ))

/-- One iteration of the threshold loop (`metrics/evaluator.py:654-686`); the state is
(`sim_cache2`, `data_assoc`). -/
def threshStep (dets : List (Obj ι σ P)) (st : SimCache ι σ τ × DataAssoc ι σ τ) (thresh : τ) :
    Except PyErr (SimCache ι σ τ × DataAssoc ι σ τ) := do
  let cache := pruneCache thresh st.1
  let a ← matchAll cache dets
  return (cache, st.2.set thresh a)

/-- `_compute_agnostic_data_assoc` (`metrics/evaluator.py:610-688`).  `gt_elements` is unused by the code. -/
def agnosticAssoc (dets : Elements ι σ P) (thresholds : List τ) (cache : SimCache ι σ τ) :
    Except PyErr (DataAssoc ι σ τ) := do
  let r ← thresholds.foldlM (threshStep dets.values) (cache, [])
  return r.2

/-- `dets_by_cat[cat]` / `gts_by_cat[cat]` (`metrics/evaluator.py:725-737`): the sub-dictionary of the
elements of one category, built by repeated assignment. -/
def byCategory (els : Elements ι σ P) (cat : String) : Elements ι σ P :=
  els.foldl (fun d p => if p.2.category = cat then d.set p.1 p.2 else d) []

/-- `sim_cache_cat` (`metrics/evaluator.py:748-753`).  `sim_cache[det_id]` raises `KeyError` if a key of the
submission is not an element id (evaluated only when there is some gt of the category). -/
def catCache (cache : SimCache ι σ τ) (dets gts : Elements ι σ P) :
    Except PyErr (SimCache ι σ τ) :=
  dets.keys.foldlM (fun acc detId => do
    let row ← gts.keys.foldlM (fun (row : Dict ι (Corr ι σ τ)) gtId => do
      let full ← cache.get detId
      match full.get? gtId with
      | some c => pure (row.set gtId c)
      | none => pure row) []
    pure (acc.set detId row)) []

/-- `_compute_category_data_assoc` (`metrics/evaluator.py:690-759`). -/
def categoryAssoc (dets gts : Elements ι σ P) (thresholds : List τ) (categories : List String)
    (cache : SimCache ι σ τ) : Except PyErr (Dict String (DataAssoc ι σ τ)) :=
  categories.foldlM (fun acc cat => do
    let ds := byCategory dets cat
    let gs := byCategory gts cat
    if ds.length + gs.length = 0 then pure acc
    else do
      let cc ← catCache cache ds gs
      let a ← agnosticAssoc ds thresholds cc
      pure (acc.set cat a)) []

/-- The part of the `settings` dict the association uses (`metrics/evaluator.py:30-45`). -/
structure AssocSettings (τ : Type) where
  thresholds : List τ
  categories : List String
  deriving DecidableEq

/-- An evaluator after construction (`metrics/evaluator.py:60-79`). `settings` is the caller's dict object
after line 61 replaced its thresholds by the sorted ones (shared with the caller). -/
structure Evaluator (ι σ τ P : Type) where
  settings : AssocSettings τ
  submission : Elements ι σ P
  groundTruth : Elements ι σ P
  simCache : SimCache ι σ τ
  agnostic : DataAssoc ι σ τ
  category : Dict String (DataAssoc ι σ τ)

/-- `np.sort` on the thresholds (`metrics/evaluator.py:61`). -/
def npSort (l : List τ) : List τ := l.insertionSort (· ≤ ·)

/-- `Evaluator.__init__` (`metrics/evaluator.py:47-79`) for a track with similarity `sim`. -/
def Evaluator.build (sim : Obj ι σ P → Obj ι σ P → τ) (sub gt : Elements ι σ P)
    (settings : AssocSettings τ) : Except PyErr (Evaluator ι σ τ P) := do
  let s : AssocSettings τ := { settings with thresholds := npSort settings.thresholds }
  let cache := makeSimCache sim sub gt
  let ag ← agnosticAssoc sub s.thresholds cache
  let ca ← categoryAssoc sub gt s.thresholds s.categories cache
  return { settings := s, submission := sub, groundTruth := gt, simCache := cache,
           agnostic := ag, category := ca }

/-- Scenes as produced by `ProjectObjectDict.load` (`semantic/project_object_dict.py:94-97`) and the converter:
distinct keys (always true of a dict) and every key is the id of its element. -/
def WellKeyed (els : Elements ι σ P) : Prop :=
  els.NodupKeys ∧ ∀ p ∈ els, p.1 = p.2.id

end Sumo
