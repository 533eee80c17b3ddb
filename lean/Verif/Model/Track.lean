import Verif.Model.Scores
import Verif.Model.Perceptual
import Verif.Model.Sample
import Verif.Model.Voxel
import Verif.Model.BBox

/-!
# The evaluators as objects

Model of `sumo-api/sumo/metrics/evaluator.py:47-79, 81-275`, of the constructors and `evaluate_all` of
`bb_evaluator.py`, `mesh_evaluator.py`, `voxel_evaluator.py`, and of `tools/evaluate-one.py`, on a heap: scenes refer to
element objects, evaluators keep references to the caller's scenes and settings dict.

`argsort`, `nn` and `interVol` are the library functions of `Scores`, `Points` and `BBox`.  `draws k` are the random numbers
of the `k`-th call of `np.random.uniform` made by a constructor.
-/

namespace Sumo
namespace Track

/-- The three evaluator classes. -/
inductive Kind
  | bb | mesh | voxel
  deriving DecidableEq

/-- The values of a settings dict under the recognised keys (`metrics/evaluator.py:30-45`); `none`: no such key. -/
structure Settings where
  thresholds : Option (List ℝ)
  recallSamples : Option (List ℚ)
  categories : Option (List String)
  density : Option ℝ
  meshOverlap : Option ℝ
  voxelOverlap : Option ℝ
  perceptual : Option PerceptualParams

/-- `np.linspace(a, b, n)` for `n > 1`, in exact arithmetic. -/
def linspace {K : Type} [Field K] (a b : K) (n : ℕ) : List K :=
  (List.range n).map fun i : ℕ => a + (i : K) * ((b - a) / ((n : K) - 1))

/-- `categories` of `default_settings` (`metrics/evaluator.py:89-221`). -/
def defaultCategories : List String :=
  ["air_conditioner", "arch", "armchair", "ATM", "baby_bed", "basketball_hoop", "bathtub", "beer", "bench_chair",
   "book", "books", "bookshelf", "bottle", "bunker_bed", "candle", "car", "cart", "ceiling", "ceiling_fan", "chair",
   "chair_set", "chandelier", "chessboard", "clock", "cloth", "coffee_kettle", "coffee_machine", "coffee_table",
   "column", "computer", "containers", "cup", "curtain", "cutting_board", "desk", "dining_table", "dishwasher", "door",
   "double_bed", "dresser", "dressing_table", "dryer", "fence", "fireplace", "fish_tank", "fishbowl", "floor",
   "floor_lamp", "food_processor", "food_tray", "fruit_bowl", "game_table", "garage_door", "glass", "goal_post",
   "grill", "gym_equipment", "hanger", "hanging_kitchen_cabinet", "heater", "household_appliance", "iron",
   "ironing_board", "jug", "kettle", "kitchen_cabinet", "kitchen_set", "knife_rack", "laptop", "loudspeaker",
   "magazines", "microwave", "mirror", "motorcycle", "office_chair", "ottoman", "outdoor_lamp", "outdoor_seating",
   "pan", "partition", "pedestal_fan", "person", "pet", "piano", "picture_frame", "pillow", "place_setting", "plant",
   "plates", "playstation", "pool", "range_hood", "range_oven", "refrigerator", "roof", "rug", "shelving",
   "shoes_cabinet", "shower", "single_bed", "sink", "soap_dispenser", "sofa", "stairs", "stand",
   "stationary_container", "stereo_set", "switch", "table_and_chair", "table_lamp", "telephone", "television",
   "toilet", "towel_hanger", "towel_rack", "toy", "trash_can", "trinket", "tv_stand", "umbrella", "utensil_holder",
   "vacuum_cleaner", "vase", "wall", "wall_lamp", "wardrobe_cabinet", "washer", "water_dispenser", "whiteboard",
   "window", "workplace", "xbox"]

/-- `Evaluator.default_settings` (`metrics/evaluator.py:81-265`). -/
noncomputable def defaultSettings : Settings where
  thresholds := some (linspace 0.25 0.75 11)
  recallSamples := some (linspace 0 1 11)
  categories := some defaultCategories
  density := some 150
  meshOverlap := some 0.15
  voxelOverlap := some 0.15
  perceptual := some defaultPerceptual

/-- `e.meshes` / `e.voxels` (`semantic/project_object.py:34-52`); a bounding box element has neither. -/
inductive Shape
  | none
  | meshes (l : List PrimMesh)
  | voxels (g : VoxelGrid ℝ)

/-- The attributes of a `ProjectObject` besides those in `Obj`: `posed_points` and `posed_bbox` do not exist until an
evaluator assigns them. -/
structure Fields where
  bounds : Box3d ℝ
  pose : Pose3 ℝ
  symmetry : ObjectSymmetry
  shape : Shape
  posedPoints : Option (List ColorPoint)
  posedBbox : Option (Box3d ℝ)

/-- References to element objects and to settings dicts. -/
abbrev Ref := ℕ

/-- The element objects and the settings dicts the caller has. -/
structure World (ι σ : Type) where
  elem : Ref → Obj ι σ Fields
  dict : Ref → Settings

/-- The `elements` dict of a scene. -/
abbrev SceneObj (ι : Type) := Dict ι Ref

variable {ι σ : Type} [DecidableEq ι] [LinearOrder σ]

/-- The same object with other attributes. -/
def mapObj {P Q : Type} (f : P → Q) (o : Obj ι σ P) : Obj ι σ Q := ⟨o.id, o.category, o.score, o.evaluated, f o.payload⟩

/-- Assignment of attributes of one element. -/
def World.setFields (w : World ι σ) (r : Ref) (f : Fields) : World ι σ :=
  { w with elem := Function.update w.elem r { w.elem r with payload := f } }

/-- What a scene contains now. -/
def World.view {P : Type} (w : World ι σ) (f : Fields → P) (sc : SceneObj ι) : Elements ι σ P :=
  sc.map fun p => (p.1, mapObj f (w.elem p.2))

/-- The body of the loops of `BBEvaluator.__init__` (`metrics/bb_evaluator.py:37-44`). -/
noncomputable def poseBB (e : Fields) : Fields × Option PyErr :=
  ({ e with posedBbox := some (Sumo.posedBbox ⟨e.bounds, e.pose⟩) }, none)

/-- The body of the loops of `VoxelEvaluator.__init__` (`metrics/voxel_evaluator.py:38-49`): `None.voxel_centers` without voxels;
`bounds` of an empty grid raises after `posed_points` was assigned.  The points have no colour columns, modelled as zero
colours (sums over zero columns are zero). -/
noncomputable def poseVoxel (e : Fields) : Fields × Option PyErr :=
  match e.shape with
  | .voxels g =>
    let pts := (e.pose.transformAllFrom g.voxelCenters).map fun p => (⟨p, 0⟩ : ColorPoint)
    match g.bounds with
    | .error x => ({ e with posedPoints := some pts }, some x)
    | .ok b => ({ e with posedPoints := some pts,
                         posedBbox := some (bboxOfPoints (e.pose.transformAllFrom b.corners)) }, none)
  | _ => (e, some .attributeError)

/-- The body of the loops of `MeshEvaluator.__init__` (`metrics/mesh_evaluator.py:142-147`).  `settings` is the argument as
passed: the default is filled in only later, by the base class. -/
noncomputable def poseMesh (settings : Option Settings) (rnd : ℕ → ℝ × ℝ) (e : Fields) : Fields × Option PyErr :=
  match settings with
  | none => (e, some .typeError)
  | some s =>
    match s.density with
    | none => (e, some .keyError)
    | some d =>
      match e.shape with
      | .meshes ms =>
        match sampleElement rnd ms e.pose d with
        | .error x => (e, some x)
        | .ok pts => ({ e with posedPoints := some pts, posedBbox := some (bboxOfPoints (positions pts)) }, none)
      | _ => (e, some .attributeError)

/-- The loops over the elements of both scenes, from the `k`-th element on; an exception leaves the elements before it
changed. -/
def poseAll (step : ℕ → Fields → Fields × Option PyErr) : ℕ → List Ref → World ι σ → World ι σ × Option PyErr
  | _, [], w => (w, none)
  | k, r :: rs, w =>
    match step k (w.elem r).payload with
    | (f, none) => poseAll step (k + 1) rs (w.setFields r f)
    | (f, some x) => (w.setFields r f, some x)

/-- The loop body of a track. -/
noncomputable def poseStep (kind : Kind) (settings : Option Settings) (draws : ℕ → ℕ → ℝ × ℝ) (k : ℕ) :
    Fields → Fields × Option PyErr :=
  match kind with
  | .bb => poseBB
  | .voxel => poseVoxel
  | .mesh => poseMesh settings (draws k)

/-- `self._settings`: the caller's dict, or a fresh one nobody else has. -/
inductive SettingsRef
  | shared (r : Ref)
  | own (s : Settings)

/-- The attributes of an evaluator (`metrics/evaluator.py:60-79`); scenes by reference. -/
structure Ev (ι σ : Type) where
  kind : Kind
  settings : SettingsRef
  submission : SceneObj ι
  groundTruth : SceneObj ι
  simCache : SimCache ι σ ℝ
  agnostic : DataAssoc ι σ ℝ
  category : Dict String (DataAssoc ι σ ℝ)

/-- `d[key]`. -/
def key {α : Type} : Option α → Except PyErr α
  | some x => .ok x
  | none => .error .keyError

/-- The point attributes of an element (assigned by the constructor of the track). -/
def Fields.points (e : Fields) : PointPayload := ⟨e.posedPoints.getD [], e.posedBbox.getD ⟨0, 0⟩⟩

/-- The attributes used by the pose and perceptual metrics. -/
def Fields.pay (e : Fields) : Payload := ⟨e.bounds, e.pose, e.symmetry⟩

/-- The attributes used by the bounding box track. -/
def Fields.boxed (e : Fields) : BoxedElement ℝ := ⟨e.bounds, e.pose⟩

/-- Volume of the intersection solid of two solids (`Sumo.bbSimilarity`). -/
abbrev InterVol := List (Vec3 ℝ) × List ℕ → List (Vec3 ℝ) × List ℕ → ℝ

/-- `_shape_similarity` of a track (`metrics/bb_evaluator.py:75-107`, `metrics/mesh_evaluator.py:206-221`,
`metrics/voxel_evaluator.py:110-125`); `thresh` the overlap threshold.  The bounding box track computes from bounds and pose
(the stored `posed_bbox` is the one just computed from them). -/
noncomputable def shapeSimilarity (kind : Kind) (interVol : InterVol) (nn : List (Vec3 ℝ) → Vec3 ℝ → ℕ) (thresh : ℝ)
    (a b : Obj ι σ Fields) : ℝ :=
  match kind with
  | .bb => (bbSimilarity interVol a.payload.boxed b.payload.boxed).getD 0
  | _ => pointSimilarity nn thresh (mapObj Fields.points a) (mapObj Fields.points b)

/-- The overlap threshold of a track; only read if there is a pair to compare. -/
def overlap (kind : Kind) (s : Settings) (pairs : Bool) : Except PyErr ℝ :=
  match kind with
  | .bb => .ok 0
  | .mesh => if pairs then key s.meshOverlap else .ok 0
  | .voxel => if pairs then key s.voxelOverlap else .ok 0

open Classical in
/-- `Evaluator.__init__` (`metrics/evaluator.py:47-79`).  The thresholds of the dict are replaced by the sorted ones before
anything else.  All lookups of missing keys raise `KeyError`.  A NaN similarity (bounding boxes without volume) is outside the
model. -/
noncomputable def baseInit (interVol : InterVol) (nn : List (Vec3 ℝ) → Vec3 ℝ → ℕ) (kind : Kind) (w : World ι σ)
    (sub gt : SceneObj ι) (settings : Option Ref) : World ι σ × Except PyErr (Ev ι σ) :=
  let s0 := match settings with
    | none => defaultSettings
    | some r => w.dict r
  match s0.thresholds with
  | none => (w, .error .keyError)
  | some ts =>
    let s := { s0 with thresholds := some (npSort ts) }
    let w' := match settings with
      | none => w
      | some r => { w with dict := Function.update w.dict r s }
    (w', do
      let thresh ← overlap kind s (!sub.isEmpty && !gt.isEmpty)
      let cats ← key s.categories
      if kind = .bb ∧ ∃ d ∈ sub.values, ∃ g ∈ gt.values,
          bbSimilarity interVol (w.elem d).payload.boxed (w.elem g).payload.boxed = none then .error .undefined
      else do
        let ev ← Evaluator.build (shapeSimilarity kind interVol nn thresh) (w.view id sub) (w.view id gt) ⟨ts, cats⟩
        pure ⟨kind, match settings with | none => .own s | some r => .shared r, sub, gt, ev.simCache, ev.agnostic, ev.category⟩)

/-- `BBEvaluator(submission, ground_truth, settings)`, `MeshEvaluator(...)`, `VoxelEvaluator(...)`
(`metrics/bb_evaluator.py:23-46`, `metrics/mesh_evaluator.py:126-149`, `metrics/voxel_evaluator.py:21-51`); the last passes the
scenes to the base class in the wrong order. -/
noncomputable def construct (interVol : InterVol) (nn : List (Vec3 ℝ) → Vec3 ℝ → ℕ) (draws : ℕ → ℕ → ℝ × ℝ) (kind : Kind)
    (w : World ι σ) (submission groundTruth : SceneObj ι) (settings : Option Ref) : World ι σ × Except PyErr (Ev ι σ) :=
  match poseAll (poseStep kind (settings.map w.dict) draws) 0 (submission.values ++ groundTruth.values) w with
  | (w', some x) => (w', .error x)
  | (w', none) =>
    if kind = .voxel then baseInit interVol nn kind w' groundTruth submission settings
    else baseInit interVol nn kind w' submission groundTruth settings

namespace Ev

/-- The settings dict as it is now. -/
def settingsIn (w : World ι σ) (e : Ev ι σ) : Settings :=
  match e.settings with
  | .shared r => w.dict r
  | .own s => s

/-- The evaluator with the scenes as they are now. -/
def now {P : Type} (w : World ι σ) (e : Ev ι σ) (f : Fields → P) (s : AssocSettings ℝ) : Evaluator ι σ ℝ P :=
  ⟨s, w.view f e.submission, w.view f e.groundTruth, e.simCache, e.agnostic, e.category⟩

/-- `shape_score` (`metrics/evaluator.py:277-319`); `recall_samples` is read if a threshold and an evaluated element exist. -/
noncomputable def shapeScore (argsort : List σ → List ℕ) (w : World ι σ) (e : Ev ι σ) : Except PyErr (Option ℚ) := do
  let ts ← key (e.settingsIn w).thresholds
  let ev := e.now w id ⟨ts, []⟩
  let rs ← (if !ts.isEmpty && ev.groundTruth.values.any (fun v => v.evaluated) then key (e.settingsIn w).recallSamples else .ok [])
  Sumo.shapeScore argsort ev rs

/-- `pose_error` (`metrics/evaluator.py:321-364`). -/
noncomputable def poseError (w : World ι σ) (e : Ev ι σ) : Except PyErr (Option (ℝ × ℝ)) := do
  let ts ← key (e.settingsIn w).thresholds
  Sumo.poseError (e.now w Fields.pay ⟨ts, []⟩)

/-- `semantics_score` (`metrics/evaluator.py:475-533`). -/
noncomputable def semanticsScore (argsort : List σ → List ℕ) (w : World ι σ) (e : Ev ι σ) : Except PyErr (Option ℚ) := do
  let cats ← key (e.settingsIn w).categories
  let ts ← key (e.settingsIn w).thresholds
  Sumo.semanticsScore argsort (e.now w id ⟨ts, cats⟩)

/-- `perceptual_score` (`metrics/evaluator.py:535-558`); `settings["perceptual"]` is read for every threshold. -/
noncomputable def perceptualScore (w : World ι σ) (e : Ev ι σ) : Except PyErr (Option ℝ) := do
  let ts ← key (e.settingsIn w).thresholds
  if ts.isEmpty then return none
  else do
    let p ← key (e.settingsIn w).perceptual
    Sumo.perceptualScore p (e.now w Fields.pay ⟨ts, []⟩)

/-- `rms_points_error` (`metrics/mesh_evaluator.py:176-187`, `metrics/voxel_evaluator.py:74-86`). -/
noncomputable def rmsPoints (nn : List (Vec3 ℝ) → Vec3 ℝ → ℕ) (w : World ι σ) (e : Ev ι σ) : Except PyErr (Option ℝ) := do
  let ts ← key (e.settingsIn w).thresholds
  pointsRmsssd nn (e.now w Fields.points ⟨ts, []⟩)

/-- `rms_color_error` (`metrics/mesh_evaluator.py:189-200`, `metrics/voxel_evaluator.py:88-100`). -/
noncomputable def rmsColor (nn : List (Vec3 ℝ) → Vec3 ℝ → ℕ) (w : World ι σ) (e : Ev ι σ) : Except PyErr (Option ℝ) := do
  let ts ← key (e.settingsIn w).thresholds
  colorRmsssd nn (e.now w Fields.points ⟨ts, []⟩)

end Ev

/-- A reported number. -/
inductive Num
  | fin (x : ℝ)
  | nan
  | inf

/-- A mean that may be NaN. -/
noncomputable def Num.ofMean : Option ℚ → Num
  | some q => .fin q
  | none => .nan

/-- A real mean that may be NaN. -/
def Num.ofMeanR : Option ℝ → Num
  | some q => .fin q
  | none => .nan

/-- An error that may be infinite. -/
def Num.ofError : Option ℝ → Num
  | some q => .fin q
  | none => .inf

/-- `evaluate_all` (`metrics/bb_evaluator.py:48-69`, `metrics/mesh_evaluator.py:151-172`, `metrics/voxel_evaluator.py:53-72`). -/
noncomputable def evaluateAll (argsort : List σ → List ℕ) (nn : List (Vec3 ℝ) → Vec3 ℝ → ℕ) (w : World ι σ) (e : Ev ι σ) :
    Except PyErr (Dict String Num) := do
  let shape ← e.shapeScore argsort w
  let pose ← e.poseError w
  let first := [("shape_score", Num.ofMean shape), ("rotation_error", Num.ofError (pose.map Prod.fst)),
    ("translation_error", Num.ofError (pose.map Prod.snd))]
  let rms ← (if e.kind = .bb then pure [] else do
    let p ← e.rmsPoints nn w
    let c ← e.rmsColor nn w
    pure [("rms_points_error", Num.ofError p), ("rms_color_error", Num.ofError c)])
  let sem ← e.semanticsScore argsort w
  let per ← e.perceptualScore w
  pure (first ++ rms ++ [("semantics_score", Num.ofMean sem), ("perceptual_score", Num.ofMeanR per)])

/-- `evaluator_lut` (`tools/evaluate-one.py:40-44`). -/
def kindOf (projectType : String) : Except PyErr Kind :=
  if projectType = "meshes" then .ok .mesh
  else if projectType = "voxels" then .ok .voxel
  else if projectType = "bounding_box" then .ok .bb
  else .error .keyError

/-- The five printed lines (`tools/evaluate-one.py:49-58`): label and value. -/
def report (result : Dict String Num) : Except PyErr (List (String × Num)) := do
  let a ← result.get "shape_score"
  let b ← result.get "translation_error"
  let c ← result.get "rotation_error"
  let d ← result.get "semantics_score"
  let f ← result.get "perceptual_score"
  pure [("Shape Score (1 is best)", a), ("Translation Error (0 is best)", b), ("Rotation Error (0 is best)", c),
    ("Semantics Score (1 is best)", d), ("Perceptual Score (1 is best)", f)]

/-- `main` of `tools/evaluate-one.py:22-58`, after the two scenes (project type, elements) were loaded.  `fresh` is the new
settings dict `Evaluator.default_settings()`. -/
noncomputable def evaluateOne (argsort : List σ → List ℕ) (interVol : InterVol) (nn : List (Vec3 ℝ) → Vec3 ℝ → ℕ)
    (draws : ℕ → ℕ → ℝ × ℝ) (w : World ι σ) (fresh : Ref) (gtScene subScene : String × SceneObj ι) :
    World ι σ × Except PyErr (List (String × Num)) :=
  if gtScene.1 ≠ subScene.1 then (w, .error .valueError)
  else
    match kindOf gtScene.1 with
    | .error x => (w, .error x)
    | .ok kind =>
      let w1 := { w with dict := Function.update w.dict fresh defaultSettings }
      match construct interVol nn draws kind w1 subScene.2 gtScene.2 (some fresh) with
      | (w2, .error x) => (w2, .error x)
      | (w2, .ok e) => (w2, do
          let result ← evaluateAll argsort nn w2 e
          report result)

end Track
end Sumo
