import Verif.Model.Mesh
import Verif.Model.Points
import Verif.Model.PointCloud
import Mathlib.Algebra.Order.Floor.Ring
import Mathlib.Algebra.Order.Archimedean.Real.Basic

/-!
# Sampling points on meshes

Model of `sumo-api/sumo/metrics/mesh_evaluator.py:21-119` and `sumo-api/sumo/threedee/model_sampler.pyx`, over the real
numbers.  An `n×6` array is the list of its rows (`ColorPoint`).  The random numbers drawn are a parameter `rnd`: row `k`
of `np.random.uniform(0, 1, (N, 2))`.
-/

namespace Sumo

/-- `faces[0::3, :]` (and, after dropping one or two rows, `faces[1::3, :]`, `faces[2::3, :]`)
(`metrics/mesh_evaluator.py:89`, `threedee/model_sampler.pyx:96`). -/
def everyThird {α : Type} : List α → List α
  | [] => []
  | a :: rest => a :: everyThird (rest.drop 2)
termination_by l => l.length
decreasing_by simp only [List.length_drop, List.length_cons]; omega

/-- A row-wise binary operation of numpy on two arrays of rows: equal lengths, or one of length 1 which is broadcast. -/
def broadcast {α β γ : Type} (f : α → β → γ) (xs : List α) (ys : List β) : Except PyErr (List γ) :=
  if xs.length = ys.length then .ok (List.zipWith f xs ys)
  else match xs, ys with
    | [x], ys => .ok (ys.map (f x))
    | xs, [y] => .ok (xs.map (f · y))
    | _, _ => .error .valueError

/-- `areas` (`metrics/mesh_evaluator.py:90-91`, `threedee/model_sampler.pyx:97-98`). -/
noncomputable def faceAreas (A B C : List ColorPoint) : Except PyErr (List ℝ) := do
  let ac ← broadcast (fun a c : ColorPoint => a.pos - c.pos) A C
  let bc ← broadcast (fun b c : ColorPoint => b.pos - c.pos) B C
  let cross ← broadcast Vec3.cross ac bc
  pure (cross.map fun v => 1 / 2 * Real.sqrt (v.x ^ 2 + v.y ^ 2 + v.z ^ 2))

/-- `.astype(int)`: truncation toward zero. -/
noncomputable def astypeInt (x : ℝ) : ℤ := if 0 ≤ x then ⌊x⌋ else ⌈x⌉

/-- `Nsamples_per_face` of `sample_mesh` (`metrics/mesh_evaluator.py:93-100`). -/
noncomputable def clipCounts (density : ℝ) (areas : List ℝ) : List ℕ :=
  areas.map fun a => (max (astypeInt (density * a)) 1).toNat

/-- `Nsamples_per_face` of `_sample_mesh` (`threedee/model_sampler.pyx:101`). -/
noncomputable def maximumCounts (density : ℝ) (areas : List ℝ) : List ℕ :=
  areas.map fun a => (astypeInt (max 1 (density * a))).toNat

/-- The slice assignment `face_ids[count:count + n] = i`. -/
def setSlice (ids : List ℕ) (start n i : ℕ) : List ℕ :=
  let stop := min (start + n) ids.length
  ids.take start ++ List.replicate (stop - start) i ++ ids.drop (start + n)

/-- The loop filling `face_ids` (`metrics/mesh_evaluator.py:107-110`, `threedee/model_sampler.pyx:111-114`): faces from
number `i` on. -/
def fillFaceIds : List ℕ → ℕ → ℕ → List ℕ → List ℕ
  | ids, _, _, [] => ids
  | ids, count, i, n :: rest => fillFaceIds (setSlice ids count n i) (count + n) (i + 1) rest

/-- `face_ids` (`metrics/mesh_evaluator.py:101-110`, `threedee/model_sampler.pyx:102-114`). -/
def faceIds (counts : List ℕ) : List ℕ := fillFaceIds (List.replicate counts.sum 0) 0 0 counts

/-- One row of `samples` (`metrics/mesh_evaluator.py:117-118`, `threedee/model_sampler.pyx:119-120`). -/
noncomputable def samplePoint (a b c : ColorPoint) (r : ℝ × ℝ) : ColorPoint :=
  let s := Real.sqrt r.1
  ⟨Vec3.smul (1 - s) a.pos + Vec3.smul (s * (1 - r.2)) b.pos + Vec3.smul (s * r.2) c.pos,
   Vec3.smul (1 - s) a.color + Vec3.smul (s * (1 - r.2)) b.color + Vec3.smul (s * r.2) c.color⟩

/-- The last part of both sampling functions (`metrics/mesh_evaluator.py:112-119`, `threedee/model_sampler.pyx:116-121`). -/
noncomputable def drawSamples (rnd : ℕ → ℝ × ℝ) (A B C : List ColorPoint) (ids : List ℕ) : Except PyErr (List ColorPoint) := do
  let A ← PointCloud.select A ids
  let B ← PointCloud.select B ids
  let C ← PointCloud.select C ids
  pure ((List.zip A (List.zip B C)).zipIdx.map fun p => samplePoint p.1.1 p.1.2.1 p.1.2.2 (rnd p.2))

/-- `sample_mesh` (`metrics/mesh_evaluator.py:75-119`). -/
noncomputable def sampleMesh (rnd : ℕ → ℝ × ℝ) (faces : List ColorPoint) (density : ℝ) : Except PyErr (List ColorPoint) := do
  let A := everyThird faces
  let B := everyThird (faces.drop 1)
  let C := everyThird (faces.drop 2)
  let areas ← faceAreas A B C
  drawSamples rnd A B C (faceIds (clipCounts density areas))

/-- The result of `ModelSampler`: normally an array with six columns, but one with three columns and no rows when there is
nothing to sample (`threedee/model_sampler.pyx:104-105`). -/
inductive SampleArray
  | rows6 (rows : List ColorPoint)
  | empty3

/-- `_sample_mesh` (`threedee/model_sampler.pyx:72-121`). -/
noncomputable def sampleMesh' (rnd : ℕ → ℝ × ℝ) (faces : List ColorPoint) (density : ℝ) : Except PyErr SampleArray := do
  let A := everyThird faces
  let B := everyThird (faces.drop 1)
  let C := everyThird (faces.drop 2)
  let areas ← faceAreas A B C
  let counts := maximumCounts density areas
  if counts.sum = 0 then pure .empty3
  else do
    let rows ← drawSamples rnd A B C (faceIds counts)
    pure (.rows6 rows)

/-- A three channel texture. -/
structure RgbImage where
  rows : ℕ
  cols : ℕ
  pixel : ℕ → ℕ → Vec3 ℝ

/-- An image without pixels (`cv::Mat::empty`). -/
def RgbImage.isEmpty (i : RgbImage) : Bool := decide (i.rows = 0 ∨ i.cols = 0)

/-- A primitive mesh of a model: `Mesh` or `TexturedMesh`. -/
inductive PrimMesh
  | plain (m : Mesh ℝ)
  | textured (m : TexturedMesh ℝ RgbImage)

namespace PrimMesh

/-- `indices()` -/
def indices : PrimMesh → List ℕ
  | plain m => m.indices
  | textured m => m.indices

/-- `vertices()` -/
def vertices : PrimMesh → List (Vec3 ℝ)
  | plain m => m.vertices
  | textured m => m.vertices

/-- `transform` (`threedee/mesh.pyx:87-91`, `threedee/textured_mesh.pyx:148-155`). -/
def transform (T : Pose3 ℝ) : PrimMesh → Except PyErr PrimMesh
  | plain m => do
    let p ← m.transform T
    pure (plain p)
  | textured m => do
    let p ← m.transform RgbImage.isEmpty T
    pure (textured p)

end PrimMesh

/-- `base_color()[r, c, :]` for one texture coordinate, with `r = mod(floor(uv[0] * h), h)`, `c = mod(floor(uv[1] * w), w)`
(`metrics/mesh_evaluator.py:64-66`, `threedee/model_sampler.pyx:57-59`). -/
noncomputable def texel (img : RgbImage) (uv : ℝ × ℝ) : Except PyErr (Vec3 ℝ) :=
  let r := ⌊uv.1 * img.rows⌋ % (img.rows : ℤ)
  let c := ⌊uv.2 * img.cols⌋ % (img.cols : ℤ)
  if 0 ≤ r ∧ r < img.rows ∧ 0 ≤ c ∧ c < img.cols then .ok (img.pixel r.toNat c.toNat) else .error .indexError

/-- `colors` for every index (`metrics/mesh_evaluator.py:53-66`, `threedee/model_sampler.pyx:46-59`); the single grey row
is broadcast. -/
noncomputable def meshColors : PrimMesh → Except PyErr (List (Vec3 ℝ))
  | .plain m => .ok (List.replicate m.indices.length ⟨128, 128, 128⟩)
  | .textured m =>
    if m.baseColor.rows = 0 ∨ m.baseColor.cols = 0 then .ok (List.replicate m.indices.length ⟨128, 128, 128⟩)
    else do
      let uv ← PointCloud.select m.uvCoords m.indices
      uv.mapM (texel m.baseColor)

/-- The rows of `faces` filled for one mesh (`metrics/mesh_evaluator.py:50-69`, `threedee/model_sampler.pyx:43-62`). -/
noncomputable def meshFaces (m : PrimMesh) : Except PyErr (List ColorPoint) := do
  let vs ← PointCloud.select m.vertices m.indices
  let cs ← meshColors m
  pure (List.zipWith ColorPoint.mk vs cs)

/-- The loop over the meshes (`metrics/mesh_evaluator.py:44-69`): consecutive slices of `faces`, as many rows as the mesh
has indices, so `faces` ends up as the concatenation. -/
noncomputable def elementFaces (pose : Pose3 ℝ) : List PrimMesh → Except PyErr (List ColorPoint)
  | [] => .ok []
  | m :: rest => do
    let posed ← m.transform pose
    let here ← meshFaces posed
    let more ← elementFaces pose rest
    pure (here ++ more)

/-- `sample_element` (`metrics/mesh_evaluator.py:21-72`).  Without meshes `np.sum([])` is the float `0.0`, which
`np.zeros` refuses as a dimension. -/
noncomputable def sampleElement (rnd : ℕ → ℝ × ℝ) (meshes : List PrimMesh) (pose : Pose3 ℝ) (density : ℝ) :
    Except PyErr (List ColorPoint) :=
  if meshes = [] then .error .typeError
  else do
    let faces ← elementFaces pose meshes
    sampleMesh rnd faces density

/-- The loop over the meshes of `ModelSampler.run` (`threedee/model_sampler.pyx:40-62`). -/
noncomputable def modelFaces : List PrimMesh → Except PyErr (List ColorPoint)
  | [] => .ok []
  | m :: rest => do
    let here ← meshFaces m
    let more ← modelFaces rest
    pure (here ++ more)

/-- `ModelSampler.run` (`threedee/model_sampler.pyx:18-65`). -/
noncomputable def modelSamplerRun (rnd : ℕ → ℝ × ℝ) (meshes : List PrimMesh) (density : ℝ) : Except PyErr SampleArray :=
  if meshes = [] then .error .typeError
  else do
    let faces ← modelFaces meshes
    sampleMesh' rnd faces density

end Sumo
