import Verif.Model.Geometry
import Verif.Model.PoseError

/-!
# Meshes

Model of `sumo-api/sumo/threedee/Mesh.{h,cpp}`, `TexturedMesh.{h,cpp}`, `mesh.pyx` and `textured_mesh.pyx`.
Coordinates are exact (the code has `float32`), indices are natural numbers (the code has `uint32`).  `none` as the result
of an operation stands for C++ undefined behaviour (an access outside a `std::vector`).
-/

namespace Sumo

/-- `tinygltf::Parameter` (`threedee/tiny_gltf/tiny_gltf.h:363-369`): `has_number_value`, `string_value`,
`json_double_value`, `number_array`, `number_value` and `bool_value` (these two `none` if they were never assigned). -/
structure GltfParameter where
  hasNumber : Bool
  str : String
  num : Dict String ℚ
  array : List ℚ := []
  value : Option ℚ := none
  bool : Option Bool := none
  deriving DecidableEq

/-- `tinygltf::Material` (`threedee/tiny_gltf/tiny_gltf.h:504-511`) without extensions and extras.  A `ParameterMap` is an
ordered `std::map`: the list of its entries by ascending key. -/
structure GltfMaterial where
  name : String
  values : Dict String GltfParameter
  additionalValues : Dict String GltfParameter
  deriving DecidableEq

/-- A default-constructed material. -/
def GltfMaterial.empty : GltfMaterial := ⟨"", [], []⟩

/-- `Mesh` (`threedee/Mesh.h:209-214`). -/
structure Mesh (K : Type) where
  indices : List ℕ
  vertices : List (Vec3 K)
  normals : List (Vec3 K)
  material : GltfMaterial
  deriving DecidableEq

/-- `TexturedMesh` (`threedee/TexturedMesh.h:26-32`).  `I` is the type of images. -/
structure TexturedMesh (K I : Type) extends Mesh K where
  uvCoords : List (K × K)
  baseColor : I
  metallicRoughness : I
  deriving DecidableEq

namespace Mesh
variable {K : Type}

/-- `Mesh.__init__` (`threedee/mesh.pyx:33-40`) with `Mesh::Mesh` (`threedee/Mesh.cpp:23-29`). -/
def create (indices : List ℕ) (vertices normals : List (Vec3 K)) : Except PyErr (Mesh K) :=
  if vertices.length = normals.length then .ok ⟨indices, vertices, normals, .empty⟩ else .error .assertionError

/-- The copy constructor (`threedee/Mesh.h:102-105`), used by `Mesh_copy` (`threedee/mesh.pyx:174-177`). -/
def copy (m : Mesh K) : Mesh K := ⟨m.indices, m.vertices, m.normals, .empty⟩

/-- `Mesh::merge` (`threedee/Mesh.cpp:150-165`).  `index2 + offset` with `offset = numVertices() - numCommonVertices`; the
unsigned arithmetic gives `index2 + numVertices() - numCommonVertices`, as `index2 ≥ numCommonVertices` there. -/
def merge (m m2 : Mesh K) (numCommonVertices : ℕ) : Mesh K :=
  let indices := m.indices ++ m2.indices.map fun index2 =>
    if index2 < numCommonVertices then index2 else index2 + m.vertices.length - numCommonVertices
  if m2.vertices.length > numCommonVertices then
    { m with indices := indices, vertices := m.vertices ++ m2.vertices.drop numCommonVertices,
             normals := m.normals ++ m2.normals.drop numCommonVertices }
  else { m with indices := indices }

/-- The `clear()` calls (`threedee/Mesh.cpp:169-171`). -/
def cleared (m : Mesh K) : Mesh K := { m with indices := [], vertices := [], normals := [] }

/-- `Mesh::replaceGeometry` (`threedee/Mesh.cpp:167-175`) of object `i` with object `j` of the heap `h`.  `mesh2` is passed by
reference, so the clearing is visible through it when `i = j`. -/
def replaceGeometry (h : ℕ → Mesh K) (i j : ℕ) : ℕ → Mesh K :=
  let h1 := Function.update h i (h i).cleared
  Function.update h1 i ((h1 i).merge (h1 j) 0)

section
variable [CommRing K]

/-- `Mesh.rotate` (`threedee/mesh.pyx:81-85`). -/
def rotate (m : Mesh K) (R : Rot3 K) : Except PyErr (Mesh K) :=
  create m.indices (R.applyAll m.vertices) (R.applyAll m.normals)

/-- `Mesh.transform` (`threedee/mesh.pyx:87-91`). -/
def transform (m : Mesh K) (T : Pose3 K) : Except PyErr (Mesh K) :=
  create m.indices (T.transformAllFrom m.vertices) (T.R.applyAll m.normals)
end

/-- Eigen's `normalized()`: vectors of length 0 are left alone (`threedee/Mesh.cpp:45,72`). -/
noncomputable def normalized (v : Vec3 ℝ) : Vec3 ℝ :=
  if v.normSq > 0 then ⟨v.x / v.norm, v.y / v.norm, v.z / v.norm⟩ else v

/-- `Mesh::CalculateFaceNormals` (`threedee/Mesh.cpp:31-49`). -/
noncomputable def faceNormals (vertices : List (Vec3 ℝ)) : List ℕ → Option (List (Vec3 ℝ))
  | i0 :: i1 :: i2 :: rest => do
    let v0 ← vertices[i0]?
    let v1 ← vertices[i1]?
    let v2 ← vertices[i2]?
    let a := v1 - v0
    let b := v2 - v0
    let ns ← faceNormals vertices rest
    some (normalized (a.cross b) :: ns)
  | _ => some []

/-- The loop that adds face normals to vertices (`threedee/Mesh.cpp:62-70`). -/
def addNormals {K : Type} [CommRing K] (normals : List (Vec3 K)) : List ℕ → List (Vec3 K) → List (Vec3 K)
  | i :: j :: k :: rest, n :: ns =>
    addNormals (((normals.modify i (· + n)).modify j (· + n)).modify k (· + n)) rest ns
  | _, _ => normals

/-- `Mesh::EstimateNormals` (`threedee/Mesh.cpp:51-76`). -/
noncomputable def estimateNormals (indices : List ℕ) (vertices : List (Vec3 ℝ)) : Option (List (Vec3 ℝ)) := do
  let fs ← faceNormals vertices indices
  some ((addNormals (List.replicate vertices.length 0) indices fs).map normalized)

/-- The loop over all triangles of the clean-up functions (`threedee/Mesh.cpp:84-94,102-112`); `keep` decides. -/
def cleanupLoop {K : Type} (keep : Vec3 K → Vec3 K → Vec3 K → Bool) (vertices : List (Vec3 K)) :
    List ℕ → Option (List ℕ)
  | i :: j :: k :: rest => do
    let a ← vertices[i]?
    let b ← vertices[j]?
    let c ← vertices[k]?
    let new ← cleanupLoop keep vertices rest
    if keep a b c then some (i :: j :: k :: new) else some new
  | _ => some []

open Classical in
/-- `Mesh::cleanupLongEdges` (`threedee/Mesh.cpp:78-96`). -/
noncomputable def cleanupLongEdges (m : Mesh ℝ) (threshold : ℝ) : Option (Mesh ℝ) := do
  let new ← cleanupLoop (fun a b c => decide ((a - b).norm ≤ threshold) && decide ((b - c).norm ≤ threshold) &&
    decide ((c - a).norm ≤ threshold)) m.vertices m.indices
  some { m with indices := new }

/-- Eigen's `isZero(prec)`: every coefficient is at most `prec` in absolute value (`threedee/Mesh.cpp:104`). -/
def isZero {K : Type} [Field K] [LinearOrder K] (v : Vec3 K) (precision : K) : Bool :=
  decide (|v.x| ≤ precision) && decide (|v.y| ≤ precision) && decide (|v.z| ≤ precision)

/-- `Mesh::cleanupEdgesToOrigin` (`threedee/Mesh.cpp:98-114`); the Python wrapper uses the default precision `1e-10`. -/
def cleanupEdgesToOrigin {K : Type} [Field K] [LinearOrder K] (m : Mesh K) (precision : K) : Option (Mesh K) := do
  let new ← cleanupLoop (fun a b c => !(isZero a precision || isZero b precision || isZero c precision)) m.vertices m.indices
  some { m with indices := new }

/-- The index table of `Mesh::Example` (`threedee/Mesh.cpp:119-134`). -/
def exampleIndices (inward : Bool) : List ℕ :=
  let t := [1, 0, 2, 2, 3, 1, 4, 0, 1, 1, 5, 4, 2, 0, 4, 4, 6, 2,
            5, 7, 6, 6, 4, 5, 6, 7, 3, 3, 2, 6, 3, 7, 5, 5, 1, 3]
  if inward = false then t.reverse else t

/-- The vertices of `Mesh::Example` (`threedee/Mesh.cpp:136-145`). -/
def exampleVertices {K : Type} [Field K] (length : K) : List (Vec3 K) :=
  let radius := length / 2
  [⟨-radius, -radius, -radius⟩, ⟨-radius, -radius, radius⟩, ⟨-radius, radius, -radius⟩, ⟨-radius, radius, radius⟩,
   ⟨radius, -radius, -radius⟩, ⟨radius, -radius, radius⟩, ⟨radius, radius, -radius⟩, ⟨radius, radius, radius⟩]

/-- `Mesh::Example` (`threedee/Mesh.cpp:116-148`), `Mesh.example` (`threedee/mesh.pyx:70-79`). -/
noncomputable def example' (length : ℝ) (inward : Bool) : Option (Mesh ℝ) := do
  let ns ← estimateNormals (exampleIndices inward) (exampleVertices length)
  some ⟨exampleIndices inward, exampleVertices length, ns, .empty⟩

/-- The vertex table of `cube` (`threedee/mesh.pyx:128-132`, `threedee/textured_mesh.pyx:98-102`). -/
def cubeVertices {K : Type} [CommRing K] : List (Vec3 K) :=
  [⟨1, -1, 1⟩, ⟨-1, -1, 1⟩, ⟨1, 1, 1⟩, ⟨-1, 1, 1⟩, ⟨-1, -1, 1⟩, ⟨-1, -1, -1⟩, ⟨-1, 1, 1⟩, ⟨-1, 1, -1⟩,
   ⟨-1, -1, -1⟩, ⟨1, -1, -1⟩, ⟨-1, 1, -1⟩, ⟨1, 1, -1⟩, ⟨1, -1, -1⟩, ⟨1, -1, 1⟩, ⟨1, 1, -1⟩, ⟨1, 1, 1⟩,
   ⟨-1, 1, -1⟩, ⟨1, 1, -1⟩, ⟨-1, 1, 1⟩, ⟨1, 1, 1⟩, ⟨-1, -1, 1⟩, ⟨1, -1, 1⟩, ⟨-1, -1, -1⟩, ⟨1, -1, -1⟩]

/-- The normals of `cube` (`threedee/mesh.pyx:134-139`, `threedee/textured_mesh.pyx:104-109`). -/
def cubeNormals {K : Type} [CommRing K] : List (Vec3 K) :=
  let dir : List (Vec3 K) := [⟨0, 0, -1⟩, ⟨1, 0, 0⟩, ⟨0, 0, 1⟩, ⟨-1, 0, 0⟩, ⟨0, -1, 0⟩, ⟨0, 1, 0⟩]
  dir.flatMap fun d => [d, d, d, d]

/-- `Mesh.cube` (`threedee/mesh.pyx:115-141`): the index array is allocated with `np.empty` and never filled;
`uninit` is its content. -/
def cube {K : Type} [CommRing K] (uninit : List ℕ) : Except PyErr (Mesh K) := create uninit cubeVertices cubeNormals

/-- `parametersEqual` (`threedee/Mesh.cpp:183-190`). -/
def parametersEqual (a b : GltfParameter) : Bool :=
  decide (a.hasNumber = b.hasNumber) && decide (a.str = b.str) && decide (a.num = b.num)

/-- `operator==` for parameter maps with `namedParametersEqual` (`threedee/Mesh.cpp:192-205`). -/
def parameterMapsEqual (a b : Dict String GltfParameter) : Bool :=
  decide (a.length = b.length) && (a.zip b).all fun p => decide (p.1.1 = p.2.1) && parametersEqual p.1.2 p.2.2

/-- `operator==` for materials (`threedee/Mesh.cpp:208-211`). -/
def materialsEqual (a b : GltfMaterial) : Bool :=
  parameterMapsEqual a.additionalValues b.additionalValues && parameterMapsEqual a.values b.values &&
    decide (a.name = b.name)

/-- `Mesh::hasSameMaterial` (`threedee/Mesh.cpp:216-218`). -/
def hasSameMaterial {K : Type} (m m2 : Mesh K) : Bool := materialsEqual m.material m2.material

end Mesh

namespace TexturedMesh
variable {K I : Type}

/-- A texture parameter with the given index (`threedee/TexturedMesh.cpp:32-34`). -/
def textureParameter (i : ℚ) : GltfParameter := { hasNumber := false, str := "", num := [("index", i)] }

/-- The material set up by the constructor (`threedee/TexturedMesh.cpp:31-41`); `hasMr` is whether the metallic/roughness
texture is non-empty. -/
def defaultMaterial (hasMr : Bool) : GltfMaterial :=
  ⟨"", if hasMr then [("baseColorTexture", textureParameter 0), ("metallicRoughnessTexture", textureParameter 1)]
    else [("baseColorTexture", textureParameter 0)], []⟩

/-- `TexturedMesh.__init__` (`threedee/textured_mesh.pyx:24-47`) with `TexturedMesh::TexturedMesh`
(`threedee/TexturedMesh.cpp:17-42`); `isEmpty` is `cv::Mat::empty`. -/
def create (isEmpty : I → Bool) (indices : List ℕ) (vertices normals : List (Vec3 K)) (uv : List (K × K))
    (baseColor mr : I) : Except PyErr (TexturedMesh K I) :=
  if vertices.length ≠ normals.length then .error .assertionError
  else if vertices.length < uv.length then .error .assertionError
  else .ok ⟨⟨indices, vertices, normals, defaultMaterial (!isEmpty mr)⟩, uv, baseColor, mr⟩

/-- The lambda `assemble` of `renumber` (`threedee/TexturedMesh.cpp:61-69`). `junk` is the content of new elements. -/
def assemble {α : Type} (junk : α) (numNew : ℕ) (renumbering : List ℕ) (b : List α) : Option (List α) :=
  if b.length < renumbering.length then none
  else if renumbering.any (fun r => decide (numNew ≤ r)) then none
  else some ((renumbering.zip b).foldl (fun a p => a.set p.1 p.2) (List.replicate numNew junk)
    ++ b.drop renumbering.length)

/-- `TexturedMesh::renumber` (`threedee/TexturedMesh.cpp:44-76`). -/
def renumber (junkV : Vec3 K) (junkUv : K × K) (m : TexturedMesh K I) (numNewVertices : ℕ) (renumbering : List ℕ) :
    Option (TexturedMesh K I) := do
  let newIndices := m.indices.map fun index =>
    if index < renumbering.length then renumbering[index]?.getD 0 else index + numNewVertices
  let vs ← assemble junkV numNewVertices renumbering m.vertices
  let ns ← assemble junkV numNewVertices renumbering m.normals
  let uv ← assemble junkUv numNewVertices renumbering m.uvCoords
  some { m with indices := newIndices, vertices := vs, normals := ns, uvCoords := uv }

/-- `TexturedMesh::merge` (`threedee/TexturedMesh.cpp:78-89`). -/
def merge (m m2 : TexturedMesh K I) (numCommonVertices : ℕ) : Option (TexturedMesh K I) :=
  let base := m.toMesh.merge m2.toMesh numCommonVertices
  if m2.vertices.length > numCommonVertices then
    if m2.uvCoords.length < numCommonVertices then none
    else some { m with toMesh := base, uvCoords := m.uvCoords ++ m2.uvCoords.drop numCommonVertices }
  else some { m with toMesh := base }

/-- The `clear()` calls (`threedee/TexturedMesh.cpp:92-95`). -/
def cleared (m : TexturedMesh K I) : TexturedMesh K I :=
  { m with indices := [], vertices := [], normals := [], uvCoords := [] }

/-- `TexturedMesh::replaceGeometry` (`threedee/TexturedMesh.cpp:91-97`) on a heap, as `Mesh.replaceGeometry`. The call of
`merge` with 0 common vertices is always defined. -/
def replaceGeometry (h : ℕ → TexturedMesh K I) (i j : ℕ) : Option (ℕ → TexturedMesh K I) := do
  let h1 := Function.update h i (h i).cleared
  let m ← (h1 i).merge (h1 j) 0
  some (Function.update h1 i m)

/-- `TexturedMesh::hasDualTextureMaterial` (`threedee/TexturedMesh.cpp:99-111`); `at("index")` on a parameter without
one throws `std::out_of_range`. -/
def hasDualTextureMaterial (m : TexturedMesh K I) : Except PyErr Bool :=
  match m.material.values.get? "baseColorTexture" with
  | none => .ok false
  | some c =>
    match c.num.get? "index" with
    | none => .error .indexError
    | some i =>
      if i ≠ 0 then .ok false
      else match m.material.values.get? "metallicRoughnessTexture" with
        | none => .ok false
        | some r =>
          match r.num.get? "index" with
          | none => .error .indexError
          | some k => .ok (decide (k = 1))

/-- `TexturedMesh.transform` (`threedee/textured_mesh.pyx:149-156`). -/
def transform [CommRing K] (isEmpty : I → Bool) (m : TexturedMesh K I) (T : Pose3 K) :
    Except PyErr (TexturedMesh K I) :=
  create isEmpty m.indices (T.transformAllFrom m.vertices) (T.R.applyAll m.normals) m.uvCoords m.baseColor
    m.metallicRoughness

/-- `TexturedMesh.rotate` (`threedee/textured_mesh.pyx:140-147`). -/
def rotate [CommRing K] (isEmpty : I → Bool) (m : TexturedMesh K I) (R : Rot3 K) : Except PyErr (TexturedMesh K I) :=
  create isEmpty m.indices (R.applyAll m.vertices) (R.applyAll m.normals) m.uvCoords m.baseColor m.metallicRoughness

/-- `TexturedMesh.from_mesh` (`threedee/textured_mesh.pyx:53-70`); `uniform` is the 2×2 image, `dfltMr` the default
metallic/roughness texture of the constructor. -/
def fromMesh [CommRing K] (isEmpty : I → Bool) (uniform dfltMr : I) (m : Mesh K) : Except PyErr (TexturedMesh K I) :=
  create isEmpty m.indices m.vertices m.normals (List.replicate m.vertices.length (0, 0)) uniform dfltMr

/-- The index array of `TexturedMesh.cube` (`threedee/textured_mesh.pyx:93`). -/
def cubeIndices : List ℕ :=
  (List.range 6).flatMap fun i => let j := 4 * i; [j + 0, j + 1, j + 2, j + 1, j + 3, j + 2]

/-- The texture coordinates of `TexturedMesh.cube` (`threedee/textured_mesh.pyx:87-92,111-114`). -/
def cubeUv [Field K] (size : K) : List (K × K) :=
  (List.range 6).flatMap fun (i : ℕ) =>
    let ox : K := (i : K) * size
    [((ox + 0) / size / 6, size / size), ((ox + size) / size / 6, size / size),
     ((ox + 0) / size / 6, 0 / size), ((ox + size) / size / 6, 0 / size)]

/-- `TexturedMesh.cube` (`threedee/textured_mesh.pyx:72-117`); `rows`, `cols` are the shape of the base color texture. -/
def cube [Field K] (isEmpty : I → Bool) (rows cols : ℕ) (baseColor mr : I) : Except PyErr (TexturedMesh K I) :=
  if cols ≠ 6 * rows then .error .assertionError
  else create isEmpty cubeIndices Mesh.cubeVertices Mesh.cubeNormals (cubeUv (rows : K)) baseColor mr

/-- `TexturedMesh.merge_quadrant_meshes` (`threedee/textured_mesh.pyx:175-200`). -/
def mergeQuadrantMeshes (junkV : Vec3 K) (junkUv : K × K) (mesh0 mesh1 mesh2 mesh3 : TexturedMesh K I) :
    Option (TexturedMesh K I) := do
  let mesh0 ← mesh0.renumber junkV junkUv 4 [2, 0, 3, 1]
  let mesh1 ← mesh1.renumber junkV junkUv 4 [0, 2, 1, 3]
  let mesh0 ← mesh0.merge mesh1 2
  let mesh2 ← mesh2.renumber junkV junkUv 4 [3, 0, 2, 1]
  let mesh3 ← mesh3.renumber junkV junkUv 4 [0, 3, 1, 2]
  let mesh2 ← mesh2.merge mesh3 2
  let mesh0 ← mesh0.renumber junkV junkUv 6 [4, 1, 3, 0, 5, 2]
  let mesh2 ← mesh2.renumber junkV junkUv 6 [1, 4, 3, 0, 5, 2]
  let mesh0 ← mesh0.merge mesh2 3
  mesh0.renumber junkV junkUv 9 [4, 6, 8, 0, 5, 1, 2, 7, 3]

end TexturedMesh
end Sumo
