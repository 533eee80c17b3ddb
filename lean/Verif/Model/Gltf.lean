import Verif.Model.Mesh

/-!
# glTF models

Model of `sumo-api/sumo/threedee/GltfModel.{h,cpp}` and `gltf_model.pyx`, down to the bytes of the buffers.  The base class
`tinygltf::Model` (`threedee/tiny_gltf/tiny_gltf.h`) is third-party; only the fields used are modelled.  Indices are unbounded
(the code has 32-bit `int`).  Reads outside a buffer and negative array indices give `PyErr.undefined`.
-/

namespace Sumo

/-- An IEEE 754 binary32 number, by its bits (the `float` of `Vector3f`, `Vector2f`). -/
structure F32 where
  bits : UInt32
  deriving DecidableEq

namespace F32

/-- The bits without the sign. -/
def magnitude (x : F32) : ℕ := x.bits.toNat % 2147483648

/-- Not a number: all exponent bits set and the fraction not zero. -/
def isNaN (x : F32) : Bool := decide (2139095040 < x.magnitude)

/-- Sign and magnitude as an integer: in the order of the numbers. -/
def key (x : F32) : ℤ := if 2147483648 ≤ x.bits.toNat then -(x.magnitude : ℤ) else x.magnitude

/-- `a < b` on `float`. -/
def lt (a b : F32) : Bool := !a.isNaN && !b.isNaN && decide (a.key < b.key)

/-- `std::min(a, b)` -/
def min (a b : F32) : F32 := if b.lt a then b else a

/-- `std::max(a, b)` -/
def max (a b : F32) : F32 := if a.lt b then b else a

/-- `float minValue = INT_MAX` (`threedee/GltfModel.cpp:103`): 2³¹, to which the conversion rounds. -/
def intMax : F32 := ⟨0x4F000000⟩

/-- `float maxValue = INT_MIN` (`threedee/GltfModel.cpp:103`): -2³¹. -/
def intMin : F32 := ⟨0xCF000000⟩

end F32

/-- `cv::Mat3b`, stored without gaps (as `addTexture` assumes, `threedee/GltfModel.cpp:198-200`). -/
structure Mat3b where
  rows : ℕ
  cols : ℕ
  data : List UInt8
  deriving DecidableEq

namespace Mat3b

/-- A default-constructed image. -/
def none : Mat3b := ⟨0, 0, []⟩

/-- `cv::Mat::empty` -/
def isEmpty (m : Mat3b) : Bool := m.rows * m.cols == 0

end Mat3b

/-- The meshes of this module. -/
abbrev AnyMesh := Mesh F32 ⊕ TexturedMesh F32 Mat3b

/-- `d[k] = v` on a `std::map`. -/
def mapSet {υ : Type} : Dict String υ → String → υ → Dict String υ
  | [], k, v => [(k, v)]
  | (k', v') :: d, k, v =>
    if k' = k then (k, v) :: d else if k < k' then (k, v) :: (k', v') :: d else (k', v') :: mapSet d k v

namespace Gltf

/-- How elements of a type lie in memory (little endian). -/
structure Codec (α : Type) where
  size : ℕ
  enc : α → List UInt8
  dec : List UInt8 → α

/-- `count` elements from the start of `l`. -/
def decodeMany {α : Type} (c : Codec α) : ℕ → List UInt8 → List α
  | 0, _ => []
  | n + 1, l => c.dec (l.take c.size) :: decodeMany c n (l.drop c.size)

/-- `unsigned int` -/
def uintCodec : Codec ℕ where
  size := 4
  enc n := [UInt8.ofNat n, UInt8.ofNat (n / 256), UInt8.ofNat (n / 65536), UInt8.ofNat (n / 16777216)]
  dec l := (l.getD 0 0).toNat + 256 * (l.getD 1 0).toNat + 65536 * (l.getD 2 0).toNat + 16777216 * (l.getD 3 0).toNat

/-- `unsigned short` -/
def ushortCodec : Codec ℕ where
  size := 2
  enc n := [UInt8.ofNat n, UInt8.ofNat (n / 256)]
  dec l := (l.getD 0 0).toNat + 256 * (l.getD 1 0).toNat

/-- `float` -/
def floatCodec : Codec F32 where
  size := 4
  enc x := uintCodec.enc x.bits.toNat
  dec l := ⟨UInt32.ofNat (uintCodec.dec l)⟩

/-- `Eigen::Vector3f` -/
def vec3Codec : Codec (Vec3 F32) where
  size := 12
  enc v := floatCodec.enc v.x ++ floatCodec.enc v.y ++ floatCodec.enc v.z
  dec l := ⟨floatCodec.dec (l.take 4), floatCodec.dec ((l.drop 4).take 4), floatCodec.dec ((l.drop 8).take 4)⟩

/-- `Eigen::Vector2f` -/
def vec2Codec : Codec (F32 × F32) where
  size := 8
  enc v := floatCodec.enc v.1 ++ floatCodec.enc v.2
  dec l := (floatCodec.dec (l.take 4), floatCodec.dec ((l.drop 4).take 4))

/-- A `double`: converted from an `unsigned int` or a `float` (both conversions are exact), or another finite one. -/
inductive Number
  | uint (n : ℕ)
  | float (x : F32)
  | real (q : ℚ)
  deriving DecidableEq

/-- `tinygltf::BufferView` -/
structure BufferView where
  buffer : ℤ
  byteOffset : ℕ
  byteLength : ℕ
  byteStride : ℕ
  target : ℕ
  deriving DecidableEq

/-- `tinygltf::Accessor` -/
structure Accessor where
  bufferView : ℤ
  byteOffset : ℕ
  count : ℕ
  componentType : ℕ
  type : ℕ
  minValues : List Number
  maxValues : List Number
  deriving DecidableEq

/-- `tinygltf::Primitive` -/
structure Primitive where
  attributes : Dict String ℤ
  material : ℤ
  indices : ℤ
  mode : ℕ
  deriving DecidableEq

/-- `tinygltf::Image` (`threedee/tiny_gltf/tiny_gltf.h:475-490`) without its buffer view, which only the loader uses. -/
structure Image where
  name : String
  uri : String
  width : ℤ
  height : ℤ
  component : ℤ
  image : List UInt8
  mimeType : String := ""
  deriving DecidableEq

/-- `tinygltf::Texture` -/
structure Texture where
  sampler : ℤ
  source : ℤ
  deriving DecidableEq

/-- `tinygltf::Sampler` -/
structure Sampler where
  minFilter : ℕ
  magFilter : ℕ
  wrapS : ℕ
  wrapT : ℕ
  deriving DecidableEq

/-- `GltfModel`, a `tinygltf::Model` (`threedee/GltfModel.h:35`).  A mesh is the list of its primitives, a node the index of
its mesh, a scene the list of its nodes. -/
structure Model where
  buffers : List (List UInt8) := []
  bufferViews : List BufferView := []
  accessors : List Accessor := []
  meshes : List (List Primitive) := []
  materials : List GltfMaterial := []
  images : List Image := []
  textures : List Texture := []
  samplers : List Sampler := []
  nodes : List ℤ := []
  scenes : List (List ℕ) := []
  defaultScene : ℤ := -1
  deriving DecidableEq

/-- What the templates `addDataToBuffer`, `addBufferView` and `completeAccessor` know about a type: its layout, component type,
type and stride, and how to compute the bounds. -/
structure Element (α : Type) extends Codec α where
  componentType : ℕ
  type : ℕ
  stride : ℕ
  bounds : List α → List Number × List Number

/-- The minimum of some components (`threedee/GltfModel.cpp:103-108,121-126`). -/
def minOf (l : List F32) : F32 := l.foldl F32.min F32.intMax

/-- The maximum of some components (`threedee/GltfModel.cpp:103-109,121-127`). -/
def maxOf (l : List F32) : F32 := l.foldl F32.max F32.intMin

/-- `completeAccessor<unsigned int>` (`threedee/GltfModel.cpp:80-93`): `(T)INT_MAX` is 2147483647. -/
def uintElement : Element ℕ where
  toCodec := uintCodec
  componentType := 5125
  type := 65
  stride := 0
  bounds l := ([.uint (l.foldl Nat.min 2147483647)], [.uint (l.foldl Nat.max 0)])

/-- `completeAccessor<Vector3f>` (`threedee/GltfModel.cpp:95-111`); the stride is set at 174-181. -/
def vec3Element : Element (Vec3 F32) where
  toCodec := vec3Codec
  componentType := 5126
  type := 3
  stride := 12
  bounds l :=
    ([.float (minOf (l.map Vec3.x)), .float (minOf (l.map Vec3.y)), .float (minOf (l.map Vec3.z))],
     [.float (maxOf (l.map Vec3.x)), .float (maxOf (l.map Vec3.y)), .float (maxOf (l.map Vec3.z))])

/-- `completeAccessor<Vector2f>` (`threedee/GltfModel.cpp:113-129`); the stride is the default of 168-172. -/
def vec2Element : Element (F32 × F32) where
  toCodec := vec2Codec
  componentType := 5126
  type := 2
  stride := 0
  bounds l :=
    ([.float (minOf (l.map Prod.fst)), .float (minOf (l.map Prod.snd))],
     [.float (maxOf (l.map Prod.fst)), .float (maxOf (l.map Prod.snd))])

/-- The file system and image decoder as `loadTexture` uses them: the content of a file; width, height, number of components
and pixels of an image (`stbi_load_from_memory`); and the content of uninitialised width, height and component fields. -/
structure ImageFiles where
  read : String → Option (List UInt8)
  decode : List UInt8 → Option (ℕ × ℕ × ℕ × List UInt8)
  uninit : ℤ × ℤ × ℤ

namespace Model

/-- `reallyAddToBuffer` (`threedee/GltfModel.cpp:44-55`): append to buffer 0, return the offset.  The assertion holds: there is
a buffer whenever it is called. -/
def addToBuffer (M : Model) (raw : List UInt8) : Model × ℕ :=
  ({ M with buffers := (M.buffers.headD [] ++ raw) :: M.buffers.tail }, (M.buffers.headD []).length)

/-- `reallyAddBufferView` (`threedee/GltfModel.cpp:151-166`) -/
def addBufferView (M : Model) (numBytes target byteOffset byteStride : ℕ) : Model × ℕ :=
  ({ M with bufferViews := M.bufferViews ++ [⟨0, byteOffset, numBytes, byteStride, target⟩] }, M.bufferViews.length)

/-- `addAccessor` with the constructor of `GltfAccessor` (`threedee/GltfModel.cpp:131-149`).  The checks of `calculatePointer`
(`threedee/GltfModel.h:253-267`) cannot fail here: the view was just added. -/
def addAccessor {α : Type} (e : Element α) (M : Model) (values : List α) (bufferView : ℕ) : Model × ℕ :=
  let b := e.bounds values
  ({ M with accessors := M.accessors ++ [⟨bufferView, 0, values.length, e.componentType, e.type, b.1, b.2⟩] },
    M.accessors.length)

/-- `pushData` (`threedee/GltfModel.cpp:183-189`) with `addDataToBuffer` (57-77).  For an empty vector of vertices the code
evaluates `values[0].data()` and copies no bytes from there; that is taken to be harmless. -/
def pushData {α : Type} (e : Element α) (M : Model) (target : ℕ) (values : List α) : Model × ℕ :=
  let a := M.addToBuffer (values.flatMap e.enc)
  let v := a.1.addBufferView (values.length * e.size) target a.2 e.stride
  v.1.addAccessor e values v.2

/-- `addPrimitiveMesh` (`threedee/GltfModel.cpp:261-304`) -/
def addPrimitiveMesh (M : Model) (mesh : Mesh F32) : Model :=
  let M0 := { M with
    buffers := if M.buffers.isEmpty then [[]] else M.buffers
    scenes := if M.scenes.isEmpty then [[]] else M.scenes
    defaultScene := 0 }
  let i := M0.pushData uintElement 34963 mesh.indices
  let v := i.1.pushData vec3Element 34962 mesh.vertices
  let n := v.1.pushData vec3Element 34962 mesh.normals
  let M1 := n.1
  { M1 with
    scenes := (M1.scenes.headD [] ++ [M1.nodes.length]) :: M1.scenes.tail
    nodes := M1.nodes ++ [(M1.meshes.length : ℤ)]
    meshes := M1.meshes ++ [[⟨[("NORMAL", (n.2 : ℤ)), ("POSITION", (v.2 : ℤ))], M1.materials.length, i.2, 4⟩]]
    materials := M1.materials ++ [mesh.material] }

/-- `addTexture` (`threedee/GltfModel.cpp:191-211`): returns the id of the texture. -/
def addTexture (M : Model) (img : Mat3b) : Model × ℕ :=
  ({ M with
      images := M.images ++ [⟨"", toString M.images.length ++ ".png", img.cols, img.rows, 3, img.data, ""⟩]
      textures := M.textures ++ [⟨0, M.images.length⟩] }, M.textures.length)

/-- One of the two blocks adding a texture (`threedee/GltfModel.cpp:325-334` and 336-346): the model, and the material with its
texture replaced. -/
def addMaterialTexture (M : Model) (material : GltfMaterial) (key : String) (img : Mat3b) :
    Model × Except PyErr GltfMaterial :=
  if img.isEmpty then (M, .ok material)
  else if material.values.has key then
    let t := M.addTexture img
    (t.1, .ok { material with values := mapSet material.values key (TexturedMesh.textureParameter t.2) })
  else (M, .error .runtimeError)

/-- The default sampler (`threedee/GltfModel.cpp:353-357`). -/
def defaultSampler : Sampler := ⟨9986, 9729, 10497, 10497⟩

/-- `primitive.attributes["TEXCOORD_0"] = …` (`threedee/GltfModel.cpp:316`) -/
def setTexCoord (i : ℕ) (p : Primitive) : Primitive :=
  { p with attributes := mapSet p.attributes "TEXCOORD_0" (i : ℤ) }

/-- `addTexturedPrimitiveMesh` (`threedee/GltfModel.cpp:306-361`): the model afterwards (also if an exception is thrown), and
the outcome. -/
def addTexturedPrimitiveMesh (M : Model) (mesh : TexturedMesh F32 Mat3b) : Model × Except PyErr Unit :=
  let M1 := M.addPrimitiveMesh mesh.toMesh
  let u := M1.pushData vec2Element 34962 mesh.uvCoords
  let M2 := { u.1 with meshes := u.1.meshes.dropLast ++
    [((u.1.meshes.getLast?.getD []).take 1).map (setTexCoord u.2)] }
  match M2.addMaterialTexture mesh.material "baseColorTexture" mesh.baseColor with
  | (M3, .error e) => (M3, .error e)
  | (M3, .ok mat) =>
    match M3.addMaterialTexture mat "metallicRoughnessTexture" mesh.metallicRoughness with
    | (M4, .error e) => (M4, .error e)
    | (M4, .ok mat) =>
      ({ M4 with
          materials := M4.materials.dropLast ++ [mat]
          samplers := if M4.samplers.isEmpty then [defaultSampler] else M4.samplers }, .ok ())

/-- `GltfModel.add_mesh` (`threedee/gltf_model.pyx:191-198`); `none` is an argument that is no mesh.
`addTexturedPrimitiveMesh` is declared without `except +` (`threedee/gltf_model.pxd:32`). -/
def addMesh (M : Model) : Option AnyMesh → Model × Except PyErr Unit
  | some (.inr m) =>
    let r := M.addTexturedPrimitiveMesh m
    (r.1, unguarded r.2)
  | some (.inl m) => (M.addPrimitiveMesh m, .ok ())
  | none => (M, .error .valueError)

/-- `numPrimitiveMeshes` (`threedee/GltfModel.cpp:363-372`) -/
def numPrimitiveMeshes (M : Model) : ℕ := M.meshes.foldl (fun index mesh => index + mesh.length) 0

/-- `getPrimitiveMesh` (`threedee/GltfModel.cpp:374-387`): the two nested loops run through the primitives in order. -/
def getPrimitiveMesh (M : Model) (i : ℕ) : Except PyErr Primitive :=
  match M.meshes.flatten[i]? with
  | some p => .ok p
  | none => .error .runtimeError

/-- `calculatePointer` and `asVector` (`threedee/GltfModel.h:238-267`): neither the length of the view, nor its stride, nor the
size of the buffer is looked at. -/
def readVector {α : Type} (c : Codec α) (M : Model) (a : Accessor) : Except PyErr (List α) :=
  if a.bufferView < 0 then .error .undefined
  else match M.bufferViews[a.bufferView.toNat]? with
    | none => .error .valueError
    | some v =>
      if v.buffer < 0 then .error .undefined
      else match M.buffers[v.buffer.toNat]? with
        | none => .error .valueError
        | some b =>
          let start := v.byteOffset + a.byteOffset
          if a.count = 0 ∨ start + a.count * c.size ≤ b.length then .ok (decodeMany c a.count (b.drop start))
          else .error .undefined

/-- The accessor with the given index (`threedee/GltfModel.h:276-284`, `threedee/GltfModel.cpp:651-656`); a negative index
becomes a very large one. -/
def accessor (M : Model) (i : ℤ) : Except PyErr Accessor :=
  if i < 0 then .error .valueError
  else match M.accessors[i.toNat]? with
    | some a => .ok a
    | none => .error .valueError

/-- `getAccessor<T>(…).asVector()` (`threedee/GltfModel.h:276-284`) -/
def readAccessor {α : Type} (c : Codec α) (M : Model) (i : ℤ) : Except PyErr (List α) := do
  let a ← M.accessor i
  M.readVector c a

/-- `primitive.attributes.at(name)`: `std::out_of_range` if absent. -/
def attributeOf (p : Primitive) (name : String) : Except PyErr ℤ :=
  match p.attributes.get? name with
  | some i => .ok i
  | none => .error .indexError

/-- The indices of a primitive (`threedee/GltfModel.cpp:392-407`) -/
def readIndices (M : Model) (p : Primitive) : Except PyErr (List ℕ) := do
  let a ← M.accessor p.indices
  if a.componentType = 5123 then M.readAccessor ushortCodec p.indices else M.readAccessor uintCodec p.indices

/-- The material of a primitive (`threedee/GltfModel.cpp:417-424`) -/
def readMaterial (M : Model) (p : Primitive) : Except PyErr GltfMaterial :=
  if p.material < 0 then .error .runtimeError
  else match M.materials[p.material.toNat]? with
    | some m => .ok m
    | none => .error .runtimeError

/-- `extractPrimitiveMesh` (`threedee/GltfModel.cpp:389-428`) -/
def extractPrimitiveMesh (M : Model) (i : ℕ) : Except PyErr (Mesh F32) := do
  let p ← M.getPrimitiveMesh i
  let indices ← M.readIndices p
  let v ← attributeOf p "POSITION"
  let vertices ← M.readAccessor vec3Codec v
  let n ← attributeOf p "NORMAL"
  let normals ← M.readAccessor vec3Codec n
  let material ← M.readMaterial p
  pure ⟨indices, vertices, normals, material⟩

/-- `cv::cvtColor(…, CV_RGBA2RGB)`: leave out every fourth byte. -/
def dropAlpha : List UInt8 → List UInt8
  | r :: g :: b :: _ :: l => r :: g :: b :: dropAlpha l
  | _ => []

/-- `cvImageFromImage` (`threedee/GltfModel.cpp:213-243`).  A negative width or height with the right product is an error of
OpenCV. -/
def cvImageFromImage (img : Image) : Except PyErr Mat3b :=
  if img.component ≠ 3 ∧ img.component ≠ 4 then .error .runtimeError
  else if (img.image.length : ℤ) ≠ img.width * img.height * img.component then .error .runtimeError
  else if img.width < 0 ∨ img.height < 0 then .error .runtimeError
  else .ok ⟨img.height.toNat, img.width.toNat, if img.component = 3 then img.image else dropAlpha img.image⟩

/-- `extractTexture` (`threedee/GltfModel.cpp:245-259`) -/
def extractTexture (M : Model) (textureId : ℤ) : Except PyErr Mat3b :=
  if textureId < 0 then .error .valueError
  else match M.textures[textureId.toNat]? with
    | none => .error .valueError
    | some t =>
      if t.source < 0 then .error .undefined
      else match M.images[t.source.toNat]? with
        | none => .error .runtimeError
        | some img => cvImageFromImage img

/-- The conversion of a `double` to an `int`. -/
def toInt (q : ℚ) : ℤ := q.num.tdiv q.den

/-- One of the two blocks extracting a texture (`threedee/GltfModel.cpp:456-462` and 464-470); the texture of the mesh is empty
before. -/
def materialTexture (M : Model) (material : GltfMaterial) (key : String) : Except PyErr Mat3b :=
  match material.values.get? key with
  | none => .ok .none
  | some p =>
    match p.num.get? "index" with
    | none => .error .indexError
    | some i => M.extractTexture (toInt i)

/-- `extractTexturedPrimitiveMesh` (`threedee/GltfModel.cpp:430-471`) -/
def extractTexturedPrimitiveMesh (M : Model) (i : ℕ) : Except PyErr (TexturedMesh F32 Mat3b) := do
  let mesh ← M.extractPrimitiveMesh i
  let p ← M.getPrimitiveMesh i
  if p.attributes.has "TEXCOORD_0" then
    let u ← attributeOf p "TEXCOORD_0"
    let uv ← M.readAccessor vec2Codec u
    let material ← M.readMaterial p
    let color ← M.materialTexture material "baseColorTexture"
    let roughness ← M.materialTexture material "metallicRoughnessTexture"
    pure ⟨mesh, uv, color, roughness⟩
  else .error .runtimeError

/-- The body of the loop of `getPolymorphicPrimitiveMeshes` (`threedee/GltfModel.cpp:475-487`). -/
def extractPolymorphic (M : Model) (i : ℕ) : Except PyErr AnyMesh := do
  let p ← M.getPrimitiveMesh i
  if p.attributes.has "TEXCOORD_0" then
    let m ← M.extractTexturedPrimitiveMesh i
    pure (.inr m)
  else
    let m ← M.extractPrimitiveMesh i
    pure (.inl m)

/-- `GltfModel.primitive_meshes` (`threedee/gltf_model.pyx:200-205`) with `getPolymorphicPrimitiveMeshes`
(`threedee/GltfModel.cpp:473-489`). -/
def primitiveMeshes (M : Model) : Except PyErr (List AnyMesh) :=
  (List.range M.numPrimitiveMeshes).mapM M.extractPolymorphic

/-- `GltfModel.extract_primitive_mesh` (`threedee/gltf_model.pyx:207-210`) -/
def extractMesh (M : Model) (i : ℕ) : Except PyErr AnyMesh := do
  let l ← M.primitiveMeshes
  match l[i]? with
  | some m => pure m
  | none => .error .indexError

/-- `GltfModel.extract_textured_primitive_mesh` (`threedee/gltf_model.pyx:212-219`) -/
def extractTexturedMesh (M : Model) (i : ℕ) : Except PyErr (TexturedMesh F32 Mat3b) := do
  let m ← M.extractMesh i
  match m with
  | .inr t => pure t
  | .inl _ => .error .assertionError

/-- The meshes `GltfModel.same_size` compares have the same size (`threedee/gltf_model.pyx:168-173` with `Mesh.same_size`,
`threedee/mesh.pyx`). -/
def sameSizeFrom (M N : Model) : List ℕ → Except PyErr Bool
  | [] => .ok true
  | i :: l => do
    let m ← M.extractMesh i
    let n ← N.extractMesh i
    let a := m.elim id TexturedMesh.toMesh
    let b := n.elim id TexturedMesh.toMesh
    if a.indices.length = b.indices.length ∧ a.vertices.length = b.vertices.length then sameSizeFrom M N l
    else .ok false

/-- `GltfModel.same_size` (`threedee/gltf_model.pyx:164-173`) -/
def sameSize (M N : Model) : Except PyErr Bool :=
  if N.numPrimitiveMeshes ≠ M.numPrimitiveMeshes then .ok false
  else sameSizeFrom M N (List.range M.numPrimitiveMeshes)

/-- `setURIs` (`threedee/GltfModel.cpp:491-501`): images before the first with a URI have been given one when the exception is
thrown. -/
def setURIsFrom (extension : String) : ℕ → List Image → List Image × Except PyErr Unit
  | _, [] => ([], .ok ())
  | i, img :: l =>
    if img.uri ≠ "" then (img :: l, .error .valueError)
    else
      let r := setURIsFrom extension (i + 1) l
      ({ img with uri := toString i ++ extension } :: r.1, r.2)

/-- The name given to a loaded image (`threedee/GltfModel.cpp:611-616`): the last component of the path up to the last dot of
the path; everything if that dot is before; nothing if there is no dot. -/
def imageName (uri : String) : String :=
  let l := uri.toList
  if '.' ∈ l then
    let base := (l.reverse.takeWhile (· ≠ '/')).reverse
    if '.' ∈ base then String.ofList (base.reverse.dropWhile (· ≠ '.')).tail.reverse else String.ofList base
  else ""

/-- `loadTexture` (`threedee/GltfModel.cpp:588-628`).  The result of `LoadImageData`
(`threedee/tiny_gltf/tiny_gltf.h:1396-1456`) is not checked. -/
def loadTexture (fs : ImageFiles) (M : Model) (uri baseDir : String) : Model × Except PyErr ℕ :=
  match fs.read (baseDir ++ "/" ++ uri) with
  | none => (M, .error .runtimeError)
  | some [] => (M, .error .runtimeError)
  | some bytes =>
    let name := imageName uri
    let uri' := toString M.images.length ++ ".png"
    let img : Image :=
      match fs.decode bytes with
      | some (w, h, c, d) => ⟨name, uri', w, h, c, d, ""⟩
      | none => ⟨name, uri', fs.uninit.1, fs.uninit.2.1, fs.uninit.2.2, [], ""⟩
    ({ M with images := M.images ++ [img], textures := M.textures ++ [⟨0, M.images.length⟩] }, .ok M.textures.length)

/-- Apply `f` to the primitive with the given number. -/
def modifyPrimitive (f : Primitive → Primitive) : ℕ → List (List Primitive) → List (List Primitive)
  | _, [] => []
  | i, m :: l => if i < m.length then m.modify i f :: l else m :: modifyPrimitive f (i - m.length) l

/-- A colour factor (`threedee/GltfModel.cpp:566-567,637`). -/
def colorParameter (color : Vec3 ℚ) : GltfParameter :=
  { hasNumber := false, str := "", num := [], array := [color.x, color.y, color.z, 1] }

/-- The material with the new colour, if it is to be used (`threedee/GltfModel.cpp:562-569`). -/
def recolor (material : GltfMaterial) (color : Vec3 ℚ) : GltfMaterial :=
  if color.x ≠ 0 ∧ color.y ≠ 0 ∧ color.z ≠ 0 then
    { material with values := mapSet material.values "baseColorFactor" (colorParameter color) }
  else material

/-- The end of `updateMaterial` (`threedee/GltfModel.cpp:578-585`). -/
def replaceMaterial (M : Model) (i : ℕ) (material : GltfMaterial) : Model :=
  { M with
    materials := M.materials ++ [{ material with name := "material_" ++ toString M.materials.length }]
    meshes := modifyPrimitive (fun p => { p with material := M.materials.length }) i M.meshes }

/-- `updateMaterial` (`threedee/GltfModel.cpp:526-586`) -/
def updateMaterial (fs : ImageFiles) (M : Model) (i : ℕ) (color : Vec3 ℚ) (uri baseDir : String) :
    Model × Except PyErr Unit :=
  if M.numPrimitiveMeshes ≤ i then (M, .error .valueError)
  else
    match M.getPrimitiveMesh i with
    | .error e => (M, .error e)
    | .ok p =>
      match M.readMaterial p with
      | .error _ => (M, .error .runtimeError)
      | .ok material =>
        let material := recolor material color
        if uri.length ≠ 0 then
          match M.loadTexture fs uri baseDir with
          | (M', .error e) => (M', .error e)
          | (M', .ok t) =>
            (M'.replaceMaterial i { material with
              values := mapSet material.values "baseColorTexture" (TexturedMesh.textureParameter t) }, .ok ())
        else (M.replaceMaterial i material, .ok ())

/-- A material as `update_materials` takes it: the entries `"color"` and `"uri"` of the dict, if there. -/
structure MaterialUpdate where
  color : Option (Vec3 ℚ)
  uri : Option String

/-- One step of the loop of `update_materials` (`threedee/gltf_model.pyx:130-137`).  `updateMaterial` is declared without
`except +` (`threedee/gltf_model.pxd:34-35`). -/
def updateStep (fs : ImageFiles) (baseDir : String) (M : Model) (i : ℕ) (u : Option MaterialUpdate) :
    Model × Except PyErr Unit :=
  if i < M.numPrimitiveMeshes then
    match u with
    | none => (M, .ok ())
    | some u =>
      match u.color with
      | none => (M, .error .keyError)
      | some color =>
        match u.uri with
        | none => (M, .error .keyError)
        | some uri =>
          let r := M.updateMaterial fs i color uri baseDir
          (r.1, unguarded r.2)
  else (M, .ok ())

/-- The loop of `update_materials` from number `i` on. -/
def updateFrom (fs : ImageFiles) (baseDir : String) : Model → ℕ → List (Option MaterialUpdate) → Model × Except PyErr Unit
  | M, _, [] => (M, .ok ())
  | M, i, u :: l =>
    match M.updateStep fs baseDir i u with
    | (M', .error e) => (M', .error e)
    | (M', .ok ()) => updateFrom fs baseDir M' (i + 1) l

/-- `GltfModel.update_materials` (`threedee/gltf_model.pyx:111-137`) -/
def updateMaterials (fs : ImageFiles) (M : Model) (baseDir : String) (l : List (Option MaterialUpdate)) :
    Model × Except PyErr Unit := updateFrom fs baseDir M 0 l

/-- `addColoredMaterial` (`threedee/GltfModel.cpp:630-649`): returns the id of the material. -/
def addColoredMaterial (M : Model) (name : String) (color : Vec3 ℚ) (metallic roughness : ℚ) : Model × ℕ :=
  ({ M with materials := M.materials ++ [⟨name,
      [("baseColorFactor", colorParameter color),
       ("metallicFactor", { hasNumber := false, str := "", num := [], value := some metallic }),
       ("roughNessFactor", { hasNumber := false, str := "", num := [], value := some roughness })], []⟩] },
    M.materials.length)

end Model
end Gltf
end Sumo
