import Verif.Model.TinyGltf
import Verif.Spec.Gltf
import Verif.Spec.GlbSave

/-! # What it means for a model to survive being saved and loaded -/

namespace Sumo
namespace Gltf

/-! ### The outside world -/

/-- The keys of a `std::map` ascend. -/
def Ordered {υ : Type} (d : Dict String υ) : Prop := d.Pairwise fun a b => a.1 < b.1

mutual
/-- In every object the keys ascend. -/
def Json.Wf {ν : Type} : Json ν → Prop
  | .arr l => Json.WfList l
  | .obj d => Ordered d ∧ Json.WfFields d
  | _ => True
/-- See `Json.Wf`. -/
def Json.WfList {ν : Type} : List (Json ν) → Prop
  | [] => True
  | j :: l => Json.Wf j ∧ Json.WfList l
/-- See `Json.Wf`. -/
def Json.WfFields {ν : Type} : List (String × Json ν) → Prop
  | [] => True
  | e :: d => Json.WfEntry e ∧ Json.WfFields d
/-- See `Json.Wf`. -/
def Json.WfEntry {ν : Type} : String × Json ν → Prop
  | (_, j) => Json.Wf j
end

mutual
/-- The document with the numbers as they are in the text; `none` is `null`. -/
def Json.print {ν : Type} (f : ν → Option ℚ) : Json ν → Json ℚ
  | .null => .null
  | .bool b => .bool b
  | .int n => .int n
  | .num x => match f x with | some q => .num q | none => .null
  | .str s => .str s
  | .arr l => .arr (Json.printList f l)
  | .obj d => .obj (Json.printFields f d)
/-- See `Json.print`. -/
def Json.printList {ν : Type} (f : ν → Option ℚ) : List (Json ν) → List (Json ℚ)
  | [] => []
  | j :: l => Json.print f j :: Json.printList f l
/-- See `Json.print`. -/
def Json.printFields {ν : Type} (f : ν → Option ℚ) : List (String × Json ν) → List (String × Json ℚ)
  | [] => []
  | e :: d => Json.printEntry f e :: Json.printFields f d
/-- See `Json.print`. -/
def Json.printEntry {ν : Type} (f : ν → Option ℚ) : String × Json ν → String × Json ℚ
  | (k, j) => (k, Json.print f j)
end

/-- The same pixels with their three bytes in the opposite order. -/
def Reversed (a b : List UInt8) : Prop := a.length = b.length ∧ ∀ i, ∀ c < 3, b[3 * i + c]? = a[3 * i + (2 - c)]?

/-- What is assumed about JSON texts and PNG files.  `printed` gives the value of the text of a `double` (15 significant digits;
`null` for infinities and NaN) and `round` that of a finite one.  Texts can be read back; a text printed by Python has exact
numbers; spaces or a newline at the end of a text and of a PNG file do not matter; PNG keeps the pixels (OpenCV writes BGR). -/
structure Faithful (W : Writer) (L : Loader) (printed : Number → Option ℚ) (round : ℚ → ℚ) : Prop where
  finite : ∀ q, printed (.real q) = some (round q)
  again : ∀ q, round (round q) = round q
  loads : ∀ o, (Json.obj o).Wf → W.loads (W.dump (.obj o) ++ [10]) = some ((Json.obj o).print printed)
  parse : ∀ o, (Json.obj o).Wf → L.parse (W.dump (.obj o) ++ [10]) = some ((Json.obj o).print printed)
  parsePython : ∀ o n, (Json.obj o).Wf → L.parse (W.dumps (.obj o) ++ List.replicate n 32) = some (.obj o)
  dumpLength : ∀ o, o ≠ [] → 4 ≤ (W.dump (.obj o)).length
  dumpsLength : ∀ o, o ≠ [] → 4 ≤ (W.dumps (.obj o)).length
  png : ∀ name x, SoundImage x → x.rows * x.cols ≠ 0 →
    ∃ b, W.imwrite (name ++ ".png") x = some b ∧ b ≠ [] ∧ ∃ data, Reversed x.data data ∧
      ∀ n, L.decode (b ++ List.replicate n 32) = some (x.cols, x.rows, 3, data)

/-! ### Materials and meshes -/

/-- A material parameter that is of one kind only: a list of numbers, an object, a text, a number or a truth value. -/
inductive OneKind : GltfParameter → Prop
  | array (l : List ℚ) : l ≠ [] → OneKind { hasNumber := false, str := "", num := [], array := l }
  | object (d : Dict String ℚ) : d ≠ [] → Ordered d → OneKind { hasNumber := false, str := "", num := d }
  | text (s : String) : s ≠ "" → OneKind { hasNumber := false, str := s, num := [] }
  | number (q : ℚ) : OneKind { hasNumber := true, str := "", num := [], value := some q }
  | flag (b : Bool) : OneKind { hasNumber := false, str := "", num := [], bool := some b }

/-- The same parameter with its numbers rounded; texture numbers are integers. -/
inductive SameParameter (round : ℚ → ℚ) : GltfParameter → GltfParameter → Prop
  | array (l : List ℚ) : SameParameter round { hasNumber := false, str := "", num := [], array := l }
      { hasNumber := false, str := "", num := [], array := l.map round }
  | object (d : Dict String ℚ) : SameParameter round { hasNumber := false, str := "", num := d }
      { hasNumber := false, str := "", num := d.map fun e => (e.1, if e.1 = "index" then ((Model.toInt e.2 : ℤ) : ℚ) else round e.2) }
  | text (s : String) : SameParameter round { hasNumber := false, str := s, num := [] } { hasNumber := false, str := s, num := [] }
  | number (q : ℚ) : SameParameter round { hasNumber := true, str := "", num := [], value := some q }
      { hasNumber := true, str := "", num := [], value := some (round q) }
  | flag (b : Bool) : SameParameter round { hasNumber := false, str := "", num := [], bool := some b }
      { hasNumber := false, str := "", num := [], bool := some b }

/-- Both absent, or both there and related. -/
def Both {α β : Type} (R : α → β → Prop) : Option α → Option β → Prop
  | none, none => True
  | some a, some b => R a b
  | _, _ => False

/-- The entries of `b` are those of `a`, rounded; those under the keys in `except` may differ. -/
def SameParameters (round : ℚ → ℚ) (except : List String) (a b : Dict String GltfParameter) : Prop :=
  ∀ k, k ∉ except → Both (SameParameter round) (a.get? k) (b.get? k)

/-- A material that can be read back: it has something in it; its entries are of one kind each; they do not use the
reserved names; an additional entry `name` only occurs beside a name. -/
structure Storable (m : GltfMaterial) : Prop where
  something : m.name ≠ "" ∨ m.values ≠ [] ∨ m.additionalValues ≠ []
  values : ∀ e ∈ m.values, OneKind e.2
  additional : ∀ e ∈ m.additionalValues, OneKind e.2
  orderedValues : Ordered m.values
  orderedAdditional : Ordered m.additionalValues
  reserved : ∀ k ∈ m.additionalValues.keys, k ≠ "pbrMetallicRoughness" ∧ k ≠ "extensions" ∧ k ≠ "extras"
  unnamed : m.name = "" → "name" ∉ m.additionalValues.keys

/-- The entry that says the name of a material. -/
def nameParameter (name : String) : GltfParameter := { hasNumber := false, str := name, num := [] }

/-- The material read back: the same name and entries; the name, if there is one, also turns up among the additional
entries. -/
structure MaterialBack (round : ℚ → ℚ) (a b : GltfMaterial) : Prop where
  name : b.name = a.name
  values : SameParameters round [] a.values b.values
  additional : SameParameters round ["name"] a.additionalValues b.additionalValues
  entry : b.additionalValues.get? "name" = if a.name = "" then a.additionalValues.get? "name" else some (nameParameter a.name)

/-- The mesh read back. -/
inductive MeshBack (round : ℚ → ℚ) : AnyMesh → AnyMesh → Prop
  | plain (m m' : Mesh F32) : m'.indices = m.indices → m'.vertices = m.vertices → m'.normals = m.normals →
      MaterialBack round m.material m'.material → MeshBack round (.inl m) (.inl m')
  | textured (m m' : TexturedMesh F32 Mat3b) : m'.indices = m.indices → m'.vertices = m.vertices →
      m'.normals = m.normals → m'.uvCoords = m.uvCoords → m'.baseColor = m.baseColor →
      m'.metallicRoughness = m.metallicRoughness → MaterialBack round m.material m'.material →
      MeshBack round (.inr m) (.inr m')

/-- The material of a mesh. -/
def materialOf (m : AnyMesh) : GltfMaterial := m.elim Mesh.material fun t => t.material

/-- The geometry of a mesh. -/
def geometryOf (m : AnyMesh) : Mesh F32 := m.elim id TexturedMesh.toMesh

/-- There is something in the mesh. -/
def HasGeometry (m : AnyMesh) : Prop :=
  (geometryOf m).indices ≠ [] ∨ (geometryOf m).vertices ≠ [] ∨ (geometryOf m).normals ≠ []

/-! ### Histories -/

/-- A root name: no slash and no backslash. -/
def RootName (root : String) : Prop := '/' ∉ root.toList ∧ '\\' ∉ root.toList

/-- The files of the loader are those of the folder, perhaps with others. -/
def Sees (L : Loader) (f : Folder) : Prop := ∀ n b, f.file n = some b → L.file n = some b

/-- The size of the pieces of a GLB body made from some files, other than the document: each rounded up to a multiple of 4. -/
def bodySize (root : String) (files : List Written) : ℕ :=
  ((files.filter fun w => w.1 ≠ root ++ ".gltf").map fun w => (w.2.length + 3) / 4 * 4).sum

/-- All files have less than 2 GiB. -/
def SmallFiles (f : Folder) : Prop := ∀ n b, f.file n = some b → b.length < 2 ^ 31

/-- The models a caller can have after adding meshes, saving, and loading what was saved, in any order; with the meshes added so
far.  The loader may see different files at different times. -/
inductive History (W : Writer) (L : Loader) : Model → List AnyMesh → Prop
  | new : History W L {} []
  | add {M M' : Model} {l : List AnyMesh} {m : AnyMesh} : History W L M l → Addable m → Storable (materialOf m) →
      M.addMesh (some m) = (M', .ok ()) → History W L M' (l ++ [m])
  | saveGltf {M M' : Model} {l : List AnyMesh} {f f' : Folder} {root : String} : History W L M l → RootName root →
      saveAsGltf W (some f) M root = (M', some f', .ok ()) → History W L M' l
  | saveGlb {M M' : Model} {l : List AnyMesh} {os os' : GlbSave.Os} {temp : GlbSave.Dir} {p : GlbSave.GlbPath} :
      History W L M l → RootName p.name → saveAsGlb W M os temp p = (M', os', .ok ()) → History W L M' l
  | loadGltf {M M' N : Model} {l : List AnyMesh} {f f' : Folder} {root : String} {files : Files} : History W L M l →
      RootName root → saveAsGltf W (some f) M root = (M', some f', .ok ()) → SmallFiles f' →
      Sees { L with file := files } f' → loadGltf { L with file := files } (f'.file (root ++ ".gltf")) = .ok N → History W L N l
  | loadGlb {M M' N : Model} {l : List AnyMesh} {os os' : GlbSave.Os} {temp : GlbSave.Dir} {p : GlbSave.GlbPath}
      {files : Files} : History W L M l → RootName p.name → GlbSave.Fresh os temp → p.absolute = true →
      saveAsGlb W M os temp p = (M', os', .ok ()) →
      loadGlb { L with file := files } (os'.file p.dirs p.name) = .ok N → History W L N l

/-- The material is still the one given: the same name; the same entries up to rounding, except perhaps those under the keys
`except`, which are there exactly if they were and then are numbers of textures, and the additional entry `name`, which may
have become the name. -/
structure MaterialKept (round : ℚ → ℚ) (except : List String) (a b : GltfMaterial) : Prop where
  name : b.name = a.name
  keys : ∀ k, k ∈ b.values.keys ↔ k ∈ a.values.keys
  values : ∀ k, k ∉ except → b.values.get? k = a.values.get? k ∨ Both (SameParameter round) (a.values.get? k) (b.values.get? k)
  additional : ∀ k, k ≠ "name" → b.additionalValues.get? k = a.additionalValues.get? k ∨
    Both (SameParameter round) (a.additionalValues.get? k) (b.additionalValues.get? k)
  entry : b.additionalValues.get? "name" = a.additionalValues.get? "name" ∨
    a.name ≠ "" ∧ b.additionalValues.get? "name" = some (nameParameter a.name)
  textures : ∀ k ∈ except, ∀ p, b.values.get? k = some p → ∃ i : ℕ, p = TexturedMesh.textureParameter i

/-- The mesh is still the one added: the same geometry, texture coordinates and pictures; the material up to rounding and the
numbers of the textures. -/
inductive StillMesh (round : ℚ → ℚ) : AnyMesh → AnyMesh → Prop
  | plain (m m' : Mesh F32) : m'.indices = m.indices → m'.vertices = m.vertices → m'.normals = m.normals →
      MaterialKept round [] m.material m'.material → StillMesh round (.inl m) (.inl m')
  | textured (m m' : TexturedMesh F32 Mat3b) : m'.indices = m.indices → m'.vertices = m.vertices →
      m'.normals = m.normals → m'.uvCoords = m.uvCoords → SameTexture m.baseColor m'.baseColor →
      SameTexture m.metallicRoughness m'.metallicRoughness → MaterialKept round textureKeys m.material m'.material →
      StillMesh round (.inr m) (.inr m')

end Gltf
end Sumo
