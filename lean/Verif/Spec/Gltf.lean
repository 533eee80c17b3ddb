import Verif.Model.Gltf

/-! # What it means for meshes to survive being put into a glTF model -/

namespace Sumo

/-- The value of a finite binary32 number after IEEE 754: sign, 8 bits of exponent, 23 bits of fraction; subnormal numbers if
the exponent is 0; infinities and NaNs, which have no value, if it is 255. -/
def F32.value (x : F32) : Option ℚ :=
  let b := x.bits.toNat
  let sign : ℚ := if b / 2 ^ 31 = 1 then -1 else 1
  let e := b / 2 ^ 23 % 256
  let f : ℚ := ((b % 2 ^ 23 : ℕ) : ℚ)
  if e = 255 then none
  else if e = 0 then some (sign * (f / 2 ^ 149))
  else some (sign * ((2 ^ 23 + f) * 2 ^ e / 2 ^ 150))

namespace Gltf

/-- The same picture; all pictures without pixels are the same. -/
def SameTexture (a b : Mat3b) : Prop := a = b ∨ (a.rows * a.cols = 0 ∧ b.rows * b.cols = 0)

/-- A picture whose data matches its size. -/
def SoundImage (a : Mat3b) : Prop := a.data.length = 3 * (a.rows * a.cols)

/-- The two keys under which a material refers to textures. -/
def textureKeys : List String := ["baseColorTexture", "metallicRoughnessTexture"]

/-- Materials with the same name, keys and entries, but perhaps other texture numbers. -/
structure SameMaterial (a b : GltfMaterial) : Prop where
  name : b.name = a.name
  additional : b.additionalValues = a.additionalValues
  keys : ∀ k, k ∈ b.values.keys ↔ k ∈ a.values.keys
  values : ∀ k, k ∉ textureKeys → b.values.get? k = a.values.get? k
  textures : ∀ k ∈ textureKeys, ∀ p, b.values.get? k = some p → ∃ i : ℕ, p = TexturedMesh.textureParameter i

/-- The same mesh: plain meshes are equal; textured ones agree in geometry, texture coordinates, pictures, and in the material
up to the numbers of the textures. -/
inductive SameMesh : AnyMesh → AnyMesh → Prop
  | plain (m : Mesh F32) : SameMesh (.inl m) (.inl m)
  | textured (m m' : TexturedMesh F32 Mat3b) : m'.indices = m.indices → m'.vertices = m.vertices →
      m'.normals = m.normals → m'.uvCoords = m.uvCoords → SameTexture m.baseColor m'.baseColor →
      SameTexture m.metallicRoughness m'.metallicRoughness → SameMaterial m.material m'.material →
      SameMesh (.inr m) (.inr m')

/-- The indices fit in 32 bits, as they do in the code. -/
def Indices32 (m : Mesh F32) : Prop := ∀ i ∈ m.indices, i < 2 ^ 32

/-- The material of a textured mesh refers to a texture exactly if the mesh has that texture. -/
def MaterialMatches (m : TexturedMesh F32 Mat3b) : Prop :=
  ("baseColorTexture" ∈ m.material.values.keys ↔ m.baseColor.rows * m.baseColor.cols ≠ 0) ∧
  ("metallicRoughnessTexture" ∈ m.material.values.keys ↔ m.metallicRoughness.rows * m.metallicRoughness.cols ≠ 0)

/-- Meshes that come back from a model: plain meshes; textured meshes whose material matches. -/
inductive Addable : AnyMesh → Prop
  | plain (m : Mesh F32) : Indices32 m → Addable (.inl m)
  | textured (m : TexturedMesh F32 Mat3b) : Indices32 m.toMesh → SoundImage m.baseColor →
      SoundImage m.metallicRoughness → MaterialMatches m → Addable (.inr m)

/-- The models got from `M` by adding the meshes `l` one after the other without an exception. -/
inductive Adds : Model → List AnyMesh → Model → Prop
  | nil (M : Model) : Adds M [] M
  | cons {M M' M'' : Model} {m : AnyMesh} {l : List AnyMesh} : M.addMesh (some m) = (M', .ok ()) → Adds M' l M'' →
      Adds M (m :: l) M''

/-- The value of a number in an accessor. -/
def Number.value : Number → Option ℚ
  | .uint n => some n
  | .float x => x.value
  | .real q => some q

/-- `lo` and `hi` are the least and the greatest of the numbers `l`. -/
def IsRange (l : List Number) (lo hi : Number) : Prop :=
  ∃ a b : ℚ, lo.value = some a ∧ hi.value = some b ∧ (∃ x ∈ l, x.value = some a) ∧ (∃ x ∈ l, x.value = some b) ∧
    ∀ x ∈ l, ∃ v, x.value = some v ∧ a ≤ v ∧ v ≤ b

/-- Finite numbers between -2³¹ and 2³¹. -/
def Moderate (x : F32) : Prop := ∃ v, x.value = some v ∧ -2 ^ 31 ≤ v ∧ v ≤ 2 ^ 31

/-- The coordinates of some vectors. -/
def coordinates (l : List (Vec3 F32)) : List (List Number) :=
  [l.map (.float ·.x), l.map (.float ·.y), l.map (.float ·.z)]

/-- The stored bounds of an accessor are the ranges of the components. -/
def HasRanges (a : Accessor) (components : List (List Number)) : Prop :=
  a.minValues.length = components.length ∧ a.maxValues.length = components.length ∧
    ∀ (i : ℕ) (c : List Number) (lo hi : Number), components[i]? = some c → a.minValues[i]? = some lo →
      a.maxValues[i]? = some hi → IsRange c lo hi

/-- What `update_materials` makes of a material: a new name, the new colour, the new texture; the rest as before. -/
structure Updated (fs : ImageFiles) (M' : Model) (baseDir : String) (rgb : Vec3 ℚ) (uri : String)
    (a b : GltfMaterial) : Prop where
  additional : b.additionalValues = a.additionalValues
  others : ∀ k, k ≠ "baseColorFactor" → k ≠ "baseColorTexture" → b.values.get? k = a.values.get? k
  color : rgb.x ≠ 0 → rgb.y ≠ 0 → rgb.z ≠ 0 →
    ∃ p, b.values.get? "baseColorFactor" = some p ∧ p.array = [rgb.x, rgb.y, rgb.z, 1]
  texture : uri ≠ "" → ∃ p t source bytes img, b.values.get? "baseColorTexture" = some p ∧
    p.num.get? "index" = some ((t : ℕ) : ℚ) ∧ M'.textures[t]? = some ⟨0, (source : ℕ)⟩ ∧ M'.images[source]? = some img ∧
    fs.read (baseDir ++ "/" ++ uri) = some bytes ∧
    ∀ w h c d, fs.decode bytes = some (w, h, c, d) → img.width = w ∧ img.height = h ∧ img.component = c ∧ img.image = d
  noTexture : uri = "" → b.values.get? "baseColorTexture" = a.values.get? "baseColorTexture"
  noColor : rgb = ⟨0, 0, 0⟩ → b.values.get? "baseColorFactor" = a.values.get? "baseColorFactor"

end Gltf
end Sumo
