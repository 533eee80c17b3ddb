import Verif.Spec.Gltf

/-! # What callers of the glTF functions may pass -/

namespace Sumo
namespace Gltf

/-- What an entry of the list of `update_materials` should lead to: no entry changes nothing; an entry must have both keys; a
picture that is named must be a file that is not empty. -/
inductive EntryOutcome (fs : ImageFiles) (dir : String) : Option Model.MaterialUpdate → Except PyErr Unit → Prop
  | keep : EntryOutcome fs dir none (.ok ())
  | noColor (uri : Option String) : EntryOutcome fs dir (some ⟨none, uri⟩) (.error .keyError)
  | noUri (color : Vec3 ℚ) : EntryOutcome fs dir (some ⟨some color, none⟩) (.error .keyError)
  | noPicture (color : Vec3 ℚ) : EntryOutcome fs dir (some ⟨some color, some ""⟩) (.ok ())
  | picture (color : Vec3 ℚ) (uri : String) (bytes : List UInt8) : uri ≠ "" → fs.read (dir ++ "/" ++ uri) = some bytes →
      bytes ≠ [] → EntryOutcome fs dir (some ⟨some color, some uri⟩) (.ok ())
  | missing (color : Vec3 ℚ) (uri : String) : uri ≠ "" → fs.read (dir ++ "/" ++ uri) = none →
      EntryOutcome fs dir (some ⟨some color, some uri⟩) (.error .terminated)
  | empty (color : Vec3 ℚ) (uri : String) : uri ≠ "" → fs.read (dir ++ "/" ++ uri) = some [] →
      EntryOutcome fs dir (some ⟨some color, some uri⟩) (.error .terminated)

/-- The textured meshes a Python program can get: from the constructor (with which `rotate`, `transform`, `from_mesh` and
`cube` make theirs), by extraction from any model whatever, and by changing one of them. -/
inductive Obtainable : TexturedMesh F32 Mat3b → Prop
  | constructed {i : List ℕ} {v n : List (Vec3 F32)} {uv : List (F32 × F32)} {b r : Mat3b} {m : TexturedMesh F32 Mat3b} :
      TexturedMesh.create Mat3b.isEmpty i v n uv b r = .ok m → Obtainable m
  | extracted {M : Model} {l : List AnyMesh} {m : TexturedMesh F32 Mat3b} : M.primitiveMeshes = .ok l → .inr m ∈ l →
      Obtainable m
  | merged {m m2 m' : TexturedMesh F32 Mat3b} {k : ℕ} : Obtainable m → m.merge m2 k = some m' → Obtainable m'
  | renumbered {m m' : TexturedMesh F32 Mat3b} {jv : Vec3 F32} {ju : F32 × F32} {k : ℕ} {l : List ℕ} : Obtainable m →
      m.renumber jv ju k l = some m' → Obtainable m'
  | replaced {h h' : ℕ → TexturedMesh F32 Mat3b} {i j k : ℕ} : (∀ i, Obtainable (h i)) →
      TexturedMesh.replaceGeometry h i j = some h' → Obtainable (h' k)

end Gltf
end Sumo
