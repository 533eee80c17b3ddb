import Verif.Model.TinyGltf
import Verif.Spec.TinyGltf

/-! # JSON documents and the entries of them that `gltf2glb` knows about -/

namespace Sumo
namespace Gltf

/-- An entry of `"buffers"`. -/
def ReadsBuffer (j : Json ℚ) (b : GltfBuffer) : Prop :=
  ∃ d : Dict String (Json ℚ), j = .obj d ∧ Ordered d ∧ d.get? "byteLength" = b.byteLength.map (fun n => .int n) ∧ d.get? "uri" = b.uri.map .str

/-- An entry of `"bufferViews"`. -/
def ReadsView (j : Json ℚ) (v : GltfView) : Prop :=
  ∃ d : Dict String (Json ℚ), j = .obj d ∧ Ordered d ∧ d.get? "buffer" = v.buffer.map (fun n => .int n) ∧
    d.get? "byteOffset" = v.byteOffset.map (fun n => .int n) ∧ d.get? "byteLength" = v.byteLength.map (fun n => .int n)

/-- An entry of `"images"`. -/
def ReadsImage (j : Json ℚ) (i : GltfImage) : Prop :=
  ∃ d : Dict String (Json ℚ), j = .obj d ∧ Ordered d ∧ d.get? "uri" = i.uri.map .str ∧ d.get? "bufferView" = i.bufferView.map (fun n => .int n) ∧
    d.get? "mimeType" = i.mimeType.map (fun m => m.elim .null .str)

/-- A list of entries, or its absence. -/
def ReadsList {α : Type} (R : Json ℚ → α → Prop) (j : Option (Json ℚ)) (l : Option (List α)) : Prop :=
  (j = none ∧ l = none) ∨ ∃ js as, j = some (.arr js) ∧ l = some as ∧ List.Forall₂ R js as

/-- A document. -/
def ReadsDoc (j : Json ℚ) (doc : GltfDoc) : Prop :=
  ∃ d : Dict String (Json ℚ), j = .obj d ∧ Ordered d ∧ ReadsList ReadsBuffer (d.get? "buffers") doc.buffers ∧
    ReadsList ReadsView (d.get? "bufferViews") doc.bufferViews ∧ ReadsList ReadsImage (d.get? "images") doc.images

/-- All entries but these are the same. -/
def Keeps (keys : List String) (j j' : Json ℚ) : Prop :=
  ∃ d d' : Dict String (Json ℚ), j = .obj d ∧ j' = .obj d' ∧ ∀ k, k ∉ keys → d'.get? k = d.get? k

/-- The lists under a key begin with entries that are the same but for some keys. -/
def KeepsIn (key : String) (keys : List String) (j j' : Json ℚ) : Prop :=
  ∀ js, j.item key = .ok (.arr js) → ∃ js' more, j'.item key = .ok (.arr (js' ++ more)) ∧ List.Forall₂ (Keeps keys) js js'

end Gltf
end Sumo
