import Verif.Spec.Project
import Verif.Lemmas.TinyExample
import Verif.Props.Xml

/-! # Formats that meet the assumptions -/

namespace Sumo
namespace Project

open Gltf

/-- A text of a document is not the beginning of another one. -/
theorem docText_prefix {j k : Gltf.Json ℚ} {r : List UInt8} (h : docText j = docText k ++ r) : j = k ∧ r = [] := by
  have h1 := readDoc_text j (2 * (docText j).length) [] (by omega)
  rw [List.append_nil] at h1
  have h2 := readDoc_text k (2 * (docText j).length) r (by rw [h, List.length_append]; omega)
  rw [← h, h1] at h2
  simp only [Option.some.injEq, Prod.mk.injEq] at h2
  exact ⟨h2.1, h2.2.symm⟩

section
variable {α : Type} (code : α → Gltf.Json ℚ)

open Classical in
/-- Finds what a text was made from. -/
noncomputable def findText (b : List UInt8) : Option α := if h : ∃ x, docText (code x) = b then some h.choose else none

theorem findText_text (hi : Function.Injective code) (x : α) : findText code (docText (code x)) = some x := by
  have h : ∃ y, docText (code y) = docText (code x) := ⟨x, rfl⟩
  unfold findText
  rw [dif_pos h]
  congr 1
  have := h.choose_spec
  exact hi (docText_prefix (r := []) (by rw [List.append_nil]; exact this)).1

theorem findText_cut (x : α) {k : ℕ} (hk : k < (docText (code x)).length) : findText code ((docText (code x)).take k) = none := by
  unfold findText
  rw [dif_neg]
  rintro ⟨y, hy⟩
  have h := List.take_append_drop k (docText (code x))
  rw [← hy] at h
  have := (docText_prefix h.symm).2
  rw [List.drop_eq_nil_iff] at this
  omega
end

mutual
/-- An XML document as JSON. -/
def xmlCode : Xml → Gltf.Json ℚ
  | .node t a x cs => .arr [.str t, .arr (a.map fun e => .arr [.str e.1, .str e.2]), x.elim .null .str, .arr (xmlCodes cs)]
/-- See `xmlCode`. -/
def xmlCodes : List Xml → List (Gltf.Json ℚ)
  | [] => []
  | x :: l => xmlCode x :: xmlCodes l
end

mutual
theorem xmlCode_inj : ∀ x y, xmlCode x = xmlCode y → x = y
  | .node t a x cs, .node t' a' x' cs', h => by
    simp only [xmlCode, Gltf.Json.arr.injEq, List.cons.injEq, Gltf.Json.str.injEq, and_true] at h
    obtain ⟨h1, h2, h3, h4⟩ := h
    have e2 : a = a' := by
      refine List.map_injective_iff.2 (fun e e' he => ?_) h2
      simp only [Gltf.Json.arr.injEq, List.cons.injEq, Gltf.Json.str.injEq, and_true] at he
      exact Prod.ext he.1 he.2
    have e3 : x = x' := by
      cases x <;> cases x' <;> simp_all
    rw [h1, e2, e3, xmlCodes_inj cs cs' h4]
theorem xmlCodes_inj : ∀ l k, xmlCodes l = xmlCodes k → l = k
  | [], [], _ => rfl
  | [], _ :: _, h => by simp [xmlCodes] at h
  | _ :: _, [], h => by simp [xmlCodes] at h
  | x :: l, y :: k, h => by
    simp only [xmlCodes, List.cons.injEq] at h
    rw [xmlCode_inj x y h.1, xmlCodes_inj l k h.2]
end

/-- The contents of an HDF5 file as JSON. -/
def h5Code (f : VoxelGrid.H5 ℚ) : Gltf.Json ℚ :=
  .arr [.arr (f.voxels3d.map fun v => .arr [.int v.x, .int v.y, .int v.z]), .num f.scale, .num f.minCorner.x, .num f.minCorner.y,
    .num f.minCorner.z, .int f.sizeX, .int f.sizeY]

theorem h5Code_inj : Function.Injective h5Code := by
  rintro ⟨v, s, m, x, y⟩ ⟨v', s', m', x', y'⟩ h
  simp only [h5Code, Gltf.Json.arr.injEq, List.cons.injEq, Gltf.Json.num.injEq, Gltf.Json.int.injEq, and_true] at h
  obtain ⟨h1, rfl, h3, h4, h5, rfl, rfl⟩ := h
  have e1 : v = v' := by
    refine List.map_injective_iff.2 (fun e e' he => ?_) h1
    simp only [Gltf.Json.arr.injEq, List.cons.injEq, Gltf.Json.int.injEq, and_true] at he
    cases e; cases e'
    simp_all
  cases m; cases m'
  simp_all

/-- Formats for examples. -/
noncomputable def exEnv : Env where
  W := exWriter
  L := exLoader
  T := NumText.unary
  xmlWrite x := docText (xmlCode x)
  xmlParse b := (findText xmlCode b).map Xml.reread
  h5Write f := docText (h5Code f)
  h5Read := findText h5Code
  samples _ := .ok []

theorem exEnv_faithful : exEnv.Faithful Number.value id where
  gltf := exFaithful
  xml x := by
    show (findText xmlCode (docText (xmlCode x))).map Xml.reread = _
    rw [findText_text _ (fun x y => xmlCode_inj x y)]
    rfl
  xmlCut x k hk := by
    show (findText xmlCode ((docText (xmlCode x)).take k)).map Xml.reread = _
    rw [findText_cut _ x hk]
    rfl
  h5 f := findText_text _ h5Code_inj f

end Project
end Sumo
