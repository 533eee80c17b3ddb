import Verif.Lemmas.GltfColored

/-! # Properties of coloured materials (C161) -/

namespace Sumo
namespace Gltf

variable {W : Writer} {L : Loader} {printed : Number → Option ℚ} {round : ℚ → ℚ} {M : Model} {l : List AnyMesh}

/-- **C161 (in memory).** `add_colored_material` returns the number of a new material that has the name and the colour; the
other materials keep their numbers and the meshes stay as they are.  (The entry for the roughness is misspelt, see `C161_false`.) -/
theorem C161_added (M : Model) (name : String) (color : Vec3 ℚ) (metallic roughness : ℚ) :
    ∃ N i m, M.addColoredMaterial name color metallic roughness = (N, i) ∧ N.materials[i]? = some m ∧ m.name = name ∧
      (m.values.get? "baseColorFactor").map (·.array) = some [color.x, color.y, color.z, 1] ∧
      (m.values.get? "metallicFactor").bind (·.value) = some metallic ∧
      (m.values.get? "roughNessFactor").bind (·.value) = some roughness ∧
      (∀ k, k < M.materials.length → N.materials[k]? = M.materials[k]?) ∧ i = M.materials.length ∧
      N.meshes = M.meshes ∧ N.buffers = M.buffers ∧ N.images = M.images ∧ N.textures = M.textures := by
  refine ⟨_, _, _, rfl, List.getElem?_concat_length, rfl, rfl, rfl, rfl, fun k hk => ?_, rfl, rfl, rfl, rfl, rfl⟩
  exact List.getElem?_append_left hk

/-- **C161 (partial).** Saved as glTF and loaded, the material has the same number, name and colour (up to the printed digits), and
the other materials are still there, each at its number.  Missing: metallic and roughness (`C161_false`). -/
theorem C161_partial (hF : Faithful W L printed round) (h : History W L M l) (hg : ∃ m ∈ l, HasGeometry m) {root : String}
    (hr : RootName root) (f : Folder) (name : String) (color : Vec3 ℚ) (metallic roughness : ℚ) :
    ∃ M' i f', M.addColoredMaterial name color metallic roughness = (M', i) ∧
      saveAsGltf W (some f) M' root = (M', some f', .ok ()) ∧
      (SmallFiles f' → ∀ files, Sees { L with file := files } f' → ∃ N m,
        loadGltf { L with file := files } (f'.file (root ++ ".gltf")) = .ok N ∧ N.materials[i]? = some m ∧ m.name = name ∧
        (m.values.get? "baseColorFactor").map (·.array) = some [round color.x, round color.y, round color.z, round 1] ∧
        N.materials.length = M.materials.length + 1 ∧
        List.Forall₂ (MaterialBack round) M.materials (N.materials.take M.materials.length)) := by
  obtain ⟨f', h1, h2⟩ := colored_back hF h hg hr f name color metallic roughness
  refine ⟨_, _, f', rfl, h1, fun hsmall files hsee => ?_⟩
  obtain ⟨N, m, h3, h4, h5, h6, h7⟩ := h2 hsmall files hsee
  refine ⟨N, m, h3, h5, h6.name, ?_, h4, h7⟩
  have hc := h6.values "baseColorFactor" (by simp)
  rw [show (writtenColored W.junk name color).values.get? "baseColorFactor" = some (Model.colorParameter color) from rfl] at hc
  cases hb : m.values.get? "baseColorFactor" with
  | none => rw [hb] at hc; exact hc.elim
  | some q =>
    rw [hb] at hc
    have hc : SameParameter round { hasNumber := false, str := "", num := [], array := [color.x, color.y, color.z, 1] } q := hc
    cases hc with
    | array l => rfl

/-- **C161 is false for metallic and roughness**: whatever they are, the file has a truth value for `metallicFactor`, and it has no
`roughnessFactor` (the entry is misspelt, and a truth value too), so they are lost. -/
theorem C161_false (hF : Faithful W L printed round) (h : History W L M l) (hg : ∃ m ∈ l, HasGeometry m) {root : String}
    (hr : RootName root) (f : Folder) (name : String) (color : Vec3 ℚ) (metallic roughness : ℚ) :
    ∃ M' i f', M.addColoredMaterial name color metallic roughness = (M', i) ∧
      saveAsGltf W (some f) M' root = (M', some f', .ok ()) ∧
      (SmallFiles f' → ∀ files, Sees { L with file := files } f' → ∃ N m p,
        loadGltf { L with file := files } (f'.file (root ++ ".gltf")) = .ok N ∧ N.materials[i]? = some m ∧
        m.values.get? "metallicFactor" = some p ∧ p.hasNumber = false ∧ p.value = none ∧ p.bool.isSome ∧
        m.values.get? "roughnessFactor" = none) := by
  obtain ⟨f', h1, h2⟩ := colored_back hF h hg hr f name color metallic roughness
  refine ⟨_, _, f', rfl, h1, fun hsmall files hsee => ?_⟩
  obtain ⟨N, m, h3, h4, h5, h6, h7⟩ := h2 hsmall files hsee
  have hc := h6.values "metallicFactor" (by simp)
  rw [show (writtenColored W.junk name color).values.get? "metallicFactor" =
    some { hasNumber := false, str := "", num := [], bool := some W.junk } from rfl] at hc
  have hq := h6.values "roughnessFactor" (by simp)
  rw [show (writtenColored W.junk name color).values.get? "roughnessFactor" = none from rfl] at hq
  cases hb : m.values.get? "metallicFactor" with
  | none => rw [hb] at hc; exact hc.elim
  | some q =>
    rw [hb] at hc
    have hc : SameParameter round { hasNumber := false, str := "", num := [], bool := some W.junk } q := hc
    refine ⟨N, m, q, h3, h5, hb, ?_⟩
    have hr' : m.values.get? "roughnessFactor" = none := by
      cases hx : m.values.get? "roughnessFactor" with
      | none => rfl
      | some p => rw [hx] at hq; exact hq.elim
    cases hc with
    | flag b => exact ⟨rfl, rfl, rfl, hr'⟩

/-- A concrete case: a model with two meshes, and a red metal. -/
example := C161_partial exFaithful (tinyModel_history _ _) tinyModel_geometry (root := "room") ⟨by decide, by decide⟩
  ⟨fun _ => none, []⟩ "red metal" ⟨1, 0, 0⟩ 1 (1 / 4)

/-! ### The names of pictures -/

/-- **C97 (names).** The name of a picture is its file name without folder and extension. -/
theorem C97_image_name (folder base extension : String) (hb : '/' ∉ base.toList) (he : '/' ∉ extension.toList)
    (he' : '.' ∉ extension.toList) :
    Model.imageName (folder ++ "/" ++ base ++ "." ++ extension) = base ∧ Model.imageName (base ++ "." ++ extension) = base := by
  have hstop : (extension.toList.reverse ++ '.' :: base.toList.reverse).all (· ≠ '/') = true := by
    simp only [List.all_append, List.all_cons, List.all_reverse, Bool.and_eq_true, List.all_eq_true, decide_eq_true_eq]
    exact ⟨fun x hx e => he (e ▸ hx), by decide, fun x hx e => hb (e ▸ hx)⟩
  have hdrop : (extension.toList.reverse ++ '.' :: base.toList.reverse).dropWhile (· ≠ '.') = '.' :: base.toList.reverse := by
    rw [List.dropWhile_append_of_pos]
    · rw [List.dropWhile_cons_of_neg (by simp)]
    · intro a ha
      simp only [List.mem_reverse] at ha
      simp only [decide_eq_true_eq]
      exact fun e => he' (e ▸ ha)
  have key : ∀ l : List Char, (∀ c, l.head? = some c → c = '/') →
      Model.imageName (String.ofList (l.reverse ++ base.toList ++ '.' :: extension.toList)) = base := by
    intro l hl
    unfold Model.imageName
    have htake : (String.ofList (l.reverse ++ base.toList ++ '.' :: extension.toList)).toList.reverse.takeWhile (· ≠ '/') =
        extension.toList.reverse ++ '.' :: base.toList.reverse := by
      rw [String.toList_ofList]
      simp only [List.reverse_append, List.reverse_cons, List.reverse_reverse, List.append_assoc, List.singleton_append]
      rw [show extension.toList.reverse ++ ('.' :: base.toList.reverse ++ l) =
        (extension.toList.reverse ++ '.' :: base.toList.reverse) ++ l by simp, List.takeWhile_append_of_pos (by
          intro a ha; exact List.all_eq_true.1 hstop a ha)]
      cases l with
      | nil => simp
      | cons c l => rw [hl c rfl]; simp
    simp only [htake]
    rw [if_pos (by simp), if_pos (by simp), List.reverse_reverse, hdrop, List.tail_cons, List.reverse_reverse, String.ofList_toList]
  constructor
  · have := key ('/' :: folder.toList.reverse) (by simp)
    rwa [show String.ofList (('/' :: folder.toList.reverse).reverse ++ base.toList ++ '.' :: extension.toList) =
      folder ++ "/" ++ base ++ "." ++ extension from String.toList_injective (by simp)] at this
  · have := key [] (by simp)
    rwa [show String.ofList (([] : List Char).reverse ++ base.toList ++ '.' :: extension.toList) =
      base ++ "." ++ extension from String.toList_injective (by simp)] at this

/-- A concrete case: a picture of a floor. -/
example : Model.imageName "textures/wood.floor.jpg" = "wood.floor" := (C97_image_name "textures" "wood.floor" "jpg" (by decide)
  (by decide) (by decide)).1

end Gltf
end Sumo
