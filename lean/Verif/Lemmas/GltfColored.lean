import Verif.Props.TinyGltf

/-! # Lemmas: coloured materials -/

namespace Sumo
namespace Gltf

/-- The material that is in fact written for a coloured material: the two numbers are written as truth values. -/
def writtenColored (junk : Bool) (name : String) (color : Vec3 ℚ) : GltfMaterial :=
  ⟨name, [("baseColorFactor", Model.colorParameter color),
    ("metallicFactor", { hasNumber := false, str := "", num := [], bool := some junk }),
    ("roughNessFactor", { hasNumber := false, str := "", num := [], bool := some junk })], []⟩

theorem writeMaterial_colored (junk : Bool) (name : String) (color : Vec3 ℚ) (metallic roughness : ℚ) :
    writeMaterial junk ⟨name, [("baseColorFactor", Model.colorParameter color),
       ("metallicFactor", { hasNumber := false, str := "", num := [], value := some metallic }),
       ("roughNessFactor", { hasNumber := false, str := "", num := [], value := some roughness })], []⟩ =
      writeMaterial junk (writtenColored junk name color) := by
  simp [writeMaterial, writtenColored, writeParameters, writeParameter]

theorem writtenColored_storable (junk : Bool) (name : String) (color : Vec3 ℚ) : Storable (writtenColored junk name color) := by
  refine ⟨Or.inr (Or.inl (by simp [writtenColored])), fun e he => ?_, fun e he => ?_, ?_, ?_, fun k hk => ?_, fun _ hk => ?_⟩
  · simp only [writtenColored, List.mem_cons, List.not_mem_nil, or_false] at he
    rcases he with rfl | rfl | rfl
    · exact OneKind.array [color.x, color.y, color.z, 1] (by simp)
    · exact OneKind.flag junk
    · exact OneKind.flag junk
  · simp [writtenColored] at he
  · simp only [writtenColored, Ordered, List.pairwise_cons, List.mem_cons, List.not_mem_nil, or_false]
    refine ⟨fun a ha => ?_, fun a ha => ?_, ?_⟩
    · rcases ha with rfl | rfl <;> dsimp only <;> decide
    · subst ha; dsimp only; decide
    · simp
  · simp [writtenColored, Ordered]
  · simp [writtenColored, Dict.keys] at hk
  · simp [writtenColored, Dict.keys] at hk

theorem writeDocument_materials {junk : Bool} (bin : String) (M : Model) {ms ns : List GltfMaterial}
    (h : ms.map (writeMaterial junk) = ns.map (writeMaterial junk)) :
    writeDocument junk bin { M with materials := ms } = writeDocument junk bin { M with materials := ns } := by
  have he : ms.isEmpty = ns.isEmpty := by
    have := congrArg List.length h
    simp only [List.length_map] at this
    cases ms <;> cases ns <;> simp_all
  simp only [writeDocument, writeSection, h, he]

theorem saveAsGltf_materials {W : Writer} (fo : Folder) (M : Model) {ms ns : List GltfMaterial}
    (h : ms.map (writeMaterial W.junk) = ns.map (writeMaterial W.junk)) (root : String) {fo' : Folder} {r : Except PyErr Unit}
    (hs : saveAsGltf W (some fo) { M with materials := ns } root = ({ M with materials := ns }, some fo', r)) :
    saveAsGltf W (some fo) { M with materials := ms } root = ({ M with materials := ms }, some fo', r) := by
  unfold saveAsGltf saveGltf writeGltfScene at hs ⊢
  cases hu : updateImages 0 M.images with
  | error e =>
    simp only [hu, bind, Except.bind] at hs ⊢
    simp only [Prod.mk.injEq] at hs ⊢
    exact ⟨trivial, hs.2⟩
  | ok imgs =>
    have hd := writeDocument_materials (binName root) { M with images := imgs } h
    simp only [hu, bind, Except.bind, pure, Except.pure] at hs hd ⊢
    rw [hd]
    split_ifs at hs ⊢ with hc
    · simp only [Prod.mk.injEq, Model.mk.injEq] at hs ⊢
      tauto
    · simp only [Prod.mk.injEq, Model.mk.injEq] at hs ⊢
      tauto

/-- A model that can be saved can be saved with one more material. -/
theorem Good.colored {M : Model} (h : Good M) {m : GltfMaterial} (hm : Storable m) :
    Good { M with materials := M.materials ++ [m] } :=
  ⟨h.buffers, h.views, h.someViews, h.accessors, h.someAccessors, h.meshes, h.someNodes, h.scenes, h.someScenes, h.defaultScene,
    fun a ha => by
      rcases List.mem_append.1 ha with ha | ha
      · exact h.materials a ha
      · rw [List.mem_singleton] at ha; rw [ha]; exact hm, h.images, h.textures⟩

/-- What comes back of a model with a coloured material. -/
theorem colored_back {W : Writer} {L : Loader} {printed : Number → Option ℚ} {round : ℚ → ℚ} {M : Model} {l : List AnyMesh}
    (hF : Faithful W L printed round) (h : History W L M l) (hg : ∃ m ∈ l, HasGeometry m) {root : String}
    (hr : RootName root) (f : Folder) (name : String) (color : Vec3 ℚ) (metallic roughness : ℚ) :
    ∃ f', saveAsGltf W (some f) (M.addColoredMaterial name color metallic roughness).1 root =
        ((M.addColoredMaterial name color metallic roughness).1, some f', .ok ()) ∧
      (SmallFiles f' → ∀ files, Sees { L with file := files } f' → ∃ N m,
        loadGltf { L with file := files } (f'.file (root ++ ".gltf")) = .ok N ∧ N.materials.length = M.materials.length + 1 ∧
        N.materials[M.materials.length]? = some m ∧ MaterialBack round (writtenColored W.junk name color) m ∧
        List.Forall₂ (MaterialBack round) M.materials (N.materials.take M.materials.length)) := by
  obtain ⟨hM, ms, hm, hs⟩ := sane hF h
  have hM : Good M := by
    rcases hM with ⟨_, rfl⟩ | hM
    · obtain ⟨m, hm, _⟩ := hg
      simp at hm
    · exact hM
  obtain ⟨d, hd⟩ := hM.buffers
  have hM' := hM.colored (writtenColored_storable W.junk name color)
  obtain ⟨pics, f', p1, p2, p3, p4⟩ := saveAsGltf_good hF hM' (d := d) hd hr f
  refine ⟨f', ?_, fun hsmall files hsee => ?_⟩
  · refine saveAsGltf_materials f M ?_ root p2
    rw [List.map_append, List.map_append, List.map_singleton, List.map_singleton, writeMaterial_colored]
  · have ht := p3 (root ++ ".gltf", _) (List.mem_cons_of_mem _ List.mem_cons_self)
    obtain ⟨N, n1, n2⟩ := loadGltf_good (hF.files files) hM' hd hr p1
      (fun w hw => ⟨hsee _ _ (p3 w hw), hsmall _ _ (p3 w hw)⟩) (data_of_geometry hd hm hs hg)
    have e : files (root ++ ".gltf") = f'.file (root ++ ".gltf") := by rw [ht]; exact hsee _ _ ht
    have hmat := n2.materials
    have hlen := hmat.length_eq
    simp only [List.length_append, List.length_singleton] at hlen
    have hsplit := List.forall₂_take M.materials.length hmat
    have hdrop := List.forall₂_drop M.materials.length hmat
    rw [show (M.materials ++ [writtenColored W.junk name color]).take M.materials.length = M.materials from List.take_left] at hsplit
    rw [show (M.materials ++ [writtenColored W.junk name color]).drop M.materials.length = [writtenColored W.junk name color] from
      List.drop_left] at hdrop
    obtain ⟨m, hm1⟩ : ∃ m, N.materials.drop M.materials.length = [m] := by
      rw [← List.length_eq_one_iff, List.length_drop]
      omega
    rw [hm1] at hdrop
    refine ⟨N, m, ?_, hlen.symm, ?_, ?_, ?_⟩
    · rw [← e]; exact n1
    · have : (N.materials.drop M.materials.length)[0]? = some m := by rw [hm1]; rfl
      rwa [List.getElem?_drop, Nat.add_zero] at this
    · cases hdrop with
      | cons h _ => exact h.1
    · exact hsplit.imp fun _ _ h => h.1

end Gltf
end Sumo
