import Verif.Lemmas.TinySave

/-! # Lemmas: whole documents -/

namespace Sumo
namespace Gltf

/-- A model as `add_mesh` makes it. -/
structure Good (M : Model) : Prop where
  buffers : ∃ d, M.buffers = [d]
  views : ∀ v ∈ M.bufferViews, GoodView v
  someViews : M.bufferViews ≠ []
  accessors : ∀ a ∈ M.accessors, GoodAccessor a
  someAccessors : M.accessors ≠ []
  meshes : ∀ m ∈ M.meshes, ∀ p ∈ m, GoodPrimitive p
  someNodes : M.nodes ≠ []
  scenes : ∀ s ∈ M.scenes, s ≠ []
  someScenes : M.scenes ≠ []
  defaultScene : -1 ≤ M.defaultScene
  materials : ∀ m ∈ M.materials, Storable m
  images : GoodImages 0 M.images
  textures : ∀ t ∈ M.textures, -1 ≤ t.sampler

/-- A model that can be written; about its materials it is only known that they have a text. -/
structure Writable (M : Model) : Prop where
  buffers : ∃ d, M.buffers = [d]
  views : ∀ v ∈ M.bufferViews, GoodView v
  someViews : M.bufferViews ≠ []
  accessors : ∀ a ∈ M.accessors, GoodAccessor a
  someAccessors : M.accessors ≠ []
  meshes : ∀ m ∈ M.meshes, ∀ p ∈ m, GoodPrimitive p
  scenes : ∀ s ∈ M.scenes, s ≠ []
  materials : ∀ junk, ∀ m ∈ M.materials, (writeMaterial junk m).Wf
  images : GoodImages 0 M.images
  textures : ∀ t ∈ M.textures, -1 ≤ t.sampler

theorem wf_writeMaterial {m : GltfMaterial} (h : Storable m) (junk : Bool) : (writeMaterial junk m).Wf := by
  obtain ⟨o, _, h1, h2, _⟩ := parse_material (f := fun _ => some 0) (round := fun _ => 0) (fun _ => rfl) junk h
  rw [h1]
  exact wf_obj.2 h2

theorem Good.writable {M : Model} (h : Good M) : Writable M :=
  ⟨h.buffers, h.views, h.someViews, h.accessors, h.someAccessors, h.meshes, h.scenes,
    fun junk m hm => wf_writeMaterial (h.materials m hm) junk, h.images, h.textures⟩

/-! ### The document -/

theorem image_fields (img : Image) : ∃ o : Fields Number, writeImage img = .obj o ∧ WfO o ∧
    ∀ k, o.get? k = if k = "uri" then some (.str img.uri) else if k = "name" ∧ img.name ≠ "" then some (.str img.name) else none := by
  refine ⟨_, rfl, by wfo, fun k => ?_⟩
  by_cases hn : img.name = ""
  · simp [hn, get?_mapSet, eq_comm]
  · simp only [ne_eq, hn, not_false_eq_true, if_true, get?_mapSet, Dict.get?_nil, and_true]
    by_cases h1 : k = "uri"
    · subst h1; simp
    · by_cases h2 : k = "name"
      · subst h2; simp
      · simp [h1, h2, Ne.symm h1, Ne.symm h2]

theorem get?_ite {υ : Type} {p : Prop} [Decidable p] (a b : Dict String υ) (k : String) :
    (if p then a else b).get? k = if p then a.get? k else b.get? k := by
  split_ifs <;> rfl

theorem document_get (junk : Bool) (bin : String) (M : Model) (h1 : M.accessors ≠ []) (h2 : M.bufferViews ≠ [])
    (h3 : M.buffers ≠ []) :
    let o := writeDocument junk bin M
    o.get? "accessors" = some (.arr (M.accessors.map writeAccessor)) ∧
    o.get? "buffers" = some (.arr (M.buffers.map (writeBuffer bin))) ∧
    o.get? "bufferViews" = some (.arr (M.bufferViews.map writeView)) ∧
    o.get? "images" = (if M.images ≠ [] then some (.arr (M.images.map writeImage)) else none) ∧
    o.get? "materials" = (if M.materials ≠ [] then some (.arr (M.materials.map (writeMaterial junk))) else none) ∧
    o.get? "meshes" = (if M.meshes ≠ [] then some (.arr (M.meshes.map writeMesh)) else none) ∧
    o.get? "nodes" = (if M.nodes ≠ [] then some (.arr (M.nodes.map writeNode)) else none) ∧
    o.get? "scene" = (if -1 < M.defaultScene then some (.int M.defaultScene) else none) ∧
    o.get? "scenes" = (if M.scenes ≠ [] then some (.arr (M.scenes.map writeScene)) else none) ∧
    o.get? "textures" = (if M.textures ≠ [] then some (.arr (M.textures.map writeTexture)) else none) ∧
    o.get? "samplers" = (if M.samplers ≠ [] then some (.arr (M.samplers.map writeSampler)) else none) := by
  have e : ∀ {α : Type} (g : α → Json Number) {l : List α}, l ≠ [] → Json.ofList (l.map g) = .arr (l.map g) := by
    intro α g l hl
    unfold Json.ofList
    rw [if_neg (by simpa using hl)]
  simp only [writeDocument, get?_writeSection, get?_ite, get?_mapSet, e _ h1, e _ h2, e _ h3]
  refine ⟨?_, ?_, ?_, ?_, ?_, ?_, ?_, ?_, ?_, ?_, ?_⟩ <;> simp

theorem wf_writeBuffer (bin : String) (d : List UInt8) : (writeBuffer bin d).Wf := by
  unfold writeBuffer
  exact wf_obj.2 (by wfo)

theorem document_wf {junk : Bool} {bin : String} {M : Model} (hM : Writable M) : WfO (writeDocument junk bin M) := by
  have wl : ∀ {α : Type} {g : α → Json Number} {l : List α}, (∀ x ∈ l, (g x).Wf) → (Json.ofList (l.map g)).Wf := by
    intro α g l hl
    refine wf_ofList fun j hj => ?_
    obtain ⟨x, hx, rfl⟩ := List.mem_map.1 hj
    exact hl x hx
  have wo : ∀ {j : Json Number}, (∃ o : Fields Number, j = .obj o ∧ WfO o) → j.Wf := by
    rintro j ⟨o, rfl, h⟩
    exact wf_obj.2 h
  let f : Number → Option ℚ := fun _ => none
  unfold writeDocument
  refine WfO.section (WfO.section (WfO.section (WfO.ite (WfO.set (WfO.section (WfO.section (WfO.section (WfO.section
    (WfO.set (WfO.set (WfO.set (WfO.set wfO_nil ?_) ?_) ?_) ?_) ?_) ?_) ?_) ?_) (wf_int _)) (WfO.section (WfO.section (WfO.section
    (WfO.section (WfO.set (WfO.set (WfO.set (WfO.set wfO_nil ?_) ?_) ?_) ?_) ?_) ?_) ?_) ?_)) ?_) ?_) ?_
  case refine_1 | refine_9 =>
    exact wl fun a ha => wo (by obtain ⟨o, h1, h2, _⟩ := parse_accessor f (hM.accessors a ha); exact ⟨o, h1, h2⟩)
  case refine_2 | refine_10 =>
    refine wf_obj.2 ⟨?_, fun e he => ?_⟩
    · unfold Ordered
      simp only [List.pairwise_cons, List.mem_singleton, List.not_mem_nil, false_implies, implies_true, List.Pairwise.nil,
        and_true, forall_eq]
      decide
    · simp only [List.mem_cons, List.not_mem_nil, or_false] at he
      rcases he with rfl | rfl <;> trivial
  case refine_3 | refine_11 => exact wl fun a _ => wf_writeBuffer _ a
  case refine_4 | refine_12 =>
    exact wl fun a ha => wo (by obtain ⟨o, h1, h2, _⟩ := parse_view f (hM.views a ha); exact ⟨o, h1, h2⟩)
  case refine_5 | refine_13 => exact fun a _ => wo (by obtain ⟨o, h1, h2, _⟩ := image_fields a; exact ⟨o, h1, h2⟩)
  case refine_6 | refine_14 =>
    exact fun a ha => hM.materials junk a ha
  case refine_7 | refine_15 =>
    exact fun a ha => wo (by obtain ⟨o, h1, h2, _⟩ := parse_mesh f (hM.meshes a ha); exact ⟨o, h1, h2⟩)
  case refine_8 | refine_16 => exact fun a _ => wo (by obtain ⟨o, h1, h2, _⟩ := parse_node f a; exact ⟨o, h1, h2⟩)
  case refine_17 => exact fun a ha => wo (by obtain ⟨o, h1, h2, _⟩ := parse_scene f (hM.scenes a ha); exact ⟨o, h1, h2⟩)
  case refine_18 => exact fun a ha => wo (by obtain ⟨o, h1, h2, _⟩ := parse_texture f (hM.textures a ha); exact ⟨o, h1, h2⟩)
  case refine_19 => exact fun a _ => wo (by obtain ⟨o, h1, h2, _⟩ := parse_sampler f a; exact ⟨o, h1, h2⟩)

/-! ### What is read -/

/-- A model read back. -/
structure Kept (round : ℚ → ℚ) (M N : Model) : Prop where
  buffers : ∃ d s, M.buffers = [d] ∧ N.buffers = [d ++ s]
  views : ∃ vs, N.bufferViews = M.bufferViews ++ vs ∧ ∀ v ∈ vs, GoodView v
  accessors : ∃ f, N.accessors = M.accessors.map (backAccessor f)
  meshes : N.meshes = M.meshes
  nodes : N.nodes = M.nodes
  scenes : N.scenes = M.scenes
  defaultScene : N.defaultScene = M.defaultScene
  textures : N.textures = M.textures
  materials : List.Forall₂ (fun a b => MaterialBack round a b ∧ Storable b) M.materials N.materials
  images : List.Forall₂ (fun a b => ∀ x, Holds a x → Holds b x) M.images N.images
  goodImages : GoodImages 0 N.images

theorem Kept.good {round : ℚ → ℚ} {M N : Model} (h : Kept round M N) (hM : Good M) : Good N := by
  obtain ⟨d, s, _, hb⟩ := h.buffers
  obtain ⟨vs, hv, hg⟩ := h.views
  obtain ⟨f, ha⟩ := h.accessors
  refine ⟨⟨_, hb⟩, fun v hv' => ?_, ?_, fun a ha' => ?_, ?_, ?_, ?_, ?_, ?_, ?_, fun m hm => ?_, h.goodImages, ?_⟩
  · rw [hv, List.mem_append] at hv'
    exact hv'.elim (hM.views v) (hg v)
  · rw [hv]; simp [hM.someViews]
  · rw [ha] at ha'
    obtain ⟨a, h1, rfl⟩ := List.mem_map.1 ha'
    exact ⟨(hM.accessors a h1).1, (hM.accessors a h1).2⟩
  · rw [ha]; simpa using hM.someAccessors
  · rw [h.meshes]; exact hM.meshes
  · rw [h.nodes]; exact hM.someNodes
  · rw [h.scenes]; exact hM.scenes
  · rw [h.scenes]; exact hM.someScenes
  · rw [h.defaultScene]; exact hM.defaultScene
  · have key : ∀ {l l' : List GltfMaterial}, List.Forall₂ (fun a b => MaterialBack round a b ∧ Storable b) l l' →
        ∀ m ∈ l', Storable m := by
      intro l l' hl
      induction hl with
      | nil => simp
      | cons h _ ih =>
        intro m hm
        rcases List.mem_cons.1 hm with rfl | hm
        · exact h.2
        · exact ih m hm
    exact key h.materials m hm
  · rw [h.textures]; exact hM.textures

theorem readsSection_written {α β : Type} {f : Number → Option ℚ} {write : α → Json Number} {parse : Fields ℚ → Except PyErr β}
    {l : List α} {l' : List β} (h : Reads parse ((l.map write).map (Json.print f)) l') :
    ReadsSection parse ((if l ≠ [] then some (.arr (l.map write)) else none : Option (Json Number)).map (Json.print f)) l' := by
  by_cases hl : l = []
  · subst hl
    left
    refine ⟨by simp, ?_⟩
    cases h
    rfl
  · right
    refine ⟨_, ?_, h⟩
    rw [if_pos hl, Option.map_some, print_arr]

/-- The parts of the document that are read the same way from both kinds of files. -/
theorem document_reads {W : Writer} {L : Loader} {f : Number → Option ℚ} {round : ℚ → ℚ} (hF : Faithful W L f round) {M : Model}
    (hM : Good M) (junk : Bool) (bin : String) :
    let v := Json.printFields f (writeDocument junk bin M)
    ReadsSection parseAccessor (Dict.get? v "accessors") (M.accessors.map (backAccessor f)) ∧
    ReadsSection parseMesh (Dict.get? v "meshes") M.meshes ∧
    ReadsSection parseNode (Dict.get? v "nodes") M.nodes ∧
    ReadsSection parseScene (Dict.get? v "scenes") M.scenes ∧
    (numberOf v "scene").elim (-1) Model.toInt = M.defaultScene ∧
    ReadsSection parseTexture (Dict.get? v "textures") M.textures ∧
    ReadsSection parseSampler (Dict.get? v "samplers") M.samplers ∧
    ∃ mats, ReadsSection parseMaterial (Dict.get? v "materials") mats ∧
      List.Forall₂ (fun a b => MaterialBack round a b ∧ Storable b) M.materials mats := by
  obtain ⟨d, hd⟩ := hM.buffers
  obtain ⟨g1, g2, g3, g4, g5, g6, g7, g8, g9, g10, g11⟩ := document_get junk bin M hM.someAccessors hM.someViews (by rw [hd]; simp)
  have same : ∀ {α : Type} {write : α → Json Number} {parse : Fields ℚ → Except PyErr α} {l : List α},
      (∀ x ∈ l, ∃ o : Fields Number, write x = .obj o ∧ WfO o ∧ parse (Json.printFields f o) = .ok x) →
      Reads parse ((l.map write).map (Json.print f)) l := by
    intro α write parse l hl
    have := reads_same (g := id) hl
    rwa [List.map_id] at this
  refine ⟨?_, ?_, ?_, ?_, ?_, ?_, ?_, ?_⟩
  · rw [get?_printFields, g1]
    have := readsSection_written (reads_same (f := f) (g := backAccessor f) fun a ha => parse_accessor f (hM.accessors a ha))
    rwa [if_pos hM.someAccessors] at this
  · rw [get?_printFields, g6]
    exact readsSection_written (same fun a ha => parse_mesh f (hM.meshes a ha))
  · rw [get?_printFields, g7]
    exact readsSection_written (same fun a _ => parse_node f a)
  · rw [get?_printFields, g9]
    exact readsSection_written (same fun a ha => parse_scene f (hM.scenes a ha))
  · have hs := hM.defaultScene
    rw [numberOf_print, g8]
    by_cases h : -1 < M.defaultScene
    · rw [if_pos h]
      show (((Json.int M.defaultScene : Json Number).print f).number?).elim (-1) Model.toInt = _
      rw [number?_print_int]
      exact toInt_intCast _
    · rw [if_neg h]
      show (-1 : ℤ) = _
      omega
  · rw [get?_printFields, g10]
    exact readsSection_written (same fun a ha => parse_texture f (hM.textures a ha))
  · rw [get?_printFields, g11]
    exact readsSection_written (same fun a _ => parse_sampler f a)
  · rw [get?_printFields, g5]
    obtain ⟨mats, h1, h2⟩ := reads_written (f := f) (l := M.materials) (write := writeMaterial junk) (parse := parseMaterial)
      (R := fun a b => MaterialBack round a b ∧ Storable b) (fun m hm => by
        obtain ⟨o, m', a1, a2, a3, a4, a5, _⟩ := parse_material hF.finite junk (hM.materials m hm)
        exact ⟨o, m', a1, a2, a3, a4, a5⟩)
    exact ⟨mats, readsSection_written h1, h2⟩

end Gltf
end Sumo
