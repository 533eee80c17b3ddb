import Verif.Lemmas.TinyMaterial

/-! # Lemmas: sections of documents, written and read -/

namespace Sumo
namespace Gltf

/-! ### Reading sections -/

/-- The entries of an array are objects that are read as the given values. -/
def Reads {α : Type} (parse : Fields ℚ → Except PyErr α) (js : List (Json ℚ)) (l : List α) : Prop :=
  List.Forall₂ (fun j x => ∃ o, j = .obj o ∧ parse o = .ok x) js l

/-- A section is read as the given values; it may be absent if there are none. -/
def ReadsSection {α : Type} (parse : Fields ℚ → Except PyErr α) (v : Option (Json ℚ)) (l : List α) : Prop :=
  (v = none ∧ l = []) ∨ ∃ js, v = some (.arr js) ∧ Reads parse js l

theorem parseEach_ok {α : Type} {parse : Model → Fields ℚ → Except PyErr α} {parse' : Fields ℚ → Except PyErr α}
    {add : Model → α → Model} (put : List α → Model)
    (hadd : ∀ xs x, add (put xs) x = put (xs ++ [x])) (hparse : ∀ xs o x, parse' o = .ok x → parse (put xs) o = .ok x) :
    ∀ {js : List (Json ℚ)} {l : List α} (xs : List α), Reads parse' js l →
      parseEach parse add (put xs) js = (put (xs ++ l), .ok ()) := by
  intro js l xs h
  induction h generalizing xs with
  | nil => simp [parseEach]
  | @cons j x js l h _ ih =>
    obtain ⟨o, rfl, ho⟩ := h
    simp only [parseEach, hparse xs o x ho]
    rw [hadd, ih]
    simp

theorem parseSection_ok {α : Type} {parse : Model → Fields ℚ → Except PyErr α} {parse' : Fields ℚ → Except PyErr α}
    {add : Model → α → Model} (put : List α → Model)
    (hadd : ∀ xs x, add (put xs) x = put (xs ++ [x])) (hparse : ∀ xs o x, parse' o = .ok x → parse (put xs) o = .ok x)
    {v : Fields ℚ} {key : String} {l : List α} (h : ReadsSection parse' (v.get? key) l) :
    parseSection v key parse add (put []) = (put l, .ok ()) := by
  unfold parseSection
  rcases h with ⟨h1, rfl⟩ | ⟨js, h1, h2⟩
  · rw [h1]
  · rw [h1]
    exact parseEach_ok put hadd hparse [] h2

theorem isArray_ok {v : Fields ℚ} {key : String} {js : List (Json ℚ)} (h : v.get? key = some (.arr js)) :
    isArray v key = true := by
  unfold isArray
  rw [h]

theorem Reads.ne_nil {α : Type} {parse : Fields ℚ → Except PyErr α} {js : List (Json ℚ)} {l : List α} (h : Reads parse js l)
    (hl : l ≠ []) : js ≠ [] := by
  intro e
  subst e
  cases h
  exact hl rfl

theorem readsSection_array {α : Type} {parse : Fields ℚ → Except PyErr α} {v : Fields ℚ} {key : String} {l : List α}
    (h : ReadsSection parse (v.get? key) l) (hl : l ≠ []) : isArray v key = true := by
  rcases h with ⟨_, h2⟩ | ⟨js, h1, _⟩
  · exact absurd h2 hl
  · exact isArray_ok h1

/-- A document whose sections are read as the parts of a model is read as the model. -/
theorem loadDocument_ok {L : Loader} {bin : Option (List UInt8 × ℕ)} {text : List UInt8} {v : Fields ℚ} {N : Model}
    (hlen : 4 ≤ text.length) (hparse : L.parse text = some (.obj v))
    (buffers : ReadsSection (parseBuffer L bin) (v.get? "buffers") N.buffers)
    (views : ReadsSection parseView (v.get? "bufferViews") N.bufferViews)
    (accessors : ReadsSection parseAccessor (v.get? "accessors") N.accessors)
    (meshes : ReadsSection parseMesh (v.get? "meshes") N.meshes)
    (nodes : ReadsSection parseNode (v.get? "nodes") N.nodes)
    (scenes : ReadsSection parseScene (v.get? "scenes") N.scenes)
    (scene : (numberOf v "scene").elim (-1) Model.toInt = N.defaultScene)
    (materials : ReadsSection parseMaterial (v.get? "materials") N.materials)
    (images : ReadsSection (parseImage L { buffers := N.buffers, bufferViews := N.bufferViews }) (v.get? "images") N.images)
    (textures : ReadsSection parseTexture (v.get? "textures") N.textures)
    (samplers : ReadsSection parseSampler (v.get? "samplers") N.samplers)
    (h1 : N.buffers ≠ []) (h2 : N.bufferViews ≠ []) (h3 : N.accessors ≠ []) (h4 : N.nodes ≠ []) (h5 : N.scenes ≠ []) :
    loadDocument L bin text = (N, .ok ()) := by
  unfold loadDocument
  rw [if_neg (by omega), hparse]
  dsimp only
  rw [readsSection_array scenes h5, readsSection_array nodes h4, readsSection_array accessors h3, readsSection_array buffers h1,
    readsSection_array views h2]
  simp only [Bool.and_self, if_true]
  let M0 : Model := {}
  let M1 : Model := { M0 with buffers := N.buffers }
  let M2 : Model := { M1 with bufferViews := N.bufferViews }
  let M3 : Model := { M2 with accessors := N.accessors }
  let M4 : Model := { M3 with meshes := N.meshes }
  let M5 : Model := { M4 with nodes := N.nodes }
  let M6 : Model := { M5 with scenes := N.scenes }
  let M7 : Model := { M6 with defaultScene := N.defaultScene }
  let M8 : Model := { M7 with materials := N.materials }
  let M9 : Model := { M8 with images := N.images }
  let M10 : Model := { M9 with textures := N.textures }
  let M11 : Model := { M10 with samplers := N.samplers }
  have e1 : parseSection v "buffers" (fun _ => parseBuffer L bin) (fun M b => { M with buffers := M.buffers ++ [b] }) M0 = (M1, .ok ()) :=
    parseSection_ok (fun xs => { M0 with buffers := xs }) (fun _ _ => rfl) (fun _ _ _ h => h) buffers
  have e2 : parseSection v "bufferViews" (fun _ => parseView) (fun M b => { M with bufferViews := M.bufferViews ++ [b] }) M1 = (M2, .ok ()) :=
    parseSection_ok (fun xs => { M1 with bufferViews := xs }) (fun _ _ => rfl) (fun _ _ _ h => h) views
  have e3 : parseSection v "accessors" (fun _ => parseAccessor) (fun M b => { M with accessors := M.accessors ++ [b] }) M2 = (M3, .ok ()) :=
    parseSection_ok (fun xs => { M2 with accessors := xs }) (fun _ _ => rfl) (fun _ _ _ h => h) accessors
  have e4 : parseSection v "meshes" (fun _ => parseMesh) (fun M b => { M with meshes := M.meshes ++ [b] }) M3 = (M4, .ok ()) :=
    parseSection_ok (fun xs => { M3 with meshes := xs }) (fun _ _ => rfl) (fun _ _ _ h => h) meshes
  have e5 : parseSection v "nodes" (fun _ => parseNode) (fun M b => { M with nodes := M.nodes ++ [b] }) M4 = (M5, .ok ()) :=
    parseSection_ok (fun xs => { M4 with nodes := xs }) (fun _ _ => rfl) (fun _ _ _ h => h) nodes
  have e6 : parseSection v "scenes" (fun _ => parseScene) (fun M b => { M with scenes := M.scenes ++ [b] }) M5 = (M6, .ok ()) :=
    parseSection_ok (fun xs => { M5 with scenes := xs }) (fun _ _ => rfl) (fun _ _ _ h => h) scenes
  have e7 : parseDefaultScene v M6 = (M7, .ok ()) := by
    unfold parseDefaultScene
    simp only [M7]
    cases hs : numberOf v "scene" with
    | none => rw [hs] at scene; dsimp only; rw [← scene]; rfl
    | some q => rw [hs] at scene; dsimp only; rw [← scene]; rfl
  have e8 : parseSection v "materials" (fun _ => parseMaterial) (fun M b => { M with materials := M.materials ++ [b] }) M7 = (M8, .ok ()) :=
    parseSection_ok (fun xs => { M7 with materials := xs }) (fun _ _ => rfl) (fun _ _ _ h => h) materials
  have e9 : parseSection v "images" (parseImage L) (fun M b => { M with images := M.images ++ [b] }) M8 = (M9, .ok ()) :=
    parseSection_ok (fun xs => { M8 with images := xs }) (fun _ _ => rfl) (fun _ _ _ h => h) images
  have e10 : parseSection v "textures" (fun _ => parseTexture) (fun M b => { M with textures := M.textures ++ [b] }) M9 = (M10, .ok ()) :=
    parseSection_ok (fun xs => { M9 with textures := xs }) (fun _ _ => rfl) (fun _ _ _ h => h) textures
  have e11 : parseSection v "samplers" (fun _ => parseSampler) (fun M b => { M with samplers := M.samplers ++ [b] }) M10 = (M11, .ok ()) :=
    parseSection_ok (fun xs => { M10 with samplers := xs }) (fun _ _ => rfl) (fun _ _ _ h => h) samplers
  have e12 : M11 = N := rfl
  rw [show ({} : Model) = M0 from rfl, ← e12]
  simp only [e1, e2, e3, e4, e5, e6, e7, e8, e9, e10, e11, Loading.andThen]

/-! ### Writing sections -/

theorem get?_writeSection {α : Type} (key : String) (write : α → Json Number) (l : List α) (o : Fields Number) (k : String) :
    (writeSection key write l o).get? k = if key = k ∧ l ≠ [] then some (.arr (l.map write)) else o.get? k := by
  unfold writeSection
  cases l with
  | nil => simp
  | cons a l => simp [get?_mapSet, Json.ofList]

theorem WfO.section {α : Type} {o : Fields Number} (h : WfO o) {key : String} {write : α → Json Number} {l : List α}
    (hl : ∀ x ∈ l, (write x).Wf) : WfO (writeSection key write l o) := by
  unfold writeSection
  refine WfO.ite h (h.set (wf_ofList fun j hj => ?_))
  obtain ⟨x, hx, rfl⟩ := List.mem_map.1 hj
  exact hl x hx

/-- Values written and read. -/
theorem reads_written {α β : Type} {f : Number → Option ℚ} {write : α → Json Number} {parse : Fields ℚ → Except PyErr β}
    {R : α → β → Prop} {l : List α}
    (h : ∀ x ∈ l, ∃ (o : Fields Number) (y : β), write x = .obj o ∧ WfO o ∧ parse (Json.printFields f o) = .ok y ∧ R x y) :
    ∃ l', Reads parse ((l.map write).map (Json.print f)) l' ∧ List.Forall₂ R l l' := by
  induction l with
  | nil => exact ⟨[], .nil, .nil⟩
  | cons a l ih =>
    obtain ⟨l', h1, h2⟩ := ih fun x hx => h x (List.mem_cons_of_mem _ hx)
    obtain ⟨o, y, h3, _, h5, h6⟩ := h a List.mem_cons_self
    refine ⟨y :: l', .cons ⟨Json.printFields f o, ?_, h5⟩ h1, .cons h6 h2⟩
    rw [h3, print_obj]

theorem forall₂_eq {α : Type} {l l' : List α} (h : List.Forall₂ Eq l l') : l' = l := by
  induction h with
  | nil => rfl
  | cons h _ ih => rw [h, ih]

/-- Values that are read as they were. -/
theorem reads_same {α β : Type} {f : Number → Option ℚ} {write : α → Json Number} {parse : Fields ℚ → Except PyErr β} {g : α → β}
    {l : List α} (h : ∀ x ∈ l, ∃ o : Fields Number, write x = .obj o ∧ WfO o ∧ parse (Json.printFields f o) = .ok (g x)) :
    Reads parse ((l.map write).map (Json.print f)) (l.map g) := by
  induction l with
  | nil => exact .nil
  | cons a l ih =>
    obtain ⟨o, h3, _, h5⟩ := h a List.mem_cons_self
    refine .cons ⟨Json.printFields f o, ?_, h5⟩ (ih fun x hx => h x (List.mem_cons_of_mem _ hx))
    rw [h3, print_obj]

end Gltf
end Sumo
