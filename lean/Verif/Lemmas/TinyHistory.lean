import Verif.Lemmas.TinyExtract
import Verif.Lemmas.TinyGltf
import Verif.Lemmas.TinyGlb

/-! # Lemmas: adding, saving and loading in any order -/

namespace Sumo
namespace Gltf

/-! ### Adding -/

/-- The lists that `pushData` makes longer hold good entries. -/
theorem pushData_good {α : Type} (e : Element α) (M : Model) (t : ℕ) (vs : List α)
    (he : e.stride ≤ 252 ∧ e.stride % 4 = 0) (ht : t = 0 ∨ t = 34962 ∨ t = 34963)
    (hn : typeOfName (typeName e.type) = some e.type) (hc : 5120 ≤ e.componentType ∧ e.componentType ≤ 5130) :
    (∃ v, (M.pushData e t vs).1.bufferViews = M.bufferViews ++ [v] ∧ GoodView v) ∧
    (∃ a, (M.pushData e t vs).1.accessors = M.accessors ++ [a] ∧ GoodAccessor a) ∧
    (∀ d, M.buffers = [d] → ∃ d', (M.pushData e t vs).1.buffers = [d']) ∧
    (M.pushData e t vs).1.meshes = M.meshes ∧ (M.pushData e t vs).1.materials = M.materials ∧
    (M.pushData e t vs).1.images = M.images ∧ (M.pushData e t vs).1.textures = M.textures ∧
    (M.pushData e t vs).1.nodes = M.nodes ∧ (M.pushData e t vs).1.scenes = M.scenes ∧
    (M.pushData e t vs).1.defaultScene = M.defaultScene := by
  refine ⟨⟨_, rfl, rfl, he, ht⟩, ⟨_, rfl, hn, hc⟩, fun d hd => ?_, rfl, rfl, rfl, rfl, rfl, rfl, rfl⟩
  simp only [Model.pushData, Model.addToBuffer, Model.addBufferView, Model.addAccessor, hd]
  exact ⟨_, rfl⟩

theorem mem_snoc {α : Type} {P : α → Prop} {l l' : List α} {x : α} (h : ∀ a ∈ l, P a) (hl : l' = l ++ [x]) (hx : P x) :
    ∀ a ∈ l', P a := by
  intro a ha
  rw [hl, List.mem_append, List.mem_singleton] at ha
  rcases ha with ha | rfl
  · exact h a ha
  · exact hx

theorem snoc_ne {α : Type} {l l' : List α} {x : α} (hl : l' = l ++ [x]) : l' ≠ [] := by
  rw [hl]; simp

theorem good_uint : typeOfName (typeName uintElement.type) = some uintElement.type := by decide
theorem good_vec3 : typeOfName (typeName vec3Element.type) = some vec3Element.type := by decide
theorem good_vec2 : typeOfName (typeName vec2Element.type) = some vec2Element.type := by decide

theorem addPrimitiveMesh_good {M : Model} (hM : M = {} ∨ Good M) {mesh : Mesh F32} (hs : Storable mesh.material) :
    Good (M.addPrimitiveMesh mesh) := by
  let M0 : Model := { M with
    buffers := if M.buffers.isEmpty then [[]] else M.buffers
    scenes := if M.scenes.isEmpty then [[]] else M.scenes
    defaultScene := 0 }
  let i := M0.pushData uintElement 34963 mesh.indices
  let v := i.1.pushData vec3Element 34962 mesh.vertices
  let n := v.1.pushData vec3Element 34962 mesh.normals
  have b0 : ∃ d, M0.buffers = [d] := by
    rcases hM with rfl | h
    · exact ⟨[], rfl⟩
    · obtain ⟨d, hd⟩ := h.buffers
      exact ⟨d, by simp [M0, hd]⟩
  have s0 : ∀ s ∈ M0.scenes.tail, s ≠ [] := by
    rcases hM with rfl | h
    · simp [M0]
    · intro s hs
      have := h.someScenes
      have e : M0.scenes = M.scenes := by simp [M0, this]
      rw [e] at hs
      exact h.scenes s (List.mem_of_mem_tail hs)
  have vw0 : ∀ v ∈ M.bufferViews, GoodView v := by
    rcases hM with rfl | h
    · simp
    · exact h.views
  have ac0 : ∀ v ∈ M.accessors, GoodAccessor v := by
    rcases hM with rfl | h
    · simp
    · exact h.accessors
  obtain ⟨⟨v1, i1, i1'⟩, ⟨a1, i2, i2'⟩, i3, i4, i5, i6, i7, i8, i9, i10⟩ :=
    pushData_good uintElement M0 34963 mesh.indices (by decide) (by decide) good_uint (by decide)
  obtain ⟨⟨v2, j1, j1'⟩, ⟨a2, j2, j2'⟩, j3, j4, j5, j6, j7, j8, j9, j10⟩ :=
    pushData_good vec3Element i.1 34962 mesh.vertices (by decide) (by decide) good_vec3 (by decide)
  obtain ⟨⟨v3, k1, k1'⟩, ⟨a3, k2, k2'⟩, k3, k4, k5, k6, k7, k8, k9, k10⟩ :=
    pushData_good vec3Element v.1 34962 mesh.normals (by decide) (by decide) good_vec3 (by decide)
  refine ⟨?_, ?_, ?_, ?_, ?_, ?_, ?_, ?_, ?_, ?_, ?_, ?_, ?_⟩
  · obtain ⟨d, hd⟩ := b0
    obtain ⟨d, hd⟩ := i3 d hd
    obtain ⟨d, hd⟩ := j3 d hd
    exact k3 d hd
  · exact mem_snoc (mem_snoc (mem_snoc vw0 i1 i1') j1 j1') k1 k1'
  · exact snoc_ne k1
  · exact mem_snoc (mem_snoc (mem_snoc ac0 i2 i2') j2 j2') k2 k2'
  · exact snoc_ne k2
  · have h0 : ∀ m ∈ M.meshes, ∀ p ∈ m, GoodPrimitive p := by
      rcases hM with rfl | h
      · simp
      · exact h.meshes
    refine mem_snoc (l := M.meshes) h0 rfl fun p hp => ?_
    rw [List.mem_singleton] at hp
    subst hp
    refine ⟨by simp, ?_, ?_, ?_⟩
    · show Ordered [_, _]
      simp only [Ordered, List.pairwise_cons, List.mem_singleton, forall_eq, List.not_mem_nil, false_implies, implies_true,
        List.Pairwise.nil, and_true]
      decide
    · exact le_trans (by decide) (Int.natCast_nonneg _)
    · exact le_trans (by decide) (Int.natCast_nonneg _)
  · exact snoc_ne (l := M.nodes) rfl
  · intro s hs
    have hs : s ∈ (M0.scenes.headD [] ++ [M.nodes.length]) :: M0.scenes.tail := hs
    rcases List.mem_cons.1 hs with rfl | hs
    · simp
    · exact s0 s hs
  · show (M0.scenes.headD [] ++ [M.nodes.length]) :: M0.scenes.tail ≠ []
    simp
  · show (-1 : ℤ) ≤ 0
    decide
  · have h0 : ∀ m ∈ M.materials, Storable m := by
      rcases hM with rfl | h
      · simp
      · exact h.materials
    exact mem_snoc (l := M.materials) h0 rfl hs
  · show GoodImages 0 M.images
    rcases hM with rfl | h
    · exact .nil 0
    · exact h.images
  · show ∀ t ∈ M.textures, _
    rcases hM with rfl | h
    · simp
    · exact h.textures

theorem Storable.setTexture {mat : GltfMaterial} (h : Storable mat) (key : String) (i : ℚ) :
    Storable { mat with values := mapSet mat.values key (TexturedMesh.textureParameter i) } := by
  refine ⟨Or.inr (Or.inl ?_), fun e he => ?_, h.additional, ordered_mapSet h.orderedValues _ _, h.orderedAdditional, h.reserved,
    h.unnamed⟩
  · intro e
    have := get?_mapSet mat.values key (TexturedMesh.textureParameter i) key
    rw [if_pos rfl] at this
    have e : mapSet mat.values key (TexturedMesh.textureParameter i) = [] := e
    rw [e] at this
    cases this
  · rcases mem_mapSet he with rfl | he
    · exact OneKind.object [("index", i)] (by simp) (by simp [Ordered])
    · exact h.values e he

theorem addMaterialTexture_good {M M' : Model} (hM : Good M) {mat mat' : GltfMaterial} (hs : Storable mat) {key : String}
    {img : Mat3b} (hi : SoundImage img) (h : M.addMaterialTexture mat key img = (M', .ok mat')) :
    Good M' ∧ Storable mat' ∧ M'.materials = M.materials := by
  unfold Model.addMaterialTexture at h
  split_ifs at h with h1 h2
  · cases h
    exact ⟨hM, hs, rfl⟩
  · cases h
    refine ⟨⟨hM.buffers, hM.views, hM.someViews, hM.accessors, hM.someAccessors, hM.meshes, hM.someNodes, hM.scenes, hM.someScenes,
      hM.defaultScene, hM.materials, ?_, ?_⟩, hs.setTexture key _, rfl⟩
    · refine hM.images.append ⟨by rw [Nat.zero_add]; rfl, img, rfl, rfl, rfl, rfl, hi, ?_⟩
      simpa [Mat3b.isEmpty] using h1
    · exact mem_snoc (l := M.textures) hM.textures rfl (show (-1 : ℤ) ≤ 0 by decide)
  · cases h

theorem addMesh_good {M M' : Model} (hM : M = {} ∨ Good M) {m : AnyMesh} (ha : Addable m) (hs : Storable (materialOf m))
    (h : M.addMesh (some m) = (M', .ok ())) : Good M' := by
  cases ha with
  | plain m hi =>
    have h : (M.addPrimitiveMesh m, .ok ()) = (M', (.ok () : Except PyErr Unit)) := h
    cases h
    exact addPrimitiveMesh_good hM hs
  | textured m hi hb hr hm =>
    have h1 := addPrimitiveMesh_good hM (mesh := m.toMesh) hs
    have h' : ((M.addTexturedPrimitiveMesh m).1, unguarded (M.addTexturedPrimitiveMesh m).2) = (M', .ok ()) := h
    let M1 := M.addPrimitiveMesh m.toMesh
    let u := M1.pushData vec2Element 34962 m.uvCoords
    let M2 : Model := { u.1 with meshes := u.1.meshes.dropLast ++
      [((u.1.meshes.getLast?.getD []).take 1).map (Model.setTexCoord u.2)] }
    obtain ⟨⟨v1, i1, i1'⟩, ⟨a1, i2, i2'⟩, i3, i4, i5, i6, i7, i8, i9, i10⟩ :=
      pushData_good vec2Element M1 34962 m.uvCoords (by decide) (by decide) good_vec2 (by decide)
    have hM2 : Good M2 := by
      refine ⟨?_, mem_snoc h1.views i1 i1', snoc_ne i1, mem_snoc h1.accessors i2 i2', snoc_ne i2, ?_, h1.someNodes, h1.scenes,
        h1.someScenes, h1.defaultScene, h1.materials, h1.images, h1.textures⟩
      · obtain ⟨d, hd⟩ := h1.buffers
        exact i3 d hd
      · refine mem_snoc (l := M1.meshes.dropLast) (fun x hx => h1.meshes x (List.dropLast_subset _ hx)) rfl fun p hp => ?_
        obtain ⟨q, hq, rfl⟩ := List.mem_map.1 hp
        have hq := List.mem_of_mem_take hq
        have hq : q ∈ (M1.meshes.getLast?.getD []) := hq
        have gq : GoodPrimitive q := by
          cases hl : M1.meshes.getLast? with
          | none => rw [hl] at hq; simp at hq
          | some x =>
            rw [hl] at hq
            exact h1.meshes x (List.mem_of_getLast? hl) q hq
        refine ⟨?_, ordered_mapSet gq.ordered _ _, gq.indices, gq.material⟩
        intro e
        have := get?_mapSet q.attributes "TEXCOORD_0" (u.2 : ℤ) "TEXCOORD_0"
        rw [if_pos rfl] at this
        have e : mapSet q.attributes "TEXCOORD_0" (u.2 : ℤ) = [] := e
        rw [e] at this
        cases this
    have hu : M.addTexturedPrimitiveMesh m = match M2.addMaterialTexture m.material "baseColorTexture" m.baseColor with
        | (M3, .error e) => (M3, .error e)
        | (M3, .ok mat) =>
          match M3.addMaterialTexture mat "metallicRoughnessTexture" m.metallicRoughness with
          | (M4, .error e) => (M4, .error e)
          | (M4, .ok mat) =>
            ({ M4 with
                materials := M4.materials.dropLast ++ [mat]
                samplers := if M4.samplers.isEmpty then [Model.defaultSampler] else M4.samplers }, .ok ()) := rfl
    rw [hu] at h'
    cases h3 : M2.addMaterialTexture m.material "baseColorTexture" m.baseColor with
    | mk M3 r3 =>
      rw [h3] at h'
      cases r3 with
      | error e => cases e <;> simp [unguarded] at h'
      | ok mat3 =>
        dsimp only at h'
        obtain ⟨g3, s3, m3⟩ := addMaterialTexture_good hM2 hs hb h3
        cases h4 : M3.addMaterialTexture mat3 "metallicRoughnessTexture" m.metallicRoughness with
        | mk M4 r4 =>
          rw [h4] at h'
          cases r4 with
          | error e => cases e <;> simp [unguarded] at h'
          | ok mat4 =>
            dsimp only at h'
            obtain ⟨g4, s4, m4⟩ := addMaterialTexture_good g3 s3 hr h4
            cases h'
            exact ⟨g4.buffers, g4.views, g4.someViews, g4.accessors, g4.someAccessors, g4.meshes, g4.someNodes, g4.scenes,
              g4.someScenes, g4.defaultScene,
              mem_snoc (l := M4.materials.dropLast) (fun x hx => g4.materials x (List.dropLast_subset _ hx)) rfl s4,
              g4.images, g4.textures⟩

/-! ### Materials and meshes -/

theorem SameParameter.back {round : ℚ → ℚ} {a b : GltfParameter} (h : SameParameter round a b) : b = { a with
    array := a.array.map round
    num := a.num.map fun e => (e.1, if e.1 = "index" then ((Model.toInt e.2 : ℤ) : ℚ) else round e.2)
    value := a.value.map round } := by
  cases h <;> rfl

theorem SameParameter.trans {round : ℚ → ℚ} (hr : ∀ q, round (round q) = round q) {a b c : GltfParameter}
    (h : SameParameter round a b) (h' : SameParameter round b c) : SameParameter round a c := by
  have e : c = b := by
    rw [h'.back, h.back]
    dsimp only
    simp only [List.map_map, Option.map_map]
    congr 1
    · refine List.map_congr_left fun e _ => ?_
      dsimp only [Function.comp]
      by_cases hk : e.1 = "index"
      · simp only [hk, if_true, toInt_intCast]
      · simp only [hk, if_false, hr]
    · refine List.map_congr_left fun e _ => hr e
    · cases a.value with
      | none => rfl
      | some q => simp [hr]
  rw [e]
  exact h

theorem keys_of_both {R : GltfParameter → GltfParameter → Prop} {a b : Dict String GltfParameter}
    (h : ∀ k, Both R (a.get? k) (b.get? k)) (k : String) : k ∈ b.keys ↔ k ∈ a.keys := by
  rw [← not_iff_not, ← Dict.get?_eq_none_iff, ← Dict.get?_eq_none_iff]
  have := h k
  cases ha : a.get? k <;> cases hb : b.get? k <;> simp [ha, hb, Both] at this ⊢

theorem keys_of_parameterMapsEqual {a b : Dict String GltfParameter} (h : Mesh.parameterMapsEqual a b = true) : a.keys = b.keys := by
  unfold Mesh.parameterMapsEqual at h
  induction a generalizing b with
  | nil => cases b with
    | nil => rfl
    | cons y b => simp at h
  | cons x a ih => cases b with
    | nil => simp at h
    | cons y b =>
      simp only [List.length_cons, Nat.add_right_cancel_iff, List.zip_cons_cons, List.all_cons, Bool.and_eq_true,
        decide_eq_true_eq] at h ih
      have := ih ⟨h.1, h.2.2⟩
      unfold Dict.keys at this ⊢
      rw [List.map_cons, List.map_cons, this, h.2.1.1]

theorem kept_entry {round : ℚ → ℚ} (hr : ∀ q, round (round q) = round q) {a b c : Option GltfParameter}
    (h : b = a ∨ Both (SameParameter round) a b) (h' : Both (SameParameter round) b c) : c = a ∨ Both (SameParameter round) a c := by
  right
  rcases h with rfl | h
  · exact h'
  · cases a <;> cases b <;> cases c <;> simp only [Both] at h h' ⊢
    exact h.trans hr h'

theorem MaterialKept.back {round : ℚ → ℚ} (hr : ∀ q, round (round q) = round q) {except : List String} {a b c : GltfMaterial}
    (h : MaterialKept round except a b) (h' : MaterialBack round b c) : MaterialKept round except a c :=
  ⟨h'.name.trans h.name, fun k => (keys_of_both (fun k => h'.values k (by simp)) k).trans (h.keys k),
    fun k hk => kept_entry hr (h.values k hk) (h'.values k (by simp)),
    fun k hk => kept_entry hr (h.additional k hk) (h'.additional k (by simpa using hk)), by
    rw [h'.entry, h.name]
    split_ifs with hn
    · exact h.entry
    · exact Or.inr ⟨hn, rfl⟩, fun k hk p hp => by
    have hb := h'.values k (by simp)
    cases hq : b.values.get? k with
    | none => simp [hq, hp, Both] at hb
    | some q =>
      obtain ⟨i, rfl⟩ := h.textures k hk q hq
      rw [hq, hp] at hb
      refine ⟨i, ?_⟩
      rw [SameParameter.back hb]
      simp [TexturedMesh.textureParameter, toInt_natCast]⟩

theorem StillMesh.back {round : ℚ → ℚ} (hr : ∀ q, round (round q) = round q) {a b c : AnyMesh}
    (h : StillMesh round a b) (h' : MeshBack round b c) : StillMesh round a c := by
  cases h with
  | plain m m1 h1 h2 h3 h4 =>
    cases h' with
    | plain _ m2 g1 g2 g3 g4 => exact .plain _ _ (g1.trans h1) (g2.trans h2) (g3.trans h3) (h4.back hr g4)
  | textured m m1 h1 h2 h3 h4 h5 h6 h7 =>
    cases h' with
    | textured _ m2 g1 g2 g3 g4 g5 g6 g7 =>
      exact .textured _ _ (g1.trans h1) (g2.trans h2) (g3.trans h3) (g4.trans h4) (g5 ▸ h5) (g6 ▸ h6) (h7.back hr g7)

theorem SameMesh.still {round : ℚ → ℚ} {a b : AnyMesh} (h : SameMesh a b) : StillMesh round a b := by
  cases h with
  | plain m => exact .plain _ _ rfl rfl rfl ⟨rfl, fun _ => Iff.rfl, fun _ _ => Or.inl rfl, fun _ _ => Or.inl rfl, Or.inl rfl,
      fun k hk => by simp at hk⟩
  | textured m m1 h1 h2 h3 h4 h5 h6 h7 =>
    exact .textured _ _ h1 h2 h3 h4 h5 h6 ⟨h7.name, h7.keys, fun k hk => Or.inl (h7.values k hk), fun k _ => Or.inl (by rw [h7.additional]),
      Or.inl (by rw [h7.additional]), h7.textures⟩

theorem forall₂_still {round : ℚ → ℚ} (hr : ∀ q, round (round q) = round q) {l ms ns : List AnyMesh}
    (h : List.Forall₂ (StillMesh round) l ms) (h' : List.Forall₂ (MeshBack round) ms ns) : List.Forall₂ (StillMesh round) l ns := by
  induction h generalizing ns with
  | nil => cases h'; exact .nil
  | cons h1 _ ih =>
    cases h' with
    | cons g1 g2 => exact .cons (h1.back hr g1) (ih g2)

theorem StillMesh.geometry {round : ℚ → ℚ} {a b : AnyMesh} (h : StillMesh round a b) (hg : HasGeometry a) : HasGeometry b := by
  cases h with
  | plain m m1 h1 h2 h3 h4 =>
    unfold HasGeometry geometryOf at hg ⊢
    simp only [Sum.elim_inl, id] at hg ⊢
    rwa [h1, h2, h3]
  | textured m m1 h1 h2 h3 h4 h5 h6 h7 =>
    unfold HasGeometry geometryOf at hg ⊢
    simp only [Sum.elim_inr] at hg ⊢
    rwa [h1, h2, h3]

/-! ### Data -/

theorem readAccessor_empty {α : Type} {c : Codec α} (hc : 0 < c.size) {M : Model} (hM : M.buffers = [[]]) {i : ℤ} {l : List α}
    (h : M.readAccessor c i = .ok l) : l = [] := by
  unfold Model.readAccessor at h
  obtain ⟨a, _, h⟩ := except_bind_ok.1 h
  unfold Model.readVector at h
  split_ifs at h
  split at h
  · cases h
  · split_ifs at h
    rw [hM] at h
    split at h
    · cases h
    · rename_i b hb
      have hb : b = [] := by
        have := List.mem_of_getElem? hb
        simpa using this
      subst hb
      dsimp only at h
      split_ifs at h with hl
      have h0 : a.count = 0 := by
        rcases hl with hl | hl
        · exact hl
        · rw [List.length_nil] at hl
          have : a.count * c.size = 0 := by omega
          rcases Nat.mul_eq_zero.1 this with h | h
          · exact h
          · omega
      rw [h0] at h
      cases h
      rfl

theorem extractPlain_empty {M : Model} (hM : M.buffers = [[]]) {p : Primitive} {m : Mesh F32} (h : extractPlain M p = .ok m) :
    m.indices = [] ∧ m.vertices = [] ∧ m.normals = [] := by
  unfold extractPlain at h
  obtain ⟨a, h1, h⟩ := except_bind_ok.1 h
  obtain ⟨b, h2, h⟩ := except_bind_ok.1 h
  obtain ⟨c, h3, h⟩ := except_bind_ok.1 h
  obtain ⟨d, h4, h⟩ := except_bind_ok.1 h
  obtain ⟨e, h5, h⟩ := except_bind_ok.1 h
  obtain ⟨f, h6, h⟩ := except_bind_ok.1 h
  cases h
  refine ⟨?_, readAccessor_empty (by decide) hM h3, readAccessor_empty (by decide) hM h5⟩
  unfold Model.readIndices at h1
  obtain ⟨x, _, h1⟩ := except_bind_ok.1 h1
  split_ifs at h1
  · exact readAccessor_empty (by decide) hM h1
  · exact readAccessor_empty (by decide) hM h1

theorem extractAny_empty {M : Model} (hM : M.buffers = [[]]) {p : Primitive} {m : AnyMesh} (h : extractAny M p = .ok m) :
    ¬ HasGeometry m := by
  unfold HasGeometry geometryOf
  unfold extractAny at h
  split_ifs at h
  · obtain ⟨a, h1, rfl⟩ := except_map_ok.1 h
    unfold extractTextured at h1
    obtain ⟨x, h2, h1⟩ := except_bind_ok.1 h1
    obtain ⟨_, _, h1⟩ := except_bind_ok.1 h1
    obtain ⟨_, _, h1⟩ := except_bind_ok.1 h1
    obtain ⟨_, _, h1⟩ := except_bind_ok.1 h1
    obtain ⟨_, _, h1⟩ := except_bind_ok.1 h1
    obtain ⟨_, _, h1⟩ := except_bind_ok.1 h1
    cases h1
    obtain ⟨g1, g2, g3⟩ := extractPlain_empty hM h2
    simp [g1, g2, g3]
  · obtain ⟨a, h1, rfl⟩ := except_map_ok.1 h
    obtain ⟨g1, g2, g3⟩ := extractPlain_empty hM h1
    simp [g1, g2, g3]

/-- A model with geometry has data. -/
theorem data_of_geometry {round : ℚ → ℚ} {M : Model} {d : List UInt8} (hd : M.buffers = [d]) {l ms : List AnyMesh}
    (hm : M.primitiveMeshes = .ok ms) (hs : List.Forall₂ (StillMesh round) l ms) (hg : ∃ m ∈ l, HasGeometry m) : d ≠ [] := by
  rintro rfl
  rw [primitiveMeshes_eq, mapM_ok_iff] at hm
  obtain ⟨m, hml, hgm⟩ := hg
  have h1 : ∀ {ps : List Primitive} {ms : List AnyMesh}, List.Forall₂ (fun p m => extractAny M p = .ok m) ps ms →
      ∀ m ∈ ms, ¬ HasGeometry m := by
    intro ps ms h
    induction h with
    | nil => simp
    | cons h1 _ ih =>
      intro m hm
      rcases List.mem_cons.1 hm with rfl | hm
      · exact extractAny_empty hd h1
      · exact ih m hm
  have h2 : ∀ {l ms : List AnyMesh}, List.Forall₂ (StillMesh round) l ms → ∀ m ∈ l, HasGeometry m → ∃ m' ∈ ms, HasGeometry m' := by
    intro l ms h
    induction h with
    | nil => simp
    | @cons a b _ _ h1 _ ih =>
      intro m hm hg
      rcases List.mem_cons.1 hm with rfl | hm
      · exact ⟨b, by simp, h1.geometry hg⟩
      · obtain ⟨m', h3, h4⟩ := ih m hm hg
        exact ⟨m', by simp [h3], h4⟩
  obtain ⟨m', h3, h4⟩ := h2 hs m hml hgm
  exact h1 hm m' h3 h4

/-! ### The new model -/

theorem Faithful.files {W : Writer} {L : Loader} {f : Number → Option ℚ} {round : ℚ → ℚ} (h : Faithful W L f round) (files : Files) :
    Faithful W { L with file := files } f round :=
  ⟨h.finite, h.again, h.loads, h.parse, h.parsePython, h.dumpLength, h.dumpsLength, h.png⟩

/-- The document of the new model. -/
def newDocument : Fields Number :=
  [("accessors", .null), ("asset", .obj [("generator", .str "fbsource/fbcode/sumo/threedee/gltf.pyx"), ("version", .str "2.0")]),
    ("bufferViews", .null), ("buffers", .null)]

theorem writeDocument_new (junk : Bool) (bin : String) : writeDocument junk bin {} = newDocument := by
  rfl

theorem saveGltf_new (W : Writer) (dirs : List String) (old : String → Bool) {root : String} (hr : RootName root) :
    saveGltf W dirs old {} root = ({}, [(root ++ ".gltf", W.dump (.obj newDocument) ++ [10])], .ok ()) := by
  have hw : writeGltfScene W dirs {} root = .ok ({}, [(root ++ ".gltf", W.dump (.obj newDocument) ++ [10])]) := by
    unfold writeGltfScene
    simp only [updateImages, bind, Except.bind, pure, Except.pure]
    rw [hr.writeFile (s := ".gltf") (by decide), writeDocument_new]
    rfl
  unfold saveGltf
  rw [hw]
  dsimp only
  rw [if_neg (by simp)]
  rfl

theorem newDocument_wf : (Json.obj newDocument).Wf := by
  refine wf_obj.2 ⟨?_, fun e he => ?_⟩
  · unfold Ordered newDocument
    simp only [List.pairwise_cons, List.mem_cons, List.not_mem_nil, or_false, false_implies, implies_true, List.Pairwise.nil,
      and_true, forall_eq_or_imp, forall_eq]
    decide
  · simp only [newDocument, List.mem_cons, List.not_mem_nil, or_false] at he
    rcases he with rfl | rfl | rfl | rfl
    · trivial
    · refine wf_obj.2 ⟨?_, fun e he => ?_⟩
      · unfold Ordered
        simp only [List.pairwise_cons, List.mem_singleton, List.not_mem_nil, false_implies, implies_true, List.Pairwise.nil,
          and_true, forall_eq]
        decide
      · simp only [List.mem_cons, List.not_mem_nil, or_false] at he
        rcases he with rfl | rfl <;> trivial
    · trivial
    · trivial

theorem loadGltf_new {W : Writer} {L : Loader} {f : Number → Option ℚ} {round : ℚ → ℚ} (hF : Faithful W L f round) :
    loadGltf L (some (W.dump (.obj newDocument) ++ [10])) = .error .ioError := by
  have hl : loadDocument L none (W.dump (.obj newDocument) ++ [10]) = ({}, .error .ioError) := by
    unfold loadDocument
    split_ifs
    · rfl
    · rw [hF.parse _ newDocument_wf, print_obj]
      dsimp only
      have : isArray (Json.printFields f newDocument) "scenes" = false := by
        unfold isArray
        rw [get?_printFields]
        rfl
      rw [this]
      rfl
  unfold loadGltf
  cases hr : readWhole (some (W.dump (.obj newDocument) ++ [10])) with
  | none => rfl
  | some t =>
    have : t = W.dump (.obj newDocument) ++ [10] := by
      unfold readWhole at hr
      dsimp only at hr
      split_ifs at hr
      exact (Option.some.inj hr).symm
    subst this
    dsimp only
    rw [hl]
    rfl

theorem saveAsGlb_new {W : Writer} {L : Loader} {f : Number → Option ℚ} {round : ℚ → ℚ} (hF : Faithful W L f round)
    {os : GlbSave.Os} {temp : GlbSave.Dir} {p : GlbSave.GlbPath} (hf : GlbSave.Fresh os temp) {root : String}
    (hr : RootName root) (hn : GlbSave.GlbName p.name root) : (saveAsGlb W {} os temp p).2.2 = .error .typeError := by
  have hs := GlbSave.splitext_glb hn
  have hw : (exporter W {}).write root = ([(root ++ ".gltf", W.dump (.obj newDocument) ++ [10])], .ok ()) := by
    show (saveGltf W [] (fun _ => false) {} root).2 = _
    rw [saveGltf_new W _ _ hr]
  have hc : (exporter W {}).convert root (GlbSave.contents [(root ++ ".gltf", W.dump (.obj newDocument) ++ [10])]) =
      .error .typeError := by
    show convertGltf W root _ = _
    unfold convertGltf
    rw [contents_mem (n := root ++ ".gltf") (by simp) List.mem_cons_self]
    dsimp only
    rw [hF.loads _ newDocument_wf, print_obj]
    dsimp only
    have h1 : Dict.get (Json.printFields f newDocument) "buffers" = .ok .null := by
      unfold Dict.get
      rw [get?_printFields]
      rfl
    unfold convertDocument
    simp only [Json.item, h1, Json.items, bind, Except.bind]
  unfold saveAsGlb GlbSave.saveAsGlb
  dsimp only
  rw [hs]
  dsimp only
  rw [if_neg (by simp)]
  unfold GlbSave.tryBody
  rw [hw]
  dsimp only
  rw [GlbSave.writeAll_contents temp _ ((os.mkdtemp temp).chdir temp) (fun n => hf.2 temp n (List.prefix_refl _)), hc]

/-! ### Histories -/

/-- What holds along histories. -/
def Sane (round : ℚ → ℚ) (M : Model) (l : List AnyMesh) : Prop :=
  (M = {} ∧ l = [] ∨ Good M) ∧ ∃ ms, M.primitiveMeshes = .ok ms ∧ List.Forall₂ (StillMesh round) l ms

theorem saveGltf_model {W : Writer} {L : Loader} {f : Number → Option ℚ} {round : ℚ → ℚ} (hF : Faithful W L f round) {M : Model}
    (hM : M = {} ∨ Good M) {root : String} (hr : RootName root) (dirs : List String) (old : String → Bool) :
    (saveGltf W dirs old M root).1 = M := by
  rcases hM with rfl | hM
  · rw [saveGltf_new W _ _ hr]
  · obtain ⟨d, hd⟩ := hM.buffers
    obtain ⟨pics, _, h⟩ := saveGltf_good hF hd hM.images hr
    rw [h]

theorem Sane.kept {W : Writer} {L : Loader} {f : Number → Option ℚ} {round : ℚ → ℚ} (hF : Faithful W L f round)
    {M N : Model} {l : List AnyMesh} (h : Sane round M l) (hM : Good M) (hk : Kept round M N) : Sane round N l := by
  obtain ⟨_, ms, h1, h2⟩ := h
  obtain ⟨ns, h3, h4⟩ := hk.primitiveMeshes hM h1
  exact ⟨Or.inr (hk.good hM), ns, h3, forall₂_still hF.again h2 h4⟩

/-- The files of a model that was saved. -/
theorem saveAsGltf_good {W : Writer} {L : Loader} {f : Number → Option ℚ} {round : ℚ → ℚ} (hF : Faithful W L f round) {M : Model}
    (hM : Good M) {d : List UInt8} (hd : M.buffers = [d]) {root : String} (hr : RootName root) (fo : Folder) :
    ∃ pics fo', List.Forall₂ (Picture L) M.images pics ∧ saveAsGltf W (some fo) M root = (M, some fo', .ok ()) ∧
      (∀ w ∈ filesOf W M root d pics, fo'.file w.1 = some w.2) ∧
      ∀ n, n ∉ (filesOf W M root d pics).map Prod.fst → fo'.file n = fo.file n := by
  obtain ⟨pics, h1, h2⟩ := saveGltf_good hF hd hM.images hr
  refine ⟨pics, ⟨lastWritten (filesOf W M root d pics) fo.file, fo.dirs⟩, h1, ?_, fun w hw => ?_, fun n hn => lastWritten_other hn⟩
  · unfold saveAsGltf
    dsimp only
    rw [h2]
  · exact lastWritten_mem (filesOf_nodup hM.images h1 W root d) _ hw

theorem glbName_of_ok {W : Writer} {M M' : Model} {os os' : GlbSave.Os} {temp : GlbSave.Dir} {p : GlbSave.GlbPath}
    (h : saveAsGlb W M os temp p = (M', os', .ok ())) : ∃ root, GlbSave.GlbName p.name root := by
  by_cases hx : (GlbSave.splitext p.name).2 = ".glb"
  · exact GlbSave.splitext_only hx
  · exfalso
    have h2 : (saveAsGlb W M os temp p).2.2 = .ok () := by rw [h]
    unfold saveAsGlb GlbSave.saveAsGlb at h2
    dsimp only at h2
    rw [if_pos hx] at h2
    cases h2

theorem sane {W : Writer} {L : Loader} {f : Number → Option ℚ} {round : ℚ → ℚ} (hF : Faithful W L f round) {M : Model}
    {l : List AnyMesh} (h : History W L M l) : Sane round M l := by
  induction h with
  | new => exact ⟨Or.inl ⟨rfl, rfl⟩, [], rfl, .nil⟩
  | @add M M' l m _ ha hs hm ih =>
    obtain ⟨hM, ms, h1, h2⟩ := ih
    obtain ⟨M1, p, m', g1, g2, g3, g4, g5⟩ := addMesh_spec M ha
    rw [hm] at g1
    cases g1
    refine ⟨Or.inr (addMesh_good (hM.imp (fun h => h.1) id) ha hs hm), ms ++ [m'], primitiveMeshes_snoc g2 g3 h1 g4, ?_⟩
    exact List.rel_append h2 (.cons g5.still .nil)
  | @saveGltf M M' l fo fo' root _ hr hs ih =>
    have : M' = M := by
      have h1 := saveGltf_model hF (ih.1.imp (fun h => h.1) id) hr fo.dirs (fun n => (fo.file n).isSome)
      unfold saveAsGltf at hs
      dsimp only at hs
      rw [Prod.mk.injEq] at hs
      exact hs.1.symm.trans h1
    rw [this]
    exact ih
  | @saveGlb M M' l os os' temp p _ hr hs ih =>
    have : M' = M := by
      obtain ⟨root, hn⟩ := glbName_of_ok hs
      have h1 := saveGltf_model hF (ih.1.imp (fun h => h.1) id) (hr.root hn) [] (fun _ => false)
      have h2 : (saveAsGlb W M os temp p).1 = M' := by rw [hs]
      unfold saveAsGlb at h2
      dsimp only at h2
      rw [GlbSave.splitext_glb hn, if_pos rfl, h1] at h2
      exact h2.symm
    rw [this]
    exact ih
  | @loadGltf M M' N l fo fo' root files _ hr hs hsmall hsee hl ih =>
    rcases ih.1 with ⟨rfl, rfl⟩ | hM
    · exfalso
      unfold saveAsGltf at hs
      dsimp only at hs
      rw [saveGltf_new W _ _ hr] at hs
      dsimp only at hs
      rw [Prod.mk.injEq, Prod.mk.injEq, Option.some.injEq] at hs
      rw [← hs.2.1] at hl
      have e : lastWritten [(root ++ ".gltf", W.dump (.obj newDocument) ++ [10])] fo.file (root ++ ".gltf") =
          some (W.dump (.obj newDocument) ++ [10]) := lastWritten_mem (by simp) _ List.mem_cons_self
      dsimp only at hl
      rw [e, loadGltf_new (hF.files files)] at hl
      cases hl
    · obtain ⟨d, hd⟩ := hM.buffers
      obtain ⟨pics, fo1, p1, p2, p3, p4⟩ := saveAsGltf_good hF hM hd hr fo
      rw [hs] at p2
      cases p2
      have ht := p3 (root ++ ".gltf", _) (List.mem_cons_of_mem _ List.mem_cons_self)
      have hb := p3 (root ++ ".bin", d) List.mem_cons_self
      by_cases hne : d = []
      · exfalso
        subst hne
        rw [ht] at hl
        rw [loadGltf_empty (hF.files files) hM hd hr (hsee _ _ hb) rfl] at hl
        cases hl
      · obtain ⟨N', n1, n2⟩ := loadGltf_good (hF.files files) hM hd hr p1
          (fun w hw => ⟨hsee _ _ (p3 w hw), hsmall _ _ (p3 w hw)⟩) hne
        have hsee' : files (root ++ ".gltf") = fo'.file (root ++ ".gltf") := by rw [ht]; exact hsee _ _ ht
        have n1 : Gltf.loadGltf { L with file := files } (files (root ++ ".gltf")) = .ok N' := n1
        rw [hsee', hl] at n1
        cases n1
        exact ih.kept hF hM n2
  | @loadGlb M M' N l os os' temp p files _ hr hf hp hs hl ih =>
    obtain ⟨root, hn⟩ := glbName_of_ok hs
    rcases ih.1 with ⟨rfl, rfl⟩ | hM
    · exfalso
      have := saveAsGlb_new hF hf (hr.root hn) hn
      rw [hs] at this
      cases this
    · obtain ⟨v, enc, d, pics, hE⟩ := exported (hF.files files) hM.writable (hr.root hn)
      obtain ⟨s1, s2, s3, s4⟩ := saveAsGlb_exported hE hf hp hn
      rw [hs] at s1 s2 s3 s4
      cases hd : os.isDir p.dirs with
      | false =>
        exfalso
        rcases s4 hd with h | h
        · cases h
        · rw [h] at hl
          cases hl
      | true =>
        cases hx : exportString (W.dumps (.obj v)) enc with
        | error e => cases s3 hd e hx
        | ok b =>
          obtain ⟨b1, b2, b3, b4, b5⟩ := loadGlb_export (hF.files files) hM hE hx
          have hb := (s2 hd b hx).2
          rw [hb] at hl
          by_cases h31 : b.length < 2 ^ 31
          · by_cases hne : pad4 d ++ bodyOf pics = []
            · rw [b5 hne h31] at hl
              cases hl
            · obtain ⟨N', n1, n2⟩ := b3 h31 hne
              rw [hl] at n1
              cases n1
              exact ih.kept hF hM n2
          · rw [b4 (by omega)] at hl
            cases hl

end Gltf
end Sumo
