import Verif.Lemmas.GltfUpdate
import Verif.Lemmas.GltfRange

/-! # Properties of glTF models -/

namespace Sumo
namespace Gltf

/-! ### C68: meshes come back -/

/-- **C68** (partial: for meshes whose material refers to exactly the textures they have.) Whatever meshes a model held, after
adding any meshes it holds the old ones followed by the new ones, and extraction returns them by number; a number beyond the
last is refused. -/
theorem C68_partial {M M' : Model} {l0 : List AnyMesh} (hM : M.primitiveMeshes = .ok l0) {ms : List AnyMesh}
    (hms : ∀ m ∈ ms, Addable m) (hA : Adds M ms M') :
    ∃ l : List AnyMesh, M'.primitiveMeshes = .ok (l0 ++ l) ∧ List.Forall₂ SameMesh ms l ∧
      M'.numPrimitiveMeshes = l0.length + ms.length ∧
      (∀ (i : ℕ) (m : AnyMesh), (l0 ++ l)[i]? = some m → M'.extractMesh i = .ok m) ∧
      (∀ i : ℕ, l0.length + ms.length ≤ i → M'.extractMesh i = .error .indexError ∧
        M'.extractPrimitiveMesh i = .error .runtimeError) := by
  have key : ∃ l : List AnyMesh, M'.primitiveMeshes = .ok (l0 ++ l) ∧ List.Forall₂ SameMesh ms l := by
    induction hA generalizing l0 with
    | nil M => exact ⟨[], by simpa using hM, .nil⟩
    | @cons M M1 M2 m ms h1 h2 ih =>
      obtain ⟨N, p, m', a1, a2, a3, a4, a5⟩ := addMesh_spec M (hms m (by simp))
      rw [h1] at a1
      simp only [Prod.mk.injEq, and_true] at a1
      subst a1
      obtain ⟨l, b1, b2⟩ := ih (primitiveMeshes_snoc a2 a3 hM a4) (fun x hx => hms x (by simp [hx]))
      exact ⟨m' :: l, by simpa using b1, .cons a5 b2⟩
  obtain ⟨l, h1, h2⟩ := key
  have hlen : M'.meshes.flatten.length = l0.length + ms.length := by
    have := h1
    rw [primitiveMeshes_eq] at this
    have := mapM_ok_length this
    rw [List.length_append, ← h2.length_eq] at this
    omega
  refine ⟨l, h1, h2, by rw [numPrimitiveMeshes_eq, hlen], fun i m hm => ?_, fun i hi => ⟨?_, ?_⟩⟩
  · unfold Model.extractMesh
    rw [h1]
    simp only [bind, Except.bind, hm]
    rfl
  · unfold Model.extractMesh
    rw [h1]
    have : (l0 ++ l)[i]? = none := by
      rw [List.getElem?_eq_none_iff, List.length_append, ← h2.length_eq]; exact hi
    simp only [bind, Except.bind, this]
  · unfold Model.extractPrimitiveMesh Model.getPrimitiveMesh
    rw [List.getElem?_eq_none_iff.2 (by rw [hlen]; exact hi)]
    rfl

/-- Such meshes can be added to any model, one after the other, without an exception. -/
theorem C68_accepts {ms : List AnyMesh} (hms : ∀ m ∈ ms, Addable m) (M : Model) : ∃ M', Adds M ms M' := by
  induction ms generalizing M with
  | nil => exact ⟨M, .nil M⟩
  | cons m ms ih =>
    obtain ⟨N, p, m', a1, _⟩ := addMesh_spec M (hms m (by simp))
    obtain ⟨M', h⟩ := ih (fun x hx => hms x (by simp [hx])) N
    exact ⟨M', .cons a1 h⟩

/-- Meshes as the constructors make them qualify: all plain ones, and the textured ones with a base colour texture. -/
theorem C68_constructed {i : List ℕ} {v n : List (Vec3 F32)} (hi : ∀ x ∈ i, x < 2 ^ 32) :
    (∀ m, Mesh.create i v n = .ok m → Addable (.inl m)) ∧
    (∀ m uv b r, TexturedMesh.create Mat3b.isEmpty i v n uv b r = .ok m → SoundImage b → SoundImage r →
      b.rows * b.cols ≠ 0 → Addable (.inr m)) := by
  constructor
  · intro m h
    unfold Mesh.create at h
    split_ifs at h
    simp only [Except.ok.injEq] at h
    subst h
    exact .plain _ hi
  · intro m uv b r h hb hr hn
    unfold TexturedMesh.create at h
    split_ifs at h
    simp only [Except.ok.injEq] at h
    subst h
    refine .textured _ hi hb hr ⟨?_, ?_⟩
    · show "baseColorTexture" ∈ Dict.keys (TexturedMesh.defaultMaterial (!r.isEmpty)).values ↔ b.rows * b.cols ≠ 0
      unfold TexturedMesh.defaultMaterial
      split_ifs <;> simp [Dict.keys] <;> simpa using hn
    · show "metallicRoughnessTexture" ∈ Dict.keys (TexturedMesh.defaultMaterial (!r.isEmpty)).values ↔ r.rows * r.cols ≠ 0
      unfold TexturedMesh.defaultMaterial Mat3b.isEmpty
      split_ifs with h' <;> simp [Dict.keys] <;> simpa using h'

/-- `extract_textured_primitive_mesh` returns a mesh exactly if `extract_primitive_mesh` returns that textured mesh, and refuses
plain meshes with an `AssertionError`. -/
theorem C68_textured (M : Model) (i : ℕ) :
    (∀ t, M.extractTexturedMesh i = .ok t ↔ M.extractMesh i = .ok (.inr t)) ∧
    (∀ m, M.extractMesh i = .ok (.inl m) → M.extractTexturedMesh i = .error .assertionError) := by
  unfold Model.extractTexturedMesh
  cases h : M.extractMesh i with
  | error e => simp [bind, Except.bind]
  | ok x => cases x <;> simp [bind, Except.bind, pure, Except.pure]

/-- A vertex. -/
def exV : Vec3 F32 := ⟨⟨0x3F800000⟩, ⟨0⟩, ⟨0xC0000000⟩⟩

/-- A plain mesh. -/
def exPlain : Mesh F32 := ⟨[0, 1, 2], [exV, exV, exV], [exV, exV, exV], ⟨"wood", [], []⟩⟩

/-- A picture with one pixel. -/
def exPic : Mat3b := ⟨1, 1, [10, 20, 30]⟩

/-- Another. -/
def exPic2 : Mat3b := ⟨1, 1, [40, 50, 60]⟩

/-- A textured mesh with both textures. -/
def exTextured : TexturedMesh F32 Mat3b :=
  ⟨⟨[0, 0, 0], [exV], [exV], TexturedMesh.defaultMaterial true⟩, [(⟨0⟩, ⟨0⟩)], exPic, exPic2⟩

/-- A textured mesh without base colour texture, as its constructor makes it. -/
def exBare : TexturedMesh F32 Mat3b :=
  ⟨⟨[0, 0, 0], [exV], [exV], TexturedMesh.defaultMaterial false⟩, [(⟨0⟩, ⟨0⟩)], .none, .none⟩

example : ∀ m ∈ ([.inl exPlain, .inr exTextured, .inr exTextured] : List AnyMesh), Addable m := by
  intro m hm
  have ht : Addable (.inr exTextured) := .textured _ (by unfold Indices32; decide) rfl rfl (by unfold MaterialMatches; decide)
  simp only [List.mem_cons, List.not_mem_nil, or_false] at hm
  rcases hm with rfl | rfl | rfl
  · exact .plain _ (by unfold Indices32; decide)
  · exact ht
  · exact ht

example : ({} : Model).primitiveMeshes = .ok [] := rfl

example : TexturedMesh.create Mat3b.isEmpty [0, 0, 0] [exV] [exV] [(⟨0⟩, ⟨0⟩)] exPic exPic2 = .ok exTextured := rfl

/-- **C68** is false of the code for textured meshes without base colour texture, as the constructor makes them: alone in a
model, extraction raises a `ValueError`; behind another textured mesh, they come back with that one's texture. -/
theorem C68_false :
    TexturedMesh.create Mat3b.isEmpty [0, 0, 0] [exV] [exV] [(⟨0⟩, ⟨0⟩)] .none .none = .ok exBare ∧
    (∃ M, Adds {} [.inr exBare] M ∧ M.extractMesh 0 = .error .valueError) ∧
    (∃ M m, Adds {} [.inr exTextured, .inr exBare] M ∧ M.extractTexturedMesh 1 = .ok m ∧ m.baseColor = exTextured.baseColor ∧
      exBare.baseColor.rows = 0) :=
  ⟨rfl, ⟨_, .cons rfl (.nil _), rfl⟩, ⟨_, _, .cons rfl (.cons rfl (.nil _)), rfl, rfl, rfl⟩⟩

/-! ### C69: bounds -/

/-- The accessors made by adding a mesh: indices, vertices and normals. -/
theorem addPrimitiveMesh_accessors (M : Model) (mesh : Mesh F32) :
    ∃ ai av an, (M.addPrimitiveMesh mesh).accessors = M.accessors ++ [ai, av, an] ∧
      (ai.minValues, ai.maxValues) = uintElement.bounds mesh.indices ∧
      (av.minValues, av.maxValues) = vec3Element.bounds mesh.vertices ∧
      (an.minValues, an.maxValues) = vec3Element.bounds mesh.normals ∧
      ai.count = mesh.indices.length ∧ av.count = mesh.vertices.length ∧ an.count = mesh.normals.length :=
  ⟨_, _, _, by
    simp only [Model.addPrimitiveMesh, Model.pushData, Model.addAccessor, Model.addBufferView, Model.addToBuffer,
      List.append_assoc, List.cons_append, List.nil_append]
    rfl, rfl, rfl, rfl, rfl, rfl, rfl⟩

theorem vec3_ranges {a : Accessor} {l : List (Vec3 F32)} (ha : (a.minValues, a.maxValues) = vec3Element.bounds l)
    (hne : l ≠ []) (h : ∀ v ∈ l, Moderate v.x ∧ Moderate v.y ∧ Moderate v.z) : HasRanges a (coordinates l) := by
  simp only [vec3Element, Prod.mk.injEq] at ha
  obtain ⟨h1, h2⟩ := ha
  have key : ∀ g : Vec3 F32 → F32, (∀ v ∈ l, Moderate (g v)) →
      IsRange (l.map fun v => .float (g v)) (.float (minOf (l.map g))) (.float (maxOf (l.map g))) := by
    intro g hg
    have := float_range (l.map g) (by simpa using hne) (by
      intro x hx
      obtain ⟨v, hv, rfl⟩ := List.mem_map.1 hx
      exact hg v hv)
    rwa [List.map_map] at this
  refine ⟨by rw [h1]; rfl, by rw [h2]; rfl, ?_⟩
  rw [h1, h2]
  intro i c lo hi hc hlo hhi
  unfold coordinates at hc
  match i with
  | 0 =>
    simp only [List.getElem?_cons_zero, Option.some.injEq] at hc hlo hhi
    subst hc hlo hhi
    exact key _ fun v hv => (h v hv).1
  | 1 =>
    simp only [List.getElem?_cons_succ, List.getElem?_cons_zero, Option.some.injEq] at hc hlo hhi
    subst hc hlo hhi
    exact key _ fun v hv => (h v hv).2.1
  | 2 =>
    simp only [List.getElem?_cons_succ, List.getElem?_cons_zero, Option.some.injEq] at hc hlo hhi
    subst hc hlo hhi
    exact key _ fun v hv => (h v hv).2.2
  | (k + 3) => simp at hc

/-- **C69** (partial: for non-empty data, indices below 2³¹ and finite coordinates between -2³¹ and 2³¹.) Adding a mesh adds
three accessors, for indices, vertices and normals, whose stored minimum and maximum are the least and the greatest of the
indices, and of the coordinates of vertices and normals, component by component. -/
theorem C69_partial (M : Model) (mesh : Mesh F32)
    (hi : mesh.indices ≠ [] ∧ ∀ i ∈ mesh.indices, i < 2 ^ 31)
    (hv : mesh.vertices ≠ [] ∧ ∀ v ∈ mesh.vertices, Moderate v.x ∧ Moderate v.y ∧ Moderate v.z)
    (hn : mesh.normals ≠ [] ∧ ∀ v ∈ mesh.normals, Moderate v.x ∧ Moderate v.y ∧ Moderate v.z) :
    ∃ ai av an, (M.addPrimitiveMesh mesh).accessors = M.accessors ++ [ai, av, an] ∧
      HasRanges ai [mesh.indices.map .uint] ∧ HasRanges av (coordinates mesh.vertices) ∧
      HasRanges an (coordinates mesh.normals) := by
  obtain ⟨ai, av, an, h1, h2, h3, h4, _⟩ := addPrimitiveMesh_accessors M mesh
  refine ⟨ai, av, an, h1, ?_, vec3_ranges h3 hv.1 hv.2, vec3_ranges h4 hn.1 hn.2⟩
  simp only [uintElement, Prod.mk.injEq] at h2
  refine ⟨by rw [h2.1]; rfl, by rw [h2.2]; rfl, ?_⟩
  rw [h2.1, h2.2]
  intro i c lo hi' hc hlo hhi
  match i with
  | 0 =>
    simp only [List.getElem?_cons_zero, Option.some.injEq] at hc hlo hhi
    subst hc hlo hhi
    exact uint_range mesh.indices hi.1 hi.2
  | (k + 1) => simp at hc

/-- **C69** (the texture coordinates of a textured mesh, the fourth accessor.) -/
theorem C69_uv_partial (M M' : Model) (mesh : TexturedMesh F32 Mat3b) (h : M.addTexturedPrimitiveMesh mesh = (M', .ok ()))
    (hu : mesh.uvCoords ≠ [] ∧ ∀ v ∈ mesh.uvCoords, Moderate v.1 ∧ Moderate v.2) :
    ∃ ai av an au, M'.accessors = M.accessors ++ [ai, av, an, au] ∧
      HasRanges au [mesh.uvCoords.map (.float ·.1), mesh.uvCoords.map (.float ·.2)] := by
  obtain ⟨ai, av, an, h1, _⟩ := addPrimitiveMesh_accessors M mesh.toMesh
  have hacc : M'.accessors =
      ((M.addPrimitiveMesh mesh.toMesh).pushData vec2Element 34962 mesh.uvCoords).1.accessors := by
    have hadd : ∀ (N : Model) (mat : GltfMaterial) (k : String) (img : Mat3b),
        (N.addMaterialTexture mat k img).1.accessors = N.accessors := by
      intro N mat k img
      unfold Model.addMaterialTexture
      split_ifs <;> rfl
    have hadd' : ∀ (N N' : Model) (mat : GltfMaterial) (k : String) (img : Mat3b) (r : Except PyErr GltfMaterial),
        N.addMaterialTexture mat k img = (N', r) → N'.accessors = N.accessors := by
      intro N N' mat k img r h
      have := hadd N mat k img
      rwa [h] at this
    unfold Model.addTexturedPrimitiveMesh at h
    dsimp only at h
    split at h
    · simp at h
    · rename_i M3 mat3 h3
      split at h
      · simp at h
      · rename_i M4 mat4 h4
        simp only [Prod.mk.injEq, and_true] at h
        subst h
        have e3 := hadd' _ _ _ _ _ _ h3
        exact (hadd' _ _ _ _ _ _ h4).trans e3
  let au : Accessor := ⟨(M.addPrimitiveMesh mesh.toMesh).bufferViews.length, 0, mesh.uvCoords.length, 5126, 2,
    (vec2Element.bounds mesh.uvCoords).1, (vec2Element.bounds mesh.uvCoords).2⟩
  refine ⟨ai, av, an, au, ?_, rfl, rfl, ?_⟩
  · rw [hacc]
    show (M.addPrimitiveMesh mesh.toMesh).accessors ++ [_] = _
    rw [h1, List.append_assoc]
    rfl
  · have key : ∀ g : F32 × F32 → F32, (∀ v ∈ mesh.uvCoords, Moderate (g v)) →
        IsRange (mesh.uvCoords.map fun v => .float (g v)) (.float (minOf (mesh.uvCoords.map g)))
          (.float (maxOf (mesh.uvCoords.map g))) := by
      intro g hg
      have := float_range (mesh.uvCoords.map g) (by simpa using hu.1) (by
        intro x hx
        obtain ⟨v, hv, rfl⟩ := List.mem_map.1 hx
        exact hg v hv)
      rwa [List.map_map] at this
    intro i c lo hi hc hlo hhi
    match i with
    | 0 =>
      simp only [au, vec2Element, List.getElem?_cons_zero, Option.some.injEq] at hc hlo hhi
      subst hc hlo hhi
      exact key _ fun v hv => (hu.2 v hv).1
    | 1 =>
      simp only [au, vec2Element, List.getElem?_cons_succ, List.getElem?_cons_zero, Option.some.injEq] at hc hlo hhi
      subst hc hlo hhi
      exact key _ fun v hv => (hu.2 v hv).2
    | (k + 2) => simp at hc

theorem exV_moderate : Moderate exV.x ∧ Moderate exV.y ∧ Moderate exV.z := by
  refine ⟨⟨1, ?_, by norm_num, by norm_num⟩, ⟨0, ?_, by norm_num, by norm_num⟩, ⟨-2, ?_, by norm_num, by norm_num⟩⟩ <;>
    decide +kernel

example : (exPlain.indices ≠ [] ∧ ∀ i ∈ exPlain.indices, i < 2 ^ 31) ∧
    (exPlain.vertices ≠ [] ∧ ∀ v ∈ exPlain.vertices, Moderate v.x ∧ Moderate v.y ∧ Moderate v.z) ∧
    (exPlain.normals ≠ [] ∧ ∀ v ∈ exPlain.normals, Moderate v.x ∧ Moderate v.y ∧ Moderate v.z) := by
  have h : ∀ v ∈ [exV, exV, exV], Moderate v.x ∧ Moderate v.y ∧ Moderate v.z := by
    intro v hv
    simp only [List.mem_cons, List.not_mem_nil, or_false, or_self] at hv
    rw [hv]; exact exV_moderate
  exact ⟨⟨by decide, by decide⟩, ⟨by simp [exPlain], h⟩, ⟨by simp [exPlain], h⟩⟩

/-- **C69** is false of the code beyond those limits: for the single vertex (2³², 2³², 2³²) the stored minimum is 2³¹; for the
single index 3000000000 it is 2147483647; for no indices at all the minimum exceeds the maximum. -/
theorem C69_false :
    (∃ x : F32, x.value = some (2 ^ 32) ∧ (vec3Element.bounds [⟨x, x, x⟩]).1 = [.float .intMax, .float .intMax, .float .intMax] ∧
      F32.intMax.value = some (2 ^ 31)) ∧
    (uintElement.bounds [3000000000]).1 = [.uint 2147483647] ∧
    uintElement.bounds [] = ([.uint 2147483647], [.uint 0]) :=
  ⟨⟨⟨0x4F800000⟩, by decide +kernel, by decide +kernel, F32.value_intMax⟩, rfl, rfl⟩

/-! ### C97: updating materials -/

/-- **C97** (partial: colours are applied if no component is 0.) After `update_materials` the model has the same meshes with the
same geometry.  Meshes without an entry, or with the entry `None`, keep their material; the others have a material that
differs from the old one at most in its name, and in colour and texture as asked for: the colour is the new one if no component
is 0, and the old one if all are; the texture is the picture in the file if a URI is given, and the old one if not. -/
theorem C97_partial {fs : ImageFiles} {M M' : Model} {dir : String} {us : List (Option Model.MaterialUpdate)}
    (h : M.updateMaterials fs dir us = (M', .ok ())) :
    M'.numPrimitiveMeshes = M.numPrimitiveMeshes ∧
    ∀ (i : ℕ) (m : Mesh F32), M.extractPrimitiveMesh i = .ok m →
      ∃ m', M'.extractPrimitiveMesh i = .ok m' ∧ m'.indices = m.indices ∧ m'.vertices = m.vertices ∧
        m'.normals = m.normals ∧
        ((us[i]? = none ∨ us[i]? = some none) → m' = m) ∧
        (∀ u, us[i]? = some (some u) → ∃ rgb uri, u.color = some rgb ∧ u.uri = some uri ∧
          Updated fs M' dir rgb uri m.material m'.material) := by
  obtain ⟨e, h1, h2, h3⟩ := updateFrom_spec us M M' 0 h
  refine ⟨by rw [numPrimitiveMeshes_eq, numPrimitiveMeshes_eq, h1], fun i m hm => ?_⟩
  have hm0 := hm
  unfold Model.extractPrimitiveMesh at hm
  obtain ⟨p, hp, hm⟩ := except_bind_ok.1 hm
  obtain ⟨a, r1, hm⟩ := except_bind_ok.1 hm
  obtain ⟨b, r2, hm⟩ := except_bind_ok.1 hm
  obtain ⟨c, r3, hm⟩ := except_bind_ok.1 hm
  obtain ⟨d, r4, hm⟩ := except_bind_ok.1 hm
  obtain ⟨f, r5, hm⟩ := except_bind_ok.1 hm
  obtain ⟨mat, r6, hm⟩ := except_bind_ok.1 hm
  have hm' : m = ⟨a, c, f, mat⟩ := by
    simp only [pure, Except.pure, Except.ok.injEq] at hm
    exact hm.symm
  have hf : M.meshes.flatten[i]? = some p := by
    unfold Model.getPrimitiveMesh at hp
    cases hq : M.meshes.flatten[i]? with
    | none => simp [hq] at hp
    | some q => rw [hq] at hp; simpa using hp
  obtain ⟨p', q1, q2, q3, q4, q5⟩ := h3 i p mat (by simpa using hf) r6
  rw [Nat.zero_add] at q1
  have hg : M'.getPrimitiveMesh i = .ok p' := by
    unfold Model.getPrimitiveMesh
    rw [q1]
  have geo : ∀ mat', M'.readMaterial p' = .ok mat' → M'.extractPrimitiveMesh i = .ok ⟨a, c, f, mat'⟩ := by
    intro mat' hmat'
    unfold Model.extractPrimitiveMesh
    have ri : M'.readIndices p' = .ok a := by
      have := readIndices_ext e.toExtB r1
      unfold Model.readIndices at this ⊢
      rw [q3]; exact this
    refine except_bind_ok.2 ⟨p', hg, except_bind_ok.2 ⟨a, ri, except_bind_ok.2 ⟨b, ?_, except_bind_ok.2
      ⟨c, readAccessor_ext e.toExtB r3, except_bind_ok.2 ⟨d, ?_, except_bind_ok.2 ⟨f, readAccessor_ext e.toExtB r5,
        except_bind_ok.2 ⟨mat', hmat', rfl⟩⟩⟩⟩⟩⟩⟩
    · unfold Model.attributeOf at r2 ⊢; rw [q2]; exact r2
    · unfold Model.attributeOf at r4 ⊢; rw [q2]; exact r4
  subst hm'
  cases hu : us[i]? with
  | none =>
    rw [hu] at q5
    have q5' : p' = p := q5
    rw [q5'] at geo
    exact ⟨_, geo mat (readMaterial_ext e r6), rfl, rfl, rfl, fun _ => rfl, fun u h' => by simp at h'⟩
  | some w =>
    rw [hu] at q5
    cases w with
    | none =>
      have q5' : p' = p := q5
      rw [q5'] at geo
      exact ⟨_, geo mat (readMaterial_ext e r6), rfl, rfl, rfl, fun _ => rfl, fun u h' => by simp at h'⟩
    | some w =>
      obtain ⟨rgb, uri, m1, m2, c1, c2, c3, c4, c5⟩ := q5
      have : m1 = mat := by
        rw [r6] at c3
        simpa using c3.symm
      subst this
      refine ⟨_, geo m2 c4, rfl, rfl, rfl, fun h' => by simp at h', fun u h' => ?_⟩
      simp only [Option.some.injEq] at h'
      subst h'
      exact ⟨rgb, uri, c1, c2, c5⟩

/-- Whether a mesh is textured does not change. -/
theorem C97_kind {fs : ImageFiles} {M M' : Model} {dir : String} {us : List (Option Model.MaterialUpdate)}
    (h : M.updateMaterials fs dir us = (M', .ok ())) {i : ℕ} {m m' : AnyMesh} (hm : M.extractPolymorphic i = .ok m)
    (hm' : M'.extractPolymorphic i = .ok m') : m'.isLeft = m.isLeft := by
  obtain ⟨e, h1, h2, h3⟩ := updateFrom_spec us M M' 0 h
  have kind : ∀ (N : Model) (x : AnyMesh), N.extractPolymorphic i = .ok x →
      ∃ p mat, N.meshes.flatten[i]? = some p ∧ x.isLeft = !p.attributes.has "TEXCOORD_0" ∧ N.readMaterial p = .ok mat := by
    intro N x hx
    have hx0 := hx
    unfold Model.extractPolymorphic at hx
    obtain ⟨p, hp, hx⟩ := except_bind_ok.1 hx
    have hf : N.meshes.flatten[i]? = some p := by
      unfold Model.getPrimitiveMesh at hp
      cases hq : N.meshes.flatten[i]? with
      | none => simp [hq] at hp
      | some q => rw [hq] at hp; simpa using hp
    have hplain : ∃ y, extractPlain N p = .ok y := by
      rw [extractPolymorphic_eq hp] at hx0
      unfold extractAny at hx0
      split_ifs at hx0
      · obtain ⟨t, ht, _⟩ := except_map_ok.1 hx0
        unfold extractTextured at ht
        obtain ⟨y, hy, _⟩ := except_bind_ok.1 ht
        exact ⟨y, hy⟩
      · obtain ⟨t, ht, _⟩ := except_map_ok.1 hx0
        exact ⟨t, ht⟩
    have hmat : ∃ mat, N.readMaterial p = .ok mat := by
      obtain ⟨y, hy⟩ := hplain
      unfold extractPlain at hy
      obtain ⟨_, _, hy⟩ := except_bind_ok.1 hy
      obtain ⟨_, _, hy⟩ := except_bind_ok.1 hy
      obtain ⟨_, _, hy⟩ := except_bind_ok.1 hy
      obtain ⟨_, _, hy⟩ := except_bind_ok.1 hy
      obtain ⟨_, _, hy⟩ := except_bind_ok.1 hy
      obtain ⟨mat, hmat, _⟩ := except_bind_ok.1 hy
      exact ⟨mat, hmat⟩
    obtain ⟨mat, hmat⟩ := hmat
    refine ⟨p, mat, hf, ?_, hmat⟩
    split_ifs at hx with hc
    · obtain ⟨t, _, ht⟩ := except_bind_ok.1 hx
      simp only [pure, Except.pure, Except.ok.injEq] at ht
      rw [← ht, hc]; rfl
    · obtain ⟨t, _, ht⟩ := except_bind_ok.1 hx
      simp only [pure, Except.pure, Except.ok.injEq] at ht
      rw [← ht]
      simp only [Bool.not_eq_true] at hc
      rw [hc]; rfl
  obtain ⟨p, mat, a1, a2, a3⟩ := kind M m hm
  obtain ⟨p1, mat1, b1, b2, b3⟩ := kind M' m' hm'
  obtain ⟨p', q1, q2, _⟩ := h3 i p mat (by simpa using a1) a3
  rw [Nat.zero_add, b1] at q1
  simp only [Option.some.injEq] at q1
  subst q1
  rw [a2, b2, q2]

/-- A file system with one picture. -/
def exFiles : ImageFiles where
  read s := if s = "dir/wood.png" then some [1] else none
  decode _ := some (1, 1, 3, [7, 8, 9])
  uninit := (0, 0, 0)

/-- A model with two meshes. -/
def exModel : Model := (({} : Model).addPrimitiveMesh exPlain).addPrimitiveMesh exPlain

example : ∃ M', exModel.updateMaterials exFiles "dir" [none, some ⟨some ⟨1, 2, 3⟩, some "wood.png"⟩] = (M', .ok ()) ∧
    ∃ m, exModel.extractPrimitiveMesh 1 = .ok m := ⟨_, rfl, _, rfl⟩

example : ∃ M' m m', (({} : Model).addPrimitiveMesh exPlain).updateMaterials exFiles "dir"
      [some ⟨some ⟨1, 2, 3⟩, some "wood.png"⟩] = (M', .ok ()) ∧
    (({} : Model).addPrimitiveMesh exPlain).extractPolymorphic 0 = .ok m ∧ M'.extractPolymorphic 0 = .ok m' :=
  ⟨_, _, _, rfl, rfl, rfl⟩

set_option maxRecDepth 8000 in
/-- **C97** is false of the code for colours with a component 0 (such as pure red): they are ignored although only (0, 0, 0)
is documented to mean "no colour". -/
theorem C97_false : ∃ (M' : Model) (m' : Mesh F32),
    exModel.updateMaterials exFiles "dir" [some ⟨some ⟨1, 0, 0⟩, some ""⟩] = (M', .ok ()) ∧
    M'.extractPrimitiveMesh 0 = .ok m' ∧ m'.material.values.get? "baseColorFactor" = none := by
  refine ⟨exModel.replaceMaterial 0 exPlain.material, _, rfl, rfl, rfl⟩

/-- A file that is no picture is accepted as a texture; the meshes of the model can then no longer be extracted. -/
theorem C97_bad_picture : ∃ (fs : ImageFiles) (M M' : Model),
    (∀ b, fs.decode b = none) ∧ M.updateMaterials fs "dir" [some ⟨some ⟨0, 0, 0⟩, some "notes.txt"⟩] = (M', .ok ()) ∧
    (∃ l, M.primitiveMeshes = .ok l) ∧ M'.primitiveMeshes = .error .runtimeError :=
  ⟨⟨fun _ => some [1], fun _ => none, (0, 0, 0)⟩, (({} : Model).addTexturedPrimitiveMesh exTextured).1, _, fun _ => rfl, rfl,
    ⟨_, rfl⟩, rfl⟩

/-! ### C98: same material -/

/-- **C98** (partial) `has_same_material` is an equivalence: it holds for equal materials, is symmetric and transitive; and if
it holds, the materials have the same name, keys and texture indices. -/
theorem C98_partial {K : Type} (a b c : Mesh K) :
    (a.material = b.material → a.hasSameMaterial b = true) ∧
    (a.hasSameMaterial b = true → b.hasSameMaterial a = true) ∧
    (a.hasSameMaterial b = true → b.hasSameMaterial c = true → a.hasSameMaterial c = true) ∧
    (a.hasSameMaterial b = true → a.material.name = b.material.name ∧
      a.material.values.keys = b.material.values.keys ∧
      a.material.additionalValues.keys = b.material.additionalValues.keys ∧
      ∀ k, (a.material.values.get? k).map (·.num) = (b.material.values.get? k).map (·.num)) := by
  have pe : ∀ x y : GltfParameter, Mesh.parametersEqual x y = true ↔ x.hasNumber = y.hasNumber ∧ x.str = y.str ∧ x.num = y.num := by
    intro x y; simp [Mesh.parametersEqual, and_assoc]
  have me : ∀ d e : Dict String GltfParameter, Mesh.parameterMapsEqual d e = true ↔
      d.map (fun kv => (kv.1, kv.2.hasNumber, kv.2.str, kv.2.num)) = e.map (fun kv => (kv.1, kv.2.hasNumber, kv.2.str, kv.2.num)) := by
    intro d
    induction d with
    | nil => intro e; cases e <;> simp [Mesh.parameterMapsEqual]
    | cons p d ih =>
      intro e
      cases e with
      | nil => simp [Mesh.parameterMapsEqual]
      | cons q e =>
        have := ih e
        simp only [Mesh.parameterMapsEqual, Bool.and_eq_true, decide_eq_true_eq, List.length_cons, Nat.add_right_cancel_iff,
          List.zip_cons_cons, List.all_cons, List.map_cons, List.cons.injEq, Prod.mk.injEq, pe] at this ⊢
        rw [← this]
        tauto
  have mm : ∀ x y : Mesh K, x.hasSameMaterial y = true ↔
      x.material.additionalValues.map (fun kv => (kv.1, kv.2.hasNumber, kv.2.str, kv.2.num)) =
        y.material.additionalValues.map (fun kv => (kv.1, kv.2.hasNumber, kv.2.str, kv.2.num)) ∧
      x.material.values.map (fun kv => (kv.1, kv.2.hasNumber, kv.2.str, kv.2.num)) =
        y.material.values.map (fun kv => (kv.1, kv.2.hasNumber, kv.2.str, kv.2.num)) ∧ x.material.name = y.material.name := by
    intro x y
    simp only [Mesh.hasSameMaterial, Mesh.materialsEqual, Bool.and_eq_true, decide_eq_true_eq, me, and_assoc]
  refine ⟨fun h => ?_, fun h => ?_, fun h h' => ?_, fun h => ?_⟩
  · rw [mm, h]; exact ⟨rfl, rfl, rfl⟩
  · rw [mm] at h ⊢; exact ⟨h.1.symm, h.2.1.symm, h.2.2.symm⟩
  · rw [mm] at h h' ⊢; exact ⟨h.1.trans h'.1, h.2.1.trans h'.2.1, h.2.2.trans h'.2.2⟩
  · rw [mm] at h
    have hk : ∀ d e : Dict String GltfParameter,
        d.map (fun kv => (kv.1, kv.2.hasNumber, kv.2.str, kv.2.num)) = e.map (fun kv => (kv.1, kv.2.hasNumber, kv.2.str, kv.2.num)) →
        d.keys = e.keys ∧ ∀ k, (d.get? k).map (·.num) = (e.get? k).map (·.num) := by
      intro d
      induction d with
      | nil => intro e he; cases e with
        | nil => exact ⟨rfl, fun _ => rfl⟩
        | cons q e => simp at he
      | cons p d ih =>
        intro e he
        cases e with
        | nil => simp at he
        | cons q e =>
          simp only [List.map_cons, List.cons.injEq, Prod.mk.injEq] at he
          obtain ⟨i1, i2⟩ := ih e he.2
          refine ⟨?_, fun k => ?_⟩
          · simp only [Dict.keys, List.map_cons] at i1 ⊢
            rw [he.1.1, i1]
          · obtain ⟨pk, pv⟩ := p
            obtain ⟨qk, qv⟩ := q
            simp only at he
            rw [Dict.get?_cons, Dict.get?_cons, he.1.1]
            split_ifs
            · simp [he.1.2.2.2]
            · exact i2 k
    exact ⟨h.2.2, (hk _ _ h.2.1).1, (hk _ _ h.1).1, (hk _ _ h.2.1).2⟩

example : exPlain.hasSameMaterial exPlain = true := by decide

/-- **C98** is false of the code in one direction: materials that differ in their colour only count as the same. -/
theorem C98_false : ∃ a b : Mesh F32, a.hasSameMaterial b = true ∧
    (a.material.values.get? "baseColorFactor").map (·.array) ≠ (b.material.values.get? "baseColorFactor").map (·.array) := by
  refine ⟨⟨[], [], [], ⟨"m", [("baseColorFactor", Model.colorParameter ⟨1, 1, 1⟩)], []⟩⟩,
    ⟨[], [], [], ⟨"m", [("baseColorFactor", Model.colorParameter ⟨2, 1, 1⟩)], []⟩⟩, by decide +kernel, by decide +kernel⟩

end Gltf
end Sumo
