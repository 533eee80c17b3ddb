import Verif.Lemmas.TinyDocument

/-! # Lemmas: the meshes of a model read back -/

namespace Sumo
namespace Gltf

theorem Forall₂.getElem? {α β : Type} {R : α → β → Prop} {l : List α} {l' : List β} (h : List.Forall₂ R l l') {i : ℕ} {a : α}
    (ha : l[i]? = some a) : ∃ b, l'[i]? = some b ∧ R a b := by
  induction h generalizing i with
  | nil => simp at ha
  | @cons x y l l' hxy _ ih =>
    cases i with
    | zero =>
      simp only [List.getElem?_cons_zero, Option.some.injEq] at ha
      exact ⟨y, rfl, ha ▸ hxy⟩
    | succ i =>
      obtain ⟨b, hb, hr⟩ := ih (i := i) (by simpa using ha)
      exact ⟨b, by simpa using hb, hr⟩

/-- The model read back, with its old accessors. -/
theorem Kept.ext {round : ℚ → ℚ} {M N : Model} (h : Kept round M N) : ExtB M { N with accessors := M.accessors } := by
  obtain ⟨d, s, hd, hb⟩ := h.buffers
  obtain ⟨vs, hv, _⟩ := h.views
  refine ⟨fun i b hi => ?_, fun i v hi => ?_, fun _ _ h => h⟩
  · rw [hd] at hi
    show ∃ s, N.buffers[i]? = _
    rw [hb]
    cases i with
    | zero =>
      simp only [List.getElem?_cons_zero, Option.some.injEq] at hi
      exact ⟨s, by simp [hi]⟩
    | succ i => simp at hi
  · show N.bufferViews[i]? = _
    rw [hv]
    exact getElem?_append_some hi

theorem Kept.accessor {round : ℚ → ℚ} {M N : Model} (h : Kept round M N) {i : ℤ} {a : Accessor} (ha : M.accessor i = .ok a) :
    ∃ f, N.accessor i = .ok (backAccessor f a) := by
  obtain ⟨f, hf⟩ := h.accessors
  refine ⟨f, ?_⟩
  unfold Model.accessor at ha ⊢
  split_ifs at ha ⊢ with h1
  rw [hf, List.getElem?_map]
  cases hv : M.accessors[i.toNat]? with
  | none => simp [hv] at ha
  | some v =>
    simp only [hv, Except.ok.injEq] at ha
    subst ha
    rfl

theorem Kept.readAccessor {α : Type} {c : Codec α} {round : ℚ → ℚ} {M N : Model} (h : Kept round M N) {i : ℤ} {l : List α}
    (hr : M.readAccessor c i = .ok l) : N.readAccessor c i = .ok l := by
  unfold Model.readAccessor at hr ⊢
  obtain ⟨a, h1, h2⟩ := except_bind_ok.1 hr
  obtain ⟨f, h3⟩ := h.accessor h1
  refine except_bind_ok.2 ⟨_, h3, ?_⟩
  exact readVector_ext (M' := { N with accessors := M.accessors }) h.ext h2

theorem Kept.readIndices {round : ℚ → ℚ} {M N : Model} (h : Kept round M N) {p : Primitive} {l : List ℕ}
    (hr : M.readIndices p = .ok l) : N.readIndices p = .ok l := by
  unfold Model.readIndices at hr ⊢
  obtain ⟨a, h1, h2⟩ := except_bind_ok.1 hr
  obtain ⟨f, h3⟩ := h.accessor h1
  refine except_bind_ok.2 ⟨_, h3, ?_⟩
  show (if a.componentType = 5123 then _ else _) = _
  split_ifs at h2 ⊢ <;> exact h.readAccessor h2

theorem Kept.readMaterial {round : ℚ → ℚ} {M N : Model} (h : Kept round M N) {p : Primitive} {m : GltfMaterial}
    (hr : M.readMaterial p = .ok m) : ∃ m', N.readMaterial p = .ok m' ∧ MaterialBack round m m' := by
  unfold Model.readMaterial at hr ⊢
  split_ifs at hr ⊢ with h1
  cases hv : M.materials[p.material.toNat]? with
  | none => simp [hv] at hr
  | some v =>
    simp only [hv, Except.ok.injEq] at hr
    subst hr
    obtain ⟨m', h2, h3, _⟩ := Forall₂.getElem? h.materials hv
    exact ⟨m', by rw [h2], h3⟩

theorem Kept.extractTexture {round : ℚ → ℚ} {M N : Model} (h : Kept round M N) (hM : Good M) {t : ℤ} {x : Mat3b}
    (hr : M.extractTexture t = .ok x) : N.extractTexture t = .ok x := by
  unfold Model.extractTexture at hr ⊢
  rw [h.textures]
  split_ifs at hr ⊢ with h1
  cases hv : M.textures[t.toNat]? with
  | none => simp [hv] at hr
  | some v =>
    simp only [hv] at hr ⊢
    split_ifs at hr ⊢ with h2
    cases hi : M.images[v.source.toNat]? with
    | none => simp [hi] at hr
    | some w =>
      simp only [hi] at hr
      obtain ⟨w', h3, h4⟩ := Forall₂.getElem? h.images hi
      obtain ⟨y, hy⟩ := (hM.images.get hi).holds
      rw [hy.cvImage] at hr
      simp only [h3]
      rw [(h4 y hy).cvImage, hr]

theorem Kept.materialTexture {round : ℚ → ℚ} {M N : Model} (h : Kept round M N) (hM : Good M) {m m' : GltfMaterial}
    (hm : MaterialBack round m m') {k : String} {x : Mat3b}
    (hr : M.materialTexture m k = .ok x) : N.materialTexture m' k = .ok x := by
  unfold Model.materialTexture at hr ⊢
  have hb := hm.values k (by simp)
  cases hv : m.values.get? k with
  | none =>
    rw [hv] at hr hb
    cases hv' : m'.values.get? k with
    | none => exact hr
    | some p' => simp [hv', Both] at hb
  | some p =>
    rw [hv] at hr hb
    cases hv' : m'.values.get? k with
    | none => simp [hv', Both] at hb
    | some p' =>
      rw [hv'] at hb
      have hb : SameParameter round p p' := hb
      dsimp only at hr ⊢
      cases hb with
      | object d =>
        dsimp only at hr ⊢
        rw [get?_map_snd (fun (k : String) (q : ℚ) => if k = "index" then ((Model.toInt q : ℤ) : ℚ) else round q)]
        cases hi : Dict.get? d "index" with
        | none => simp [hi] at hr
        | some i =>
          simp only [hi] at hr
          simp only [Option.map_some, if_true, toInt_intCast]
          exact h.extractTexture hM hr
      | _ => simp [Dict.get?_nil] at hr

theorem Kept.extractPlain {round : ℚ → ℚ} {M N : Model} (h : Kept round M N) {p : Primitive} {m : Mesh F32}
    (hr : extractPlain M p = .ok m) : ∃ m', extractPlain N p = .ok m' ∧ m'.indices = m.indices ∧ m'.vertices = m.vertices ∧
      m'.normals = m.normals ∧ MaterialBack round m.material m'.material := by
  unfold Gltf.extractPlain at hr ⊢
  obtain ⟨a, h1, hr⟩ := except_bind_ok.1 hr
  obtain ⟨b, h2, hr⟩ := except_bind_ok.1 hr
  obtain ⟨c, h3, hr⟩ := except_bind_ok.1 hr
  obtain ⟨d, h4, hr⟩ := except_bind_ok.1 hr
  obtain ⟨e, h5, hr⟩ := except_bind_ok.1 hr
  obtain ⟨f, h6, hr⟩ := except_bind_ok.1 hr
  obtain ⟨f', h7, h8⟩ := h.readMaterial h6
  cases hr
  exact ⟨⟨a, c, e, f'⟩, except_bind_ok.2 ⟨a, h.readIndices h1, except_bind_ok.2 ⟨b, h2, except_bind_ok.2
    ⟨c, h.readAccessor h3, except_bind_ok.2 ⟨d, h4, except_bind_ok.2 ⟨e, h.readAccessor h5,
      except_bind_ok.2 ⟨f', h7, rfl⟩⟩⟩⟩⟩⟩, rfl, rfl, rfl, h8⟩

theorem Kept.extractTextured {round : ℚ → ℚ} {M N : Model} (h : Kept round M N) (hM : Good M) {p : Primitive}
    {m : TexturedMesh F32 Mat3b} (hr : extractTextured M p = .ok m) :
    ∃ m', extractTextured N p = .ok m' ∧ MeshBack round (.inr m) (.inr m') := by
  unfold Gltf.extractTextured at hr ⊢
  obtain ⟨a, h1, hr⟩ := except_bind_ok.1 hr
  obtain ⟨b, h2, hr⟩ := except_bind_ok.1 hr
  obtain ⟨c, h3, hr⟩ := except_bind_ok.1 hr
  obtain ⟨d, h4, hr⟩ := except_bind_ok.1 hr
  obtain ⟨e, h5, hr⟩ := except_bind_ok.1 hr
  obtain ⟨f, h6, hr⟩ := except_bind_ok.1 hr
  cases hr
  obtain ⟨a', i1, i2, i3, i4, i5⟩ := h.extractPlain h1
  obtain ⟨d', j1, j2⟩ := h.readMaterial h4
  exact ⟨⟨a', c, e, f⟩, except_bind_ok.2 ⟨a', i1, except_bind_ok.2 ⟨b, h2, except_bind_ok.2
    ⟨c, h.readAccessor h3, except_bind_ok.2 ⟨d', j1, except_bind_ok.2
      ⟨e, h.materialTexture hM j2 h5, except_bind_ok.2 ⟨f, h.materialTexture hM j2 h6, rfl⟩⟩⟩⟩⟩⟩,
    .textured _ _ i2 i3 i4 rfl rfl rfl i5⟩

theorem Kept.extractAny {round : ℚ → ℚ} {M N : Model} (h : Kept round M N) (hM : Good M) {p : Primitive} {m : AnyMesh}
    (hr : extractAny M p = .ok m) : ∃ m', extractAny N p = .ok m' ∧ MeshBack round m m' := by
  unfold Gltf.extractAny at hr ⊢
  split_ifs at hr ⊢ with hp
  · obtain ⟨a, h1, rfl⟩ := except_map_ok.1 hr
    obtain ⟨a', h2, h3⟩ := h.extractTextured hM h1
    exact ⟨_, except_map_ok.2 ⟨a', h2, rfl⟩, h3⟩
  · obtain ⟨a, h1, rfl⟩ := except_map_ok.1 hr
    obtain ⟨a', h2, h3, h4, h5, h6⟩ := h.extractPlain h1
    exact ⟨_, except_map_ok.2 ⟨a', h2, rfl⟩, .plain _ _ h3 h4 h5 h6⟩

/-- The meshes of a model read back. -/
theorem Kept.primitiveMeshes {round : ℚ → ℚ} {M N : Model} (h : Kept round M N) (hM : Good M) {l : List AnyMesh}
    (hl : M.primitiveMeshes = .ok l) : ∃ l', N.primitiveMeshes = .ok l' ∧ List.Forall₂ (MeshBack round) l l' := by
  rw [primitiveMeshes_eq, mapM_ok_iff] at hl
  simp only [primitiveMeshes_eq, mapM_ok_iff, h.meshes]
  generalize M.meshes.flatten = ps at hl
  induction hl with
  | nil => exact ⟨[], .nil, .nil⟩
  | cons h1 _ ih =>
    obtain ⟨l', h2, h3⟩ := ih
    obtain ⟨m', h4, h5⟩ := h.extractAny hM h1
    exact ⟨m' :: l', .cons h4 h2, .cons h5 h3⟩

end Gltf
end Sumo
