import Verif.Spec.Gltf
import Verif.Lemmas.Category
import Verif.Lemmas.Dict
import Mathlib.Tactic.Ring
import Mathlib.Tactic.Linarith
import Mathlib.Tactic.NormNum
import Mathlib.Data.UInt

/-! # Lemmas about glTF models -/

namespace Sumo

theorem unguarded_ok {α : Type} {x : Except PyErr α} {a : α} : unguarded x = .ok a ↔ x = .ok a := by
  cases x with
  | ok b => exact Iff.rfl
  | error e => cases e <;> simp [unguarded]

/-- What a call without handler can end in. -/
theorem unguarded_error {α : Type} {x : Except PyErr α} {e : PyErr} (h : unguarded x = .error e) :
    e = .terminated ∨ e = .undefined := by
  cases x with
  | ok b => simp [unguarded] at h
  | error e' => cases e' <;> simp [unguarded] at h <;> simp [← h]

theorem unguarded_snd_ok {α β : Type} {r : β × Except PyErr α} {b : β} {a : α} (h : (r.1, unguarded r.2) = (b, .ok a)) :
    r = (b, .ok a) := by
  obtain ⟨x, y⟩ := r
  simp only [Prod.mk.injEq] at h ⊢
  exact ⟨h.1, unguarded_ok.1 h.2⟩

namespace Gltf

theorem except_bind_ok {ε α β : Type} {x : Except ε α} {f : α → Except ε β} {b : β} :
    (x >>= f) = .ok b ↔ ∃ a, x = .ok a ∧ f a = .ok b := by
  cases x <;> simp [bind, Except.bind]

/-! ### Codecs -/

/-- Encoding and decoding values satisfying `P`. -/
def Lawful {α : Type} (c : Codec α) (P : α → Prop) : Prop :=
  ∀ x, P x → (c.enc x).length = c.size ∧ c.dec (c.enc x) = x

theorem uint_lawful : Lawful uintCodec (· < 2 ^ 32) := by
  intro n h
  refine ⟨rfl, ?_⟩
  simp only [uintCodec, List.getD_cons_zero, List.getD_cons_succ, UInt8.toNat_ofNat']
  omega

theorem float_lawful : Lawful floatCodec (fun _ => True) := by
  intro x _
  refine ⟨rfl, ?_⟩
  have h := (uint_lawful x.bits.toNat x.bits.toNat_lt).2
  cases x with
  | mk b => 
    simp only [floatCodec]
    simp only at h
    rw [h]
    simp

theorem vec3_lawful : Lawful vec3Codec (fun _ => True) := by
  intro v _
  have hl : ∀ x, (floatCodec.enc x).length = 4 := fun x => (float_lawful x trivial).1
  have hd : ∀ x, floatCodec.dec (floatCodec.enc x) = x := fun x => (float_lawful x trivial).2
  refine ⟨by simp [vec3Codec, hl], ?_⟩
  cases v with
  | mk x y z =>
    have h1 : (floatCodec.enc x ++ floatCodec.enc y ++ floatCodec.enc z).take 4 = floatCodec.enc x := by
      rw [List.append_assoc, List.take_left' (hl x)]
    have h2 : ((floatCodec.enc x ++ floatCodec.enc y ++ floatCodec.enc z).drop 4).take 4 = floatCodec.enc y := by
      rw [List.append_assoc, List.drop_left' (hl x), List.take_left' (hl y)]
    have h3 : ((floatCodec.enc x ++ floatCodec.enc y ++ floatCodec.enc z).drop 8).take 4 = floatCodec.enc z := by
      rw [List.drop_left' (by simp [hl]), List.take_of_length_le (by simp [hl])]
    simp only [vec3Codec, h1, h2, h3, hd]

theorem vec2_lawful : Lawful vec2Codec (fun _ => True) := by
  intro v _
  have hl : ∀ x, (floatCodec.enc x).length = 4 := fun x => (float_lawful x trivial).1
  have hd : ∀ x, floatCodec.dec (floatCodec.enc x) = x := fun x => (float_lawful x trivial).2
  refine ⟨by simp [vec2Codec, hl], ?_⟩
  cases v with
  | mk x y =>
    have h1 : (floatCodec.enc x ++ floatCodec.enc y).take 4 = floatCodec.enc x := by
      rw [List.take_left' (hl x)]
    have h2 : ((floatCodec.enc x ++ floatCodec.enc y).drop 4).take 4 = floatCodec.enc y := by
      rw [List.drop_left' (hl x), List.take_of_length_le (by simp [hl])]
    simp only [vec2Codec, h1, h2, hd]

theorem decodeMany_encode {α : Type} {c : Codec α} {P : α → Prop} (hc : Lawful c P) (rest : List UInt8) :
    ∀ l : List α, (∀ x ∈ l, P x) → decodeMany c l.length (l.flatMap c.enc ++ rest) = l := by
  intro l
  induction l with
  | nil => intro _; rfl
  | cons a l ih =>
    intro h
    obtain ⟨h1, h2⟩ := hc a (h a (by simp))
    simp only [List.length_cons, decodeMany, List.flatMap_cons, List.append_assoc]
    rw [List.take_left' h1, List.drop_left' h1, h2, ih fun x hx => h x (by simp [hx])]

theorem decodeMany_append {α : Type} (c : Codec α) (rest : List UInt8) :
    ∀ (n : ℕ) (l : List UInt8), n * c.size ≤ l.length → decodeMany c n (l ++ rest) = decodeMany c n l := by
  intro n
  induction n with
  | zero => intro l _; rfl
  | succ n ih =>
    intro l h
    have h' : c.size ≤ l.length := by nlinarith
    simp only [decodeMany]
    rw [List.take_append_of_le_length h', List.drop_append_of_le_length h', ih]
    rw [List.length_drop]
    have : (n + 1) * c.size = n * c.size + c.size := by ring
    omega

theorem flatMap_enc_length {α : Type} {c : Codec α} {P : α → Prop} (hc : Lawful c P) :
    ∀ l : List α, (∀ x ∈ l, P x) → (l.flatMap c.enc).length = l.length * c.size := by
  intro l
  induction l with
  | nil => intro _; simp
  | cons a l ih =>
    intro h
    rw [List.flatMap_cons, List.length_append, (hc a (h a (by simp))).1, ih fun x hx => h x (by simp [hx])]
    rw [List.length_cons]; ring

/-! ### `std::map` -/

theorem get?_mapSet {υ : Type} (d : Dict String υ) (k : String) (v : υ) (k' : String) :
    (mapSet d k v).get? k' = if k = k' then some v else d.get? k' := by
  induction d with
  | nil => simp [mapSet, Dict.get?_cons]
  | cons p d ih =>
    obtain ⟨a, w⟩ := p
    simp only [mapSet]
    split_ifs with h1 h2
    · subst h1; simp only [Dict.get?_cons]
      split_ifs
      all_goals rfl
    all_goals simp only [Dict.get?_cons, ih]; split_ifs <;> simp_all

theorem mem_keys_mapSet {υ : Type} (d : Dict String υ) (k : String) (v : υ) (k' : String) :
    k' ∈ (mapSet d k v).keys ↔ k' = k ∨ k' ∈ d.keys := by
  have h := Dict.get?_eq_none_iff (mapSet d k v) k'
  have h' := Dict.get?_eq_none_iff d k'
  rw [get?_mapSet] at h
  by_cases hk : k = k'
  · subst hk
    simp at h
    simp [h]
  · rw [if_neg hk] at h
    have h2 : k' ≠ k := fun e => hk e.symm
    tauto

/-! ### Extension -/

/-- What reading accessors depends on is still there. -/
structure ExtB (M M' : Model) : Prop where
  buffers : ∀ (i : ℕ) (b : List UInt8), M.buffers[i]? = some b → ∃ s, M'.buffers[i]? = some (b ++ s)
  views : ∀ (i : ℕ) (v : BufferView), M.bufferViews[i]? = some v → M'.bufferViews[i]? = some v
  accessors : ∀ (i : ℕ) (a : Accessor), M.accessors[i]? = some a → M'.accessors[i]? = some a

theorem ExtB.refl (M : Model) : ExtB M M :=
  ⟨fun i b h => ⟨[], by simpa using h⟩, fun _ _ h => h, fun _ _ h => h⟩

theorem ExtB.trans {M M' M'' : Model} (h : ExtB M M') (h' : ExtB M' M'') : ExtB M M'' :=
  ⟨fun i b hb => by
    obtain ⟨s, hs⟩ := h.buffers i b hb
    obtain ⟨s', hs'⟩ := h'.buffers i _ hs
    exact ⟨s ++ s', by rw [hs', List.append_assoc]⟩,
   fun i v hv => h'.views i v (h.views i v hv), fun i a ha => h'.accessors i a (h.accessors i a ha)⟩

theorem getElem?_append_some {α : Type} {l r : List α} {i : ℕ} {a : α} (h : l[i]? = some a) : (l ++ r)[i]? = some a := by
  rw [List.getElem?_append_left (List.getElem?_eq_some_iff.1 h).1, h]

theorem readVector_ext {α : Type} {c : Codec α} {M M' : Model} (h : ExtB M M') {a : Accessor} {l : List α}
    (hr : M.readVector c a = .ok l) : M'.readVector c a = .ok l := by
  unfold Model.readVector at hr ⊢
  split_ifs at hr ⊢ with h1
  cases hv : M.bufferViews[a.bufferView.toNat]? with
  | none => simp [hv] at hr
  | some v =>
    rw [hv] at hr
    rw [h.views _ _ hv]
    dsimp only at hr ⊢
    split_ifs at hr ⊢ with h2
    cases hb : M.buffers[v.buffer.toNat]? with
    | none => simp [hb] at hr
    | some b =>
      rw [hb] at hr
      obtain ⟨s, hs⟩ := h.buffers _ _ hb
      rw [hs]
      dsimp only at hr ⊢
      split_ifs at hr with h3
      rcases h3 with h3 | h3
      · rw [if_pos (Or.inl h3)]
        rw [h3] at hr ⊢
        exact hr
      · rw [if_pos (Or.inr (by rw [List.length_append]; omega))]
        by_cases h4 : v.byteOffset + a.byteOffset ≤ b.length
        · rw [List.drop_append_of_le_length h4, decodeMany_append c s _ _ (by rw [List.length_drop]; omega)]
          exact hr
        · omega

theorem accessor_ext {M M' : Model} (h : ExtB M M') {i : ℤ} {a : Accessor} (ha : M.accessor i = .ok a) :
    M'.accessor i = .ok a := by
  unfold Model.accessor at ha ⊢
  split_ifs at ha ⊢ with h1
  cases hv : M.accessors[i.toNat]? with
  | none => simp [hv] at ha
  | some v =>
    rw [hv] at ha
    rw [h.accessors _ _ hv]
    exact ha

theorem readAccessor_ext {α : Type} {c : Codec α} {M M' : Model} (h : ExtB M M') {i : ℤ} {l : List α}
    (hr : M.readAccessor c i = .ok l) : M'.readAccessor c i = .ok l := by
  unfold Model.readAccessor at hr ⊢
  obtain ⟨a, h1, h2⟩ := except_bind_ok.1 hr
  exact except_bind_ok.2 ⟨a, accessor_ext h h1, readVector_ext h h2⟩

theorem readIndices_ext {M M' : Model} (h : ExtB M M') {p : Primitive} {l : List ℕ}
    (hr : M.readIndices p = .ok l) : M'.readIndices p = .ok l := by
  unfold Model.readIndices at hr ⊢
  obtain ⟨a, h1, h2⟩ := except_bind_ok.1 hr
  refine except_bind_ok.2 ⟨a, accessor_ext h h1, ?_⟩
  split_ifs at h2 ⊢ <;> exact readAccessor_ext h h2

/-! ### Pushing data -/

theorem pushData_ext {α : Type} (e : Element α) (M : Model) (t : ℕ) (vs : List α) :
    ExtB M (M.pushData e t vs).1 := by
  refine ⟨fun i b hb => ?_, fun i v hv => getElem?_append_some hv, fun i a ha => getElem?_append_some ha⟩
  simp only [Model.pushData, Model.addToBuffer, Model.addBufferView, Model.addAccessor]
  cases hM : M.buffers with
  | nil => simp [hM] at hb
  | cons b0 bs =>
    rw [hM] at hb
    cases i with
    | zero =>
      simp only [List.getElem?_cons_zero, Option.some.injEq] at hb
      subst hb
      exact ⟨_, by simp; rfl⟩
    | succ i => exact ⟨[], by simpa using hb⟩

theorem pushData_read {α : Type} (e : Element α) {P : α → Prop} (he : Lawful e.toCodec P) (M : Model) (t : ℕ)
    (vs : List α) (hv : ∀ x ∈ vs, P x) :
    (M.pushData e t vs).1.readAccessor e.toCodec (M.pushData e t vs).2 = .ok vs := by
  have h1 : (M.pushData e t vs).1.accessor (M.pushData e t vs).2 =
      .ok ⟨M.bufferViews.length, 0, vs.length, e.componentType, e.type, (e.bounds vs).1, (e.bounds vs).2⟩ := by
    simp [Model.pushData, Model.addToBuffer, Model.addBufferView, Model.addAccessor, Model.accessor]
  unfold Model.readAccessor
  refine except_bind_ok.2 ⟨_, h1, ?_⟩
  unfold Model.readVector
  rw [if_neg (by simp)]
  have h2 : (M.pushData e t vs).1.bufferViews[(M.bufferViews.length : ℤ).toNat]? =
      some ⟨0, (M.buffers.headD []).length, vs.length * e.size, e.stride, t⟩ := by
    simp [Model.pushData, Model.addToBuffer, Model.addBufferView, Model.addAccessor]
  rw [h2]
  dsimp only
  rw [if_neg (by simp)]
  have h3 : (M.pushData e t vs).1.buffers[(0 : ℤ).toNat]? = some (M.buffers.headD [] ++ vs.flatMap e.enc) := by
    simp [Model.pushData, Model.addToBuffer, Model.addBufferView, Model.addAccessor]
  rw [h3]
  dsimp only
  have hl := flatMap_enc_length he vs hv
  rw [if_pos (Or.inr (by rw [List.length_append, hl]; omega)), Nat.add_zero, List.drop_left]
  congr 1
  have := decodeMany_encode he [] vs hv
  rwa [List.append_nil] at this

theorem pushData_componentType {α : Type} (e : Element α) (M : Model) (t : ℕ) (vs : List α) :
    ∃ a, (M.pushData e t vs).1.accessor (M.pushData e t vs).2 = .ok a ∧ a.componentType = e.componentType := by
  refine ⟨⟨M.bufferViews.length, 0, vs.length, e.componentType, e.type, (e.bounds vs).1, (e.bounds vs).2⟩, ?_, rfl⟩
  simp [Model.pushData, Model.addToBuffer, Model.addBufferView, Model.addAccessor, Model.accessor]

/-! ### Extraction -/

/-- The plain mesh of a primitive. -/
def extractPlain (M : Model) (p : Primitive) : Except PyErr (Mesh F32) := do
  let indices ← M.readIndices p
  let v ← Model.attributeOf p "POSITION"
  let vertices ← M.readAccessor vec3Codec v
  let n ← Model.attributeOf p "NORMAL"
  let normals ← M.readAccessor vec3Codec n
  let material ← M.readMaterial p
  pure ⟨indices, vertices, normals, material⟩

/-- The textured mesh of a primitive with texture coordinates. -/
def extractTextured (M : Model) (p : Primitive) : Except PyErr (TexturedMesh F32 Mat3b) := do
  let mesh ← extractPlain M p
  let u ← Model.attributeOf p "TEXCOORD_0"
  let uv ← M.readAccessor vec2Codec u
  let material ← M.readMaterial p
  let color ← M.materialTexture material "baseColorTexture"
  let roughness ← M.materialTexture material "metallicRoughnessTexture"
  pure ⟨mesh, uv, color, roughness⟩

/-- The mesh of a primitive. -/
def extractAny (M : Model) (p : Primitive) : Except PyErr AnyMesh :=
  if p.attributes.has "TEXCOORD_0" then (extractTextured M p).map .inr else (extractPlain M p).map .inl

theorem extractPrimitiveMesh_eq {M : Model} {i : ℕ} {p : Primitive} (h : M.getPrimitiveMesh i = .ok p) :
    M.extractPrimitiveMesh i = extractPlain M p := by
  unfold Model.extractPrimitiveMesh extractPlain
  rw [h]
  rfl

theorem extractTexturedPrimitiveMesh_eq {M : Model} {i : ℕ} {p : Primitive} (h : M.getPrimitiveMesh i = .ok p)
    (hp : p.attributes.has "TEXCOORD_0" = true) :
    M.extractTexturedPrimitiveMesh i = extractTextured M p := by
  unfold Model.extractTexturedPrimitiveMesh extractTextured
  rw [extractPrimitiveMesh_eq h, h]
  cases extractPlain M p with
  | error e => rfl
  | ok m =>
    simp only [bind, Except.bind, hp, if_true]

theorem extractPolymorphic_eq {M : Model} {i : ℕ} {p : Primitive} (h : M.getPrimitiveMesh i = .ok p) :
    M.extractPolymorphic i = extractAny M p := by
  unfold Model.extractPolymorphic extractAny
  rw [h]
  simp only [bind, Except.bind]
  split_ifs with hp
  · rw [extractTexturedPrimitiveMesh_eq h hp]
    cases extractTextured M p <;> rfl
  · rw [extractPrimitiveMesh_eq h]
    cases extractPlain M p <;> rfl

theorem foldl_add_length {α : Type} (l : List (List α)) (n : ℕ) :
    l.foldl (fun index mesh => index + mesh.length) n = n + l.flatten.length := by
  induction l generalizing n with
  | nil => simp
  | cons a l ih =>
    rw [List.foldl_cons, ih, List.flatten_cons, List.length_append]
    omega

theorem numPrimitiveMeshes_eq (M : Model) : M.numPrimitiveMeshes = M.meshes.flatten.length := by
  unfold Model.numPrimitiveMeshes
  rw [foldl_add_length]
  omega

theorem mapM_range' {α β : Type} (g : α → Except PyErr β) (f : ℕ → Except PyErr β) :
    ∀ (l : List α) (s : ℕ), (∀ (i : ℕ) (a : α), l[i]? = some a → f (s + i) = g a) →
      (List.range' s l.length).mapM f = l.mapM g := by
  intro l
  induction l with
  | nil => intro s _; rfl
  | cons a l ih =>
    intro s h
    rw [List.length_cons, List.range'_succ, List.mapM_cons, List.mapM_cons, show f s = g a from h 0 a rfl]
    rw [ih (s + 1) fun i b hb => by
      have := h (i + 1) b (by simpa using hb)
      rwa [show s + 1 + i = s + (i + 1) by omega]]

theorem primitiveMeshes_eq (M : Model) : M.primitiveMeshes = M.meshes.flatten.mapM (extractAny M) := by
  unfold Model.primitiveMeshes
  rw [numPrimitiveMeshes_eq, List.range_eq_range']
  apply mapM_range'
  intro i a h
  rw [Nat.zero_add]
  apply extractPolymorphic_eq
  unfold Model.getPrimitiveMesh
  rw [h]

/-- The textures are still there. -/
structure ExtT (M M' : Model) : Prop where
  images : ∀ (i : ℕ) (m : Image), M.images[i]? = some m → M'.images[i]? = some m
  textures : ∀ (i : ℕ) (m : Texture), M.textures[i]? = some m → M'.textures[i]? = some m

/-- What extracting meshes depends on is still there. -/
structure Ext (M M' : Model) : Prop extends ExtB M M', ExtT M M' where
  materials : ∀ (i : ℕ) (m : GltfMaterial), M.materials[i]? = some m → M'.materials[i]? = some m

theorem ExtT.refl (M : Model) : ExtT M M := ⟨fun _ _ h => h, fun _ _ h => h⟩

theorem ExtT.trans {M M' M'' : Model} (h : ExtT M M') (h' : ExtT M' M'') : ExtT M M'' :=
  ⟨fun i m hm => h'.images i m (h.images i m hm), fun i m hm => h'.textures i m (h.textures i m hm)⟩

theorem Ext.refl (M : Model) : Ext M M := ⟨ExtB.refl M, ExtT.refl M, fun _ _ h => h⟩

theorem Ext.trans {M M' M'' : Model} (h : Ext M M') (h' : Ext M' M'') : Ext M M'' :=
  ⟨h.toExtB.trans h'.toExtB, h.toExtT.trans h'.toExtT, fun i m hm => h'.materials i m (h.materials i m hm)⟩

theorem readMaterial_ext {M M' : Model} (h : Ext M M') {p : Primitive} {m : GltfMaterial}
    (hr : M.readMaterial p = .ok m) : M'.readMaterial p = .ok m := by
  unfold Model.readMaterial at hr ⊢
  split_ifs at hr ⊢ with h1
  cases hv : M.materials[p.material.toNat]? with
  | none => simp [hv] at hr
  | some v =>
    rw [hv] at hr
    rw [h.materials _ _ hv]
    exact hr

theorem extractPlain_ext {M M' : Model} (h : Ext M M') {p : Primitive} {m : Mesh F32}
    (hr : extractPlain M p = .ok m) : extractPlain M' p = .ok m := by
  unfold extractPlain at hr ⊢
  obtain ⟨a, h1, hr⟩ := except_bind_ok.1 hr
  obtain ⟨b, h2, hr⟩ := except_bind_ok.1 hr
  obtain ⟨c, h3, hr⟩ := except_bind_ok.1 hr
  obtain ⟨d, h4, hr⟩ := except_bind_ok.1 hr
  obtain ⟨e, h5, hr⟩ := except_bind_ok.1 hr
  obtain ⟨f, h6, hr⟩ := except_bind_ok.1 hr
  exact except_bind_ok.2 ⟨a, readIndices_ext h.toExtB h1, except_bind_ok.2 ⟨b, h2, except_bind_ok.2
    ⟨c, readAccessor_ext h.toExtB h3, except_bind_ok.2 ⟨d, h4, except_bind_ok.2 ⟨e, readAccessor_ext h.toExtB h5,
      except_bind_ok.2 ⟨f, readMaterial_ext h h6, hr⟩⟩⟩⟩⟩⟩

theorem extractTexture_ext {M M' : Model} (h : ExtT M M') {t : ℤ} {m : Mat3b}
    (hr : M.extractTexture t = .ok m) : M'.extractTexture t = .ok m := by
  unfold Model.extractTexture at hr ⊢
  split_ifs at hr ⊢ with h1
  cases hv : M.textures[t.toNat]? with
  | none => simp [hv] at hr
  | some v =>
    rw [hv] at hr
    rw [h.textures _ _ hv]
    dsimp only at hr ⊢
    split_ifs at hr ⊢ with h2
    cases hi : M.images[v.source.toNat]? with
    | none => simp [hi] at hr
    | some w =>
      rw [hi] at hr
      rw [h.images _ _ hi]
      exact hr

theorem materialTexture_ext {M M' : Model} (h : ExtT M M') {mat : GltfMaterial} {k : String} {m : Mat3b}
    (hr : M.materialTexture mat k = .ok m) : M'.materialTexture mat k = .ok m := by
  unfold Model.materialTexture at hr ⊢
  cases hv : mat.values.get? k with
  | none => rw [hv] at hr; exact hr
  | some v =>
    rw [hv] at hr
    dsimp only at hr ⊢
    cases hi : v.num.get? "index" with
    | none => simp [hi] at hr
    | some w =>
      rw [hi] at hr
      exact extractTexture_ext h hr

theorem extractTextured_ext {M M' : Model} (h : Ext M M') {p : Primitive} {m : TexturedMesh F32 Mat3b}
    (hr : extractTextured M p = .ok m) : extractTextured M' p = .ok m := by
  unfold extractTextured at hr ⊢
  obtain ⟨a, h1, hr⟩ := except_bind_ok.1 hr
  obtain ⟨b, h2, hr⟩ := except_bind_ok.1 hr
  obtain ⟨c, h3, hr⟩ := except_bind_ok.1 hr
  obtain ⟨d, h4, hr⟩ := except_bind_ok.1 hr
  obtain ⟨e, h5, hr⟩ := except_bind_ok.1 hr
  obtain ⟨f, h6, hr⟩ := except_bind_ok.1 hr
  exact except_bind_ok.2 ⟨a, extractPlain_ext h h1, except_bind_ok.2 ⟨b, h2, except_bind_ok.2
    ⟨c, readAccessor_ext h.toExtB h3, except_bind_ok.2 ⟨d, readMaterial_ext h h4, except_bind_ok.2
      ⟨e, materialTexture_ext h.toExtT h5, except_bind_ok.2 ⟨f, materialTexture_ext h.toExtT h6, hr⟩⟩⟩⟩⟩⟩

theorem except_map_ok {ε α β : Type} {x : Except ε α} {f : α → β} {b : β} :
    x.map f = .ok b ↔ ∃ a, x = .ok a ∧ f a = b := by
  cases x <;> simp [Except.map]

theorem extractAny_ext {M M' : Model} (h : Ext M M') {p : Primitive} {m : AnyMesh}
    (hr : extractAny M p = .ok m) : extractAny M' p = .ok m := by
  unfold extractAny at hr ⊢
  split_ifs at hr ⊢ with hp
  · obtain ⟨a, h1, h2⟩ := except_map_ok.1 hr
    exact except_map_ok.2 ⟨a, extractTextured_ext h h1, h2⟩
  · obtain ⟨a, h1, h2⟩ := except_map_ok.1 hr
    exact except_map_ok.2 ⟨a, extractPlain_ext h h1, h2⟩

/-- Extraction from a model with one more primitive. -/
theorem primitiveMeshes_snoc {M M' : Model} (h : Ext M M') {p : Primitive} {l : List AnyMesh} {m : AnyMesh}
    (hp : M'.meshes.flatten = M.meshes.flatten ++ [p]) (hl : M.primitiveMeshes = .ok l) (hm : extractAny M' p = .ok m) :
    M'.primitiveMeshes = .ok (l ++ [m]) := by
  rw [primitiveMeshes_eq, mapM_ok_iff] at hl ⊢
  rw [hp]
  exact List.rel_append (hl.imp fun _ _ h' => extractAny_ext h h') (.cons hm .nil)

/-! ### Adding meshes -/

/-- The primitive made by `addPrimitiveMesh`, and what it refers to. -/
theorem addPrimitiveMesh_spec (M : Model) (mesh : Mesh F32) (hi : Indices32 mesh) :
    ∃ (v n i : ℕ) (p : Primitive), p = ⟨[("NORMAL", (n : ℤ)), ("POSITION", (v : ℤ))], M.materials.length, i, 4⟩ ∧
      (M.addPrimitiveMesh mesh).meshes = M.meshes ++ [[p]] ∧
      (M.addPrimitiveMesh mesh).materials = M.materials ++ [mesh.material] ∧
      (M.addPrimitiveMesh mesh).images = M.images ∧ (M.addPrimitiveMesh mesh).textures = M.textures ∧
      ExtB M (M.addPrimitiveMesh mesh) ∧
      (M.addPrimitiveMesh mesh).readIndices p = .ok mesh.indices ∧
      (M.addPrimitiveMesh mesh).readAccessor vec3Codec v = .ok mesh.vertices ∧
      (M.addPrimitiveMesh mesh).readAccessor vec3Codec n = .ok mesh.normals := by
  let M0 : Model := { M with
    buffers := if M.buffers.isEmpty then [[]] else M.buffers
    scenes := if M.scenes.isEmpty then [[]] else M.scenes
    defaultScene := 0 }
  let i := M0.pushData uintElement 34963 mesh.indices
  let v := i.1.pushData vec3Element 34962 mesh.vertices
  let n := v.1.pushData vec3Element 34962 mesh.normals
  have hM0 : ExtB M M0 := by
    refine ⟨fun j b hb => ?_, fun _ _ h => h, fun _ _ h => h⟩
    show ∃ s, (if M.buffers.isEmpty then [[]] else M.buffers)[j]? = some (b ++ s)
    cases hM : M.buffers with
    | nil => simp [hM] at hb
    | cons b0 bs => exact ⟨[], by rw [hM] at hb; simpa using hb⟩
  have e1 : ExtB M0 i.1 := pushData_ext _ _ _ _
  have e2 : ExtB i.1 v.1 := pushData_ext _ _ _ _
  have e3 : ExtB v.1 n.1 := pushData_ext _ _ _ _
  have e4 : ExtB n.1 (M.addPrimitiveMesh mesh) := ⟨fun j b hb => ⟨[], by rw [List.append_nil]; exact hb⟩,
    fun _ _ h => h, fun _ _ h => h⟩
  have r1 : i.1.readAccessor uintCodec i.2 = .ok mesh.indices := pushData_read uintElement uint_lawful _ _ _ hi
  have r2 : v.1.readAccessor vec3Codec v.2 = .ok mesh.vertices :=
    pushData_read vec3Element vec3_lawful _ _ _ fun _ _ => trivial
  have r3 : n.1.readAccessor vec3Codec n.2 = .ok mesh.normals :=
    pushData_read vec3Element vec3_lawful _ _ _ fun _ _ => trivial
  refine ⟨v.2, n.2, i.2, _, rfl, rfl, rfl, rfl, rfl, hM0.trans (e1.trans (e2.trans (e3.trans e4))), ?_,
    readAccessor_ext (e3.trans e4) r2, readAccessor_ext e4 r3⟩
  obtain ⟨a, ha, hc⟩ := pushData_componentType uintElement M0 34963 mesh.indices
  unfold Model.readIndices
  refine except_bind_ok.2 ⟨a, accessor_ext (e2.trans (e3.trans e4)) ha, ?_⟩
  rw [hc, if_neg (by decide)]
  exact readAccessor_ext (e2.trans (e3.trans e4)) r1

theorem readMaterial_last {M : Model} {l : List GltfMaterial} {mat : GltfMaterial} (h : M.materials = l ++ [mat])
    {p : Primitive} (hp : p.material = l.length) : M.readMaterial p = .ok mat := by
  unfold Model.readMaterial
  rw [hp, if_neg (by simp), h]
  simp

theorem addPlain_spec (M : Model) (mesh : Mesh F32) (hi : Indices32 mesh) :
    ∃ p, Ext M (M.addPrimitiveMesh mesh) ∧ (M.addPrimitiveMesh mesh).meshes.flatten = M.meshes.flatten ++ [p] ∧
      extractAny (M.addPrimitiveMesh mesh) p = .ok (.inl mesh) := by
  obtain ⟨v, n, i, p, hp, h1, h2, h3, h4, h5, h6, h7, h8⟩ := addPrimitiveMesh_spec M mesh hi
  refine ⟨p, ⟨h5, ⟨fun j m hm => by rw [h3]; exact hm, fun j m hm => by rw [h4]; exact hm⟩, fun j m hm => ?_⟩, ?_, ?_⟩
  · rw [h2]; exact getElem?_append_some hm
  · rw [h1]; simp
  · have ha : p.attributes.has "TEXCOORD_0" = false := by rw [hp]; rfl
    unfold extractAny
    rw [ha]
    refine except_map_ok.2 ⟨mesh, ?_, rfl⟩
    unfold extractPlain
    refine except_bind_ok.2 ⟨_, h6, except_bind_ok.2 ⟨v, by rw [hp]; rfl, except_bind_ok.2 ⟨_, h7,
      except_bind_ok.2 ⟨n, by rw [hp]; rfl, except_bind_ok.2 ⟨_, h8,
        except_bind_ok.2 ⟨_, readMaterial_last h2 (by rw [hp]), rfl⟩⟩⟩⟩⟩⟩

theorem toInt_natCast (n : ℕ) : Model.toInt (n : ℚ) = n := by
  simp [Model.toInt]

theorem extractTexture_addTexture (M : Model) (img : Mat3b) (h : SoundImage img) :
    (M.addTexture img).1.extractTexture (M.addTexture img).2 = .ok img := by
  unfold Model.extractTexture
  rw [if_neg (by simp)]
  have h1 : (M.addTexture img).1.textures[((M.addTexture img).2 : ℤ).toNat]? = some ⟨0, M.images.length⟩ := by
    simp [Model.addTexture]
  rw [h1]
  dsimp only
  rw [if_neg (by simp)]
  have h2 : (M.addTexture img).1.images[(M.images.length : ℤ).toNat]? =
      some ⟨"", toString M.images.length ++ ".png", img.cols, img.rows, 3, img.data, ""⟩ := by
    simp [Model.addTexture]
  rw [h2]
  dsimp only
  unfold Model.cvImageFromImage
  dsimp only
  rw [if_neg (by decide), if_neg, if_neg (by simp), if_pos rfl]
  · simp
  · unfold SoundImage at h
    rw [h]
    push_cast
    rw [not_not]
    ring

theorem addTexture_ext (M : Model) (img : Mat3b) : ExtT M (M.addTexture img).1 :=
  ⟨fun _ _ h => getElem?_append_some h, fun _ _ h => getElem?_append_some h⟩

/-- Adding one of the textures. -/
theorem addMaterialTexture_spec (M : Model) (mat : GltfMaterial) (key : String) (img : Mat3b) (hs : SoundImage img)
    (hk : key ∈ mat.values.keys ↔ img.rows * img.cols ≠ 0) :
    ∃ (M' : Model) (mat' : GltfMaterial) (t : Mat3b), M.addMaterialTexture mat key img = (M', .ok mat') ∧ ExtT M M' ∧
      M' = { M with images := M'.images, textures := M'.textures } ∧
      M'.materialTexture mat' key = .ok t ∧ SameTexture img t ∧ mat'.name = mat.name ∧
      mat'.additionalValues = mat.additionalValues ∧ (∀ k, k ∈ mat'.values.keys ↔ k ∈ mat.values.keys) ∧
      (∀ k, k ≠ key → mat'.values.get? k = mat.values.get? k) ∧
      ∀ p, mat'.values.get? key = some p → ∃ i : ℕ, p = TexturedMesh.textureParameter i := by
  unfold Model.addMaterialTexture
  by_cases he : img.rows * img.cols = 0
  · have hk' : mat.values.get? key = none := by
      rw [Dict.get?_eq_none_iff, hk, not_not]
      exact he
    rw [if_pos (by simp [Mat3b.isEmpty, he])]
    refine ⟨M, mat, .none, rfl, ExtT.refl M, rfl, ?_, Or.inr ⟨he, rfl⟩, rfl, rfl, fun _ => Iff.rfl, fun _ _ => rfl,
      fun p hp => by rw [hk'] at hp; cases hp⟩
    unfold Model.materialTexture
    rw [hk']
  · have hk' : key ∈ mat.values.keys := hk.2 he
    have hh : mat.values.has key = true := by
      rw [Dict.has_iff]
      cases hg : mat.values.get? key with
      | none => exact absurd hk' ((Dict.get?_eq_none_iff _ _).1 hg)
      | some v => exact ⟨v, rfl⟩
    rw [if_neg (by simpa [Mat3b.isEmpty] using he), if_pos hh]
    refine ⟨_, _, img, rfl, addTexture_ext M img, rfl, ?_, Or.inl rfl, rfl, rfl, fun k => ?_, fun k h => ?_,
      fun p hp => ⟨_, by rw [get?_mapSet, if_pos rfl] at hp; exact (Option.some.inj hp).symm⟩⟩
    · unfold Model.materialTexture
      rw [get?_mapSet, if_pos rfl]
      show (M.addTexture img).1.extractTexture (Model.toInt _) = _
      rw [toInt_natCast]
      exact extractTexture_addTexture M img hs
    · rw [mem_keys_mapSet]
      constructor
      · rintro (h | h)
        · rw [h]; exact hk'
        · exact h
      · exact Or.inr
    · rw [get?_mapSet, if_neg (fun e => h e.symm)]

theorem addTextured_spec (M : Model) (mesh : TexturedMesh F32 Mat3b) (hi : Indices32 mesh.toMesh)
    (hb : SoundImage mesh.baseColor) (hr : SoundImage mesh.metallicRoughness) (hm : MaterialMatches mesh) :
    ∃ (M' : Model) (p : Primitive) (mesh' : TexturedMesh F32 Mat3b), M.addTexturedPrimitiveMesh mesh = (M', .ok ()) ∧
      Ext M M' ∧ M'.meshes.flatten = M.meshes.flatten ++ [p] ∧ extractAny M' p = .ok (.inr mesh') ∧
      SameMesh (.inr mesh) (.inr mesh') := by
  obtain ⟨v, n, i, p, hp, h1, h2, h3, h4, h5, h6, h7, h8⟩ := addPrimitiveMesh_spec M mesh.toMesh hi
  let M1 := M.addPrimitiveMesh mesh.toMesh
  let u := M1.pushData vec2Element 34962 mesh.uvCoords
  have eu : ExtB M1 u.1 := pushData_ext _ _ _ _
  have ru : u.1.readAccessor vec2Codec u.2 = .ok mesh.uvCoords :=
    pushData_read vec2Element vec2_lawful _ _ _ fun _ _ => trivial
  let M2 : Model := { u.1 with meshes := M.meshes ++ [[Model.setTexCoord u.2 p]] }
  have hM2 : ({ u.1 with meshes := u.1.meshes.dropLast ++
      [((u.1.meshes.getLast?.getD []).take 1).map (Model.setTexCoord u.2)] } : Model) = M2 := by
    have : u.1.meshes = M.meshes ++ [[p]] := h1
    simp only [this, M2]
    simp
  obtain ⟨M3, mat3, t3, a1, a2, a3, a4, a5, a6, a7, a8, a9, a10⟩ :=
    addMaterialTexture_spec M2 mesh.material "baseColorTexture" mesh.baseColor hb hm.1
  obtain ⟨M4, mat4, t4, b1, b2, b3, b4, b5, b6, b7, b8, b9, b10⟩ :=
    addMaterialTexture_spec M3 mat3 "metallicRoughnessTexture" mesh.metallicRoughness hr (by rw [a8]; exact hm.2)
  let M5 : Model := { M4 with
    materials := M4.materials.dropLast ++ [mat4]
    samplers := if M4.samplers.isEmpty then [Model.defaultSampler] else M4.samplers }
  have hM5 : M.addTexturedPrimitiveMesh mesh = (M5, .ok ()) := by
    have a1' : Model.addMaterialTexture { u.1 with meshes := u.1.meshes.dropLast ++
      [((u.1.meshes.getLast?.getD []).take 1).map (Model.setTexCoord u.2)] } mesh.material "baseColorTexture" mesh.baseColor =
        (M3, .ok mat3) := by rw [hM2]; exact a1
    simp only [Model.addTexturedPrimitiveMesh]
    simp only [u, M1] at a1'
    rw [a1']
    dsimp only
    rw [b1]
  have mats : M4.materials = M.materials ++ [mesh.material] := by
    rw [b3]
    show M3.materials = _
    rw [a3]
    show u.1.materials = _
    exact h2
  have mats5 : M5.materials = M.materials ++ [mat4] := by
    show M4.materials.dropLast ++ [mat4] = _
    rw [mats]; simp
  have e24 : ExtB M2 M4 := by
    refine ⟨fun j b h => ⟨[], ?_⟩, fun j b h => ?_, fun j b h => ?_⟩ <;> rw [b3]
    · show M3.buffers[j]? = _
      rw [a3, List.append_nil]; exact h
    · show M3.bufferViews[j]? = _
      rw [a3]; exact h
    · show M3.accessors[j]? = _
      rw [a3]; exact h
  have e45 : ExtB M4 M5 := ⟨fun j b h => ⟨[], by rw [List.append_nil]; exact h⟩, fun _ _ h => h, fun _ _ h => h⟩
  have eu2 : ExtB u.1 M2 := ⟨fun j b h => ⟨[], by rw [List.append_nil]; exact h⟩, fun _ _ h => h, fun _ _ h => h⟩
  have e25 : ExtB M1 M5 := eu.trans (eu2.trans (e24.trans e45))
  have t45 : ExtT M4 M5 := ⟨fun _ _ h => h, fun _ _ h => h⟩
  have tM2 : ExtT M M2 := by
    refine ⟨fun j m h => ?_, fun j m h => ?_⟩
    · show M1.images[j]? = _
      rw [h3]; exact h
    · show M1.textures[j]? = _
      rw [h4]; exact h
  have meshes5 : M5.meshes = M.meshes ++ [[Model.setTexCoord u.2 p]] := by
    show M4.meshes = _
    rw [b3]
    show M3.meshes = _
    rw [a3]
  have pm : (Model.setTexCoord u.2 p).material = M.materials.length := by rw [hp]; rfl
  have hrm : M5.readMaterial (Model.setTexCoord u.2 p) = .ok mat4 := readMaterial_last mats5 pm
  refine ⟨M5, Model.setTexCoord u.2 p, ⟨⟨mesh.indices, mesh.vertices, mesh.normals, mat4⟩, mesh.uvCoords, t3, t4⟩, hM5,
    ⟨h5.trans e25, tM2.trans (a2.trans (b2.trans t45)), fun j m h => by rw [mats5]; exact getElem?_append_some h⟩,
    by rw [meshes5]; simp, ?_, ?_⟩
  · unfold extractAny
    have ha : (Model.setTexCoord u.2 p).attributes.has "TEXCOORD_0" = true := by
      unfold Model.setTexCoord
      rw [Dict.has_iff]
      exact ⟨_, by rw [get?_mapSet, if_pos rfl]⟩
    rw [ha]
    refine except_map_ok.2 ⟨_, ?_, rfl⟩
    unfold extractTextured
    have hpl : extractPlain M5 (Model.setTexCoord u.2 p) = .ok ⟨mesh.indices, mesh.vertices, mesh.normals, mat4⟩ := by
      unfold extractPlain
      have hidx : M1.readIndices (Model.setTexCoord u.2 p) = .ok mesh.indices := h6
      refine except_bind_ok.2 ⟨_, readIndices_ext e25 hidx, except_bind_ok.2 ⟨v, ?_, except_bind_ok.2
        ⟨_, readAccessor_ext e25 h7, except_bind_ok.2 ⟨n, ?_, except_bind_ok.2 ⟨_, readAccessor_ext e25 h8,
          except_bind_ok.2 ⟨_, hrm, rfl⟩⟩⟩⟩⟩⟩
      · unfold Model.attributeOf Model.setTexCoord
        rw [get?_mapSet, if_neg (by decide), hp]; rfl
      · unfold Model.attributeOf Model.setTexCoord
        rw [get?_mapSet, if_neg (by decide), hp]; rfl
    have hbase : M4.materialTexture mat4 "baseColorTexture" = .ok t3 := by
      have := materialTexture_ext b2 a4
      unfold Model.materialTexture at this ⊢
      rw [b9 _ (by decide)]
      exact this
    refine except_bind_ok.2 ⟨_, hpl, except_bind_ok.2 ⟨(u.2 : ℤ), ?_, except_bind_ok.2
      ⟨_, readAccessor_ext (eu2.trans (e24.trans e45)) ru, except_bind_ok.2 ⟨mat4, hrm, except_bind_ok.2
        ⟨t3, materialTexture_ext t45 hbase, except_bind_ok.2 ⟨t4, materialTexture_ext t45 b4, rfl⟩⟩⟩⟩⟩⟩
    unfold Model.attributeOf Model.setTexCoord
    rw [get?_mapSet, if_pos rfl]
  · refine .textured _ _ rfl rfl rfl rfl a5 b5 ⟨b6.trans a6, b7.trans a7, fun k => (b8 k).trans (a8 k), fun k hk => ?_,
      fun k hk q hq => ?_⟩
    · simp only [textureKeys, List.mem_cons, List.not_mem_nil, or_false, not_or] at hk
      rw [b9 k hk.2, a9 k hk.1]
    · simp only [textureKeys, List.mem_cons, List.not_mem_nil, or_false] at hk
      rcases hk with rfl | rfl
      · have hq : mat4.values.get? _ = _ := hq
        rw [b9 _ (by decide)] at hq
        exact a10 q hq
      · exact b10 q hq

theorem addMesh_spec (M : Model) {m : AnyMesh} (h : Addable m) :
    ∃ (M' : Model) (p : Primitive) (m' : AnyMesh), M.addMesh (some m) = (M', .ok ()) ∧ Ext M M' ∧
      M'.meshes.flatten = M.meshes.flatten ++ [p] ∧ extractAny M' p = .ok m' ∧ SameMesh m m' := by
  cases h with
  | plain m hi =>
    obtain ⟨p, h1, h2, h3⟩ := addPlain_spec M m hi
    exact ⟨_, p, _, rfl, h1, h2, h3, .plain m⟩
  | textured m hi hb hr hm =>
    obtain ⟨M', p, m', h1, h2, h3, h4, h5⟩ := addTextured_spec M m hi hb hr hm
    refine ⟨M', p, _, ?_, h2, h3, h4, h5⟩
    show ((M.addTexturedPrimitiveMesh m).1, unguarded (M.addTexturedPrimitiveMesh m).2) = _
    rw [h1]
    rfl

end Gltf
end Sumo
