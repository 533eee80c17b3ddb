import Verif.Lemmas.Gltf

/-! # Lemmas about updating the materials of a glTF model -/

namespace Sumo
namespace Gltf

theorem modify_append_left {α : Type} (f : α → α) (l r : List α) (i : ℕ) (h : i < l.length) :
    (l ++ r).modify i f = l.modify i f ++ r := by
  induction l generalizing i with
  | nil => simp at h
  | cons a l ih =>
    cases i with
    | zero => rfl
    | succ i => simp only [List.cons_append, List.modify_succ_cons, ih i (by simpa using h)]

theorem modify_append_right {α : Type} (f : α → α) (l r : List α) (i : ℕ) (h : l.length ≤ i) :
    (l ++ r).modify i f = l ++ r.modify (i - l.length) f := by
  induction l generalizing i with
  | nil => simp
  | cons a l ih =>
    cases i with
    | zero => simp at h
    | succ i =>
      simp only [List.cons_append, List.modify_succ_cons, ih i (by simpa using h), List.length_cons]
      congr 3
      omega

theorem modifyPrimitive_flatten (f : Primitive → Primitive) : ∀ (l : List (List Primitive)) (i : ℕ),
    (Model.modifyPrimitive f i l).flatten = l.flatten.modify i f := by
  intro l
  induction l with
  | nil => intro i; simp [Model.modifyPrimitive]
  | cons m l ih =>
    intro i
    unfold Model.modifyPrimitive
    split_ifs with h
    · rw [List.flatten_cons, List.flatten_cons, modify_append_left f _ _ _ h]
    · rw [List.flatten_cons, List.flatten_cons, modify_append_right f _ _ _ (by omega), ih]

theorem loadTexture_spec {fs : ImageFiles} {M M' : Model} {uri dir : String} {t : ℕ}
    (h : M.loadTexture fs uri dir = (M', .ok t)) :
    Ext M M' ∧ M'.meshes = M.meshes ∧ M'.materials = M.materials ∧
      ∃ bytes source img, fs.read (dir ++ "/" ++ uri) = some bytes ∧ M'.textures[t]? = some ⟨0, (source : ℕ)⟩ ∧
        M'.images[source]? = some img ∧ ∀ w h c d, fs.decode bytes = some (w, h, c, d) →
          img.width = w ∧ img.height = h ∧ img.component = c ∧ img.image = d := by
  unfold Model.loadTexture at h
  cases hr : fs.read (dir ++ "/" ++ uri) with
  | none => simp [hr] at h
  | some bytes =>
    rw [hr] at h
    cases bytes with
    | nil => simp at h
    | cons b bs =>
      simp only [Prod.mk.injEq, Except.ok.injEq] at h
      obtain ⟨hM, ht⟩ := h
      subst hM ht
      refine ⟨⟨⟨fun i b hb => ⟨[], by rw [List.append_nil]; exact hb⟩, fun _ _ h => h, fun _ _ h => h⟩,
        ⟨fun _ _ h => getElem?_append_some h, fun _ _ h => getElem?_append_some h⟩, fun _ _ h => h⟩, rfl, rfl, ?_⟩
      refine ⟨b :: bs, M.images.length, _, rfl, by simp, by simp; rfl, ?_⟩
      intro w h c d hd
      rw [hd]
      exact ⟨rfl, rfl, rfl, rfl⟩

theorem Updated.mono {fs : ImageFiles} {M M' : Model} (h : ExtT M M') {dir : String} {rgb : Vec3 ℚ} {uri : String}
    {a b : GltfMaterial} (hu : Updated fs M dir rgb uri a b) : Updated fs M' dir rgb uri a b := by
  refine ⟨hu.additional, hu.others, hu.color, fun hn => ?_, hu.noTexture, hu.noColor⟩
  obtain ⟨p, t, source, bytes, img, h1, h2, h3, h4, h5⟩ := hu.texture hn
  exact ⟨p, t, source, bytes, img, h1, h2, h.textures _ _ h3, h.images _ _ h4, h5⟩

theorem recolor_spec (a : GltfMaterial) (rgb : Vec3 ℚ) :
    (Model.recolor a rgb).additionalValues = a.additionalValues ∧
    (∀ k, k ≠ "baseColorFactor" → (Model.recolor a rgb).values.get? k = a.values.get? k) ∧
    (rgb.x ≠ 0 → rgb.y ≠ 0 → rgb.z ≠ 0 → (Model.recolor a rgb).values.get? "baseColorFactor" =
      some (Model.colorParameter rgb)) ∧
    (rgb = ⟨0, 0, 0⟩ → (Model.recolor a rgb).values.get? "baseColorFactor" = a.values.get? "baseColorFactor") := by
  unfold Model.recolor
  split_ifs with h
  · refine ⟨rfl, fun k hk => ?_, fun _ _ _ => ?_, fun h0 => ?_⟩
    · rw [get?_mapSet, if_neg (fun e => hk e.symm)]
    · rw [get?_mapSet, if_pos rfl]
    · rw [h0] at h; exact absurd rfl h.1
  · exact ⟨rfl, fun _ _ => rfl, fun h1 h2 h3 => absurd ⟨h1, h2, h3⟩ h, fun _ => rfl⟩

/-- One successful call of `updateMaterial`. -/
theorem updateMaterial_spec {fs : ImageFiles} {M M' : Model} {i : ℕ} {rgb : Vec3 ℚ} {uri dir : String}
    (h : M.updateMaterial fs i rgb uri dir = (M', .ok ())) :
    Ext M M' ∧ ∃ p a b, M.meshes.flatten[i]? = some p ∧ M.readMaterial p = .ok a ∧
      M'.meshes.flatten = M.meshes.flatten.modify i (fun p => { p with material := M.materials.length }) ∧
      M'.readMaterial { p with material := M.materials.length } = .ok b ∧ Updated fs M' dir rgb uri a b := by
  unfold Model.updateMaterial at h
  by_cases h0 : M.numPrimitiveMeshes ≤ i
  · simp [h0] at h
  rw [if_neg h0] at h
  unfold Model.getPrimitiveMesh at h
  cases hp : M.meshes.flatten[i]? with
  | none => simp [hp] at h
  | some p =>
    rw [hp] at h
    dsimp only at h
    cases hm : M.readMaterial p with
    | error e => simp [hm] at h
    | ok a =>
      rw [hm] at h
      dsimp only at h
      obtain ⟨r1, r2, r3, r4⟩ := recolor_spec a rgb
      split_ifs at h with hu
      · have hu' : uri ≠ "" := fun e => by rw [e] at hu; exact hu rfl
        cases ht : M.loadTexture fs uri dir with
        | mk M1 r =>
          rw [ht] at h
          cases r with
          | error e => simp at h
          | ok t =>
            simp only [Prod.mk.injEq, and_true] at h
            obtain ⟨e1, e2, e3, bytes, source, img, b1, b2, b3, b4⟩ := loadTexture_spec ht
            subst h
            refine ⟨e1.trans ⟨⟨fun i b hb => ⟨[], by rw [List.append_nil]; exact hb⟩, fun _ _ h => h, fun _ _ h => h⟩,
              ⟨fun _ _ h => h, fun _ _ h => h⟩, fun _ _ h => getElem?_append_some h⟩, p, a, _, rfl, hm, ?_,
              readMaterial_last rfl (by rw [e3]), ?_⟩
            · show (Model.modifyPrimitive _ i M1.meshes).flatten = _
              rw [modifyPrimitive_flatten, e2, e3]
            · refine ⟨r1, fun k h1 h2 => ?_, fun h1 h2 h3 => ⟨Model.colorParameter rgb, ?_, rfl⟩, fun _ =>
                ⟨TexturedMesh.textureParameter t, t, source, bytes, img, ?_, rfl, b2, b3, b1, b4⟩,
                fun e => absurd e hu', fun e => ?_⟩
              · show Dict.get? (mapSet _ _ _) k = _
                rw [get?_mapSet, if_neg (fun e => h2 e.symm), r2 k h1]
              · show Dict.get? (mapSet _ _ _) _ = _
                rw [get?_mapSet, if_neg (by decide), r3 h1 h2 h3]
              · show Dict.get? (mapSet _ _ _) _ = _
                rw [get?_mapSet, if_pos rfl]
              · show Dict.get? (mapSet _ _ _) _ = _
                rw [get?_mapSet, if_neg (by decide), r4 e]
      · simp only [Prod.mk.injEq, and_true] at h
        subst h
        have hu' : uri = "" := by
          rw [not_not, String.length_eq_zero_iff] at hu
          exact hu
        refine ⟨⟨⟨fun i b hb => ⟨[], by rw [List.append_nil]; exact hb⟩, fun _ _ h => h, fun _ _ h => h⟩,
          ⟨fun _ _ h => h, fun _ _ h => h⟩, fun _ _ h => getElem?_append_some h⟩, p, a, _, rfl, hm, ?_,
          readMaterial_last rfl rfl, ?_⟩
        · show (Model.modifyPrimitive _ i M.meshes).flatten = _
          rw [modifyPrimitive_flatten]
        · exact ⟨r1, fun k h1 _ => r2 k h1, fun h1 h2 h3 => ⟨_, r3 h1 h2 h3, rfl⟩, fun e => absurd hu' e,
            fun _ => r2 _ (by decide), r4⟩

/-- What a call of `update_materials` may do to the primitive with number `j`: `u` is the entry of the list for it. -/
def PrimUpdated (fs : ImageFiles) (M M' : Model) (dir : String) (u : Option (Option Model.MaterialUpdate))
    (p p' : Primitive) : Prop :=
  p'.attributes = p.attributes ∧ p'.indices = p.indices ∧ p'.mode = p.mode ∧
  match u with
  | none => p' = p
  | some none => p' = p
  | some (some u) => ∃ rgb uri a b, u.color = some rgb ∧ u.uri = some uri ∧ M.readMaterial p = .ok a ∧
      M'.readMaterial p' = .ok b ∧ Updated fs M' dir rgb uri a b

theorem updateStep_spec {fs : ImageFiles} {M M' : Model} {i : ℕ} {dir : String} {u : Option Model.MaterialUpdate}
    (h : M.updateStep fs dir i u = (M', .ok ())) :
    Ext M M' ∧ M'.meshes.flatten.length = M.meshes.flatten.length ∧
      (∀ j p, j ≠ i → M.meshes.flatten[j]? = some p → M'.meshes.flatten[j]? = some p) ∧
      (∀ p, M.meshes.flatten[i]? = some p → ∃ p', M'.meshes.flatten[i]? = some p' ∧
        PrimUpdated fs M M' dir (some u) p p') := by
  unfold Model.updateStep at h
  split_ifs at h with hi
  · cases u with
    | none =>
      simp only [Prod.mk.injEq, and_true] at h
      subst h
      exact ⟨Ext.refl M, rfl, fun _ _ _ h => h, fun p hp => ⟨p, hp, rfl, rfl, rfl, rfl⟩⟩
    | some u =>
      dsimp only at h
      cases hc : u.color with
      | none => simp [hc] at h
      | some rgb =>
        cases hu : u.uri with
        | none => simp [hc, hu] at h
        | some uri =>
          rw [hc, hu] at h
          dsimp only at h
          have h := unguarded_snd_ok h
          obtain ⟨e, p, a, b, h1, h2, h3, h4, h5⟩ := updateMaterial_spec h
          refine ⟨e, by rw [h3, List.length_modify], fun j q hj hq => ?_, fun q hq => ?_⟩
          · rw [h3, List.getElem?_modify, hq]
            simp [Ne.symm hj]
          · rw [h1] at hq
            simp only [Option.some.injEq] at hq
            subst hq
            refine ⟨{ p with material := M.materials.length }, ?_, rfl, rfl, rfl, rgb, uri, a, b, hc, hu, h2, h4, h5⟩
            rw [h3, List.getElem?_modify, h1]
            simp
  · simp only [Prod.mk.injEq, and_true] at h
    subst h
    refine ⟨Ext.refl M, rfl, fun _ _ _ h => h, fun p hp => ?_⟩
    rw [numPrimitiveMeshes_eq] at hi
    exact absurd (List.getElem?_eq_some_iff.1 hp).1 hi

theorem updateFrom_spec {fs : ImageFiles} {dir : String} : ∀ (l : List (Option Model.MaterialUpdate)) (M M' : Model)
    (i : ℕ), Model.updateFrom fs dir M i l = (M', .ok ()) →
    Ext M M' ∧ M'.meshes.flatten.length = M.meshes.flatten.length ∧
      (∀ j p, j < i → M.meshes.flatten[j]? = some p → M'.meshes.flatten[j]? = some p) ∧
      (∀ (j : ℕ) (p : Primitive) (a : GltfMaterial), M.meshes.flatten[i + j]? = some p → M.readMaterial p = .ok a →
        ∃ p', M'.meshes.flatten[i + j]? = some p' ∧ PrimUpdated fs M M' dir l[j]? p p') := by
  intro l
  induction l with
  | nil =>
    intro M M' i h
    simp only [Model.updateFrom, Prod.mk.injEq, and_true] at h
    subst h
    exact ⟨Ext.refl M, rfl, fun _ _ _ h => h, fun j p _ hp _ => ⟨p, hp, rfl, rfl, rfl, rfl⟩⟩
  | cons u l ih =>
    intro M M' i h
    unfold Model.updateFrom at h
    cases hs : M.updateStep fs dir i u with
    | mk M1 r =>
      rw [hs] at h
      cases r with
      | error e => simp at h
      | ok x =>
        dsimp only at h
        obtain ⟨a1, a2, a3, a4⟩ := updateStep_spec hs
        obtain ⟨b1, b2, b3, b4⟩ := ih M1 M' (i + 1) h
        refine ⟨a1.trans b1, b2.trans a2, fun j p hj hp => b3 j p (by omega) (a3 j p (by omega) hp), ?_⟩
        intro j p a0 hp ha0
        cases j with
        | zero =>
          obtain ⟨p1, q1, q2, q3, q4, q5⟩ := a4 p (by simpa using hp)
          refine ⟨p1, b3 i p1 (by omega) q1, q2, q3, q4, ?_⟩
          cases u with
          | none => exact q5
          | some u =>
            obtain ⟨rgb, uri, a, b, c1, c2, c3, c4, c5⟩ := q5
            exact ⟨rgb, uri, a, b, c1, c2, c3, readMaterial_ext b1 c4, c5.mono b1.toExtT⟩
        | succ j =>
          have hp1 := a3 (i + (j + 1)) p (by omega) hp
          rw [show i + (j + 1) = i + 1 + j by omega] at hp1 ⊢
          obtain ⟨p', q1, q2, q3, q4, q5⟩ := b4 j p a0 hp1 (readMaterial_ext a1 ha0)
          refine ⟨p', q1, q2, q3, q4, ?_⟩
          rw [List.getElem?_cons_succ]
          cases hl : l[j]? with
          | none => rw [hl] at q5; exact q5
          | some w =>
            rw [hl] at q5
            cases w with
            | none => exact q5
            | some w =>
              obtain ⟨rgb, uri, a, b, c1, c2, c3, c4, c5⟩ := q5
              have : a0 = a := by
                have h6 := readMaterial_ext a1 ha0
                rw [c3] at h6
                simpa using h6.symm
              exact ⟨rgb, uri, a, b, c1, c2, this ▸ ha0, c4, c5⟩

end Gltf
end Sumo
