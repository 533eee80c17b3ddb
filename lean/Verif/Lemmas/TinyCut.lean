import Verif.Lemmas.TinyHistory

/-! # Lemmas: files that were cut off, and models that cannot be loaded -/

namespace Sumo
namespace Gltf

/-! ### The size of the file -/

/-- The size of the body. -/
theorem body_size {M : Model} (hi : GoodImages 0 M.images) {L : Loader} {pics : List Written}
    (hp : List.Forall₂ (Picture L) M.images pics) (W : Writer) (root : String) (d : List UInt8) :
    bodySize root (filesOf W M root d pics) = (pad4 d ++ bodyOf pics).length := by
  have hnd := filesOf_nodup hi hp W root d
  have hb : (root ++ ".bin") ≠ (root ++ ".gltf") := by
    intro e
    unfold filesOf at hnd
    rw [List.map_cons, List.map_cons, List.nodup_cons] at hnd
    exact hnd.1 (e ▸ List.mem_cons_self)
  have hpn : ∀ w ∈ pics, w.1 ≠ (root ++ ".gltf") := by
    intro w hw e
    unfold filesOf at hnd
    rw [List.map_cons, List.map_cons, List.nodup_cons, List.nodup_cons] at hnd
    exact hnd.2.1 (List.mem_map.2 ⟨w, hw, e⟩)
  have hf : (filesOf W M root d pics).filter (fun w => w.1 ≠ root ++ ".gltf") = (root ++ ".bin", d) :: pics := by
    unfold filesOf
    rw [List.filter_cons_of_pos (by simp), List.filter_cons_of_neg (by simp), List.filter_eq_self.2]
    intro w hw
    simpa using hpn w hw
  unfold bodySize
  rw [hf, List.map_cons, List.sum_cons, List.length_append]
  have key : ∀ d : List UInt8, (d.length + 3) / 4 * 4 = (pad4 d).length := by
    intro d
    rw [length_pad4]
    unfold align4
    omega
  congr 1
  · exact key d
  · unfold bodyOf
    rw [List.length_flatten, List.map_map]
    congr 1
    exact List.map_congr_left fun w _ => key w.2

/-! ### Files that were cut off -/

theorem uintAt_take {b : List UInt8} {n k : ℕ} (h : k + 4 ≤ n) : uintAt (b.take n) k = uintAt b k := by
  unfold uintAt uintCodec
  dsimp only
  have key : ∀ i < 4, ((b.take n).drop k).getD i 0 = (b.drop k).getD i 0 := by
    intro i hi
    rw [List.getD_eq_getElem?_getD, List.getD_eq_getElem?_getD, List.getElem?_drop, List.getElem?_drop, List.getElem?_take,
      if_pos (by omega)]
  simp only [key 0 (by decide), key 1 (by decide), key 2 (by decide), key 3 (by decide)]

theorem loadBinary_cut {L : Loader} {header : List UInt8} {enc : BodyEncoder} {b : List UInt8} (h : exportString header enc = .ok b)
    (hl : enc.length = enc.bytes.length) (hh : header ≠ []) {n : ℕ} (hn : n < b.length) :
    (n < 20 + (pad4 header).length → loadBinary L (b.take n) = ({}, .error .ioError)) ∧
    (20 + (pad4 header).length ≤ n → loadBinary L (b.take n) =
      loadDocument L (some (enc.bytes.take (n - (28 + (pad4 header).length)), 8 + enc.length)) (pad4 header)) := by
  obtain ⟨hlt, hb⟩ := export_bytes h
  have le : ∀ n, (uintCodec.enc n).length = 4 := fun _ => rfl
  have hlen : b.length = 28 + (pad4 header).length + enc.length := by
    rw [hb]; simp only [List.length_append, le]; omega
  have hpos : 0 < (pad4 header).length := by
    have := (align4_spec header.length).2.1
    have h0 : header.length ≠ 0 := fun e => hh (List.length_eq_zero_iff.1 e)
    rw [length_pad4]; omega
  have d4 : ∀ (n k : ℕ) (l : List UInt8), (uintCodec.enc n ++ l).drop (4 + k) = l.drop k := fun n k l => by
    rw [← List.drop_drop]; rfl
  have u8 : uintAt b 8 = 28 + (pad4 header).length + enc.length := by
    unfold uintAt
    rw [hb, d4 _ 4, d4 _ 0, List.drop_zero, dec_enc_append hlt]
  have u12 : uintAt b 12 = (pad4 header).length := by
    unfold uintAt
    rw [hb, d4 _ 8, d4 _ 4, d4 _ 0, List.drop_zero, dec_enc_append (by omega)]
  have u16 : uintAt b 16 = 0x4E4F534A := by
    unfold uintAt
    rw [hb, d4 _ 12, d4 _ 8, d4 _ 4, d4 _ 0, List.drop_zero, dec_enc_append (by decide)]
  have t4 : b.take 4 = [103, 108, 84, 70] := by rw [hb]; rfl
  have d20 : b.drop 20 = pad4 header ++ (uintCodec.enc enc.length ++ (uintCodec.enc 0x004E4942 ++ enc.bytes)) := by
    rw [hb, d4 _ 16, d4 _ 12, d4 _ 8, d4 _ 4, d4 _ 0, List.drop_zero]
  have d28 : b.drop (28 + (pad4 header).length) = enc.bytes := by
    rw [show 28 + (pad4 header).length = 20 + ((pad4 header).length + 8) by omega, ← List.drop_drop, d20, ← List.drop_drop,
      List.drop_left, d4 _ 4, d4 _ 0, List.drop_zero]
  have htl : (b.take n).length = n := by rw [List.length_take]; omega
  refine ⟨fun hm => ?_, fun hm => ?_⟩
  · unfold loadBinary
    rw [htl, Nat.mod_eq_of_lt (show n < 2 ^ 32 by omega)]
    dsimp only
    by_cases h20 : n < 20
    · rw [if_pos (by omega)]
    · rw [if_neg (by omega), List.take_take, min_eq_left (by omega), if_neg (by rw [t4]; simp)]
      simp only [uintAt_take (b := b) (n := n) (k := 12) (by omega), u12]
      rw [if_pos (Or.inl (by rw [Nat.mod_eq_of_lt (by omega)]; exact hm))]
  · unfold loadBinary
    rw [htl, Nat.mod_eq_of_lt (show n < 2 ^ 32 by omega)]
    dsimp only
    rw [if_neg (by omega), List.take_take, min_eq_left (by omega), if_neg (by rw [t4]; simp)]
    simp only [uintAt_take (b := b) (n := n) (k := 12) (by omega), uintAt_take (b := b) (n := n) (k := 8) (by omega),
      uintAt_take (b := b) (n := n) (k := 16) (by omega), u8, u12, u16]
    rw [if_neg (by rw [Nat.mod_eq_of_lt (by omega)]; omega), if_neg (by omega), List.drop_take, List.drop_take, d20, d28]
    rw [show List.take (pad4 header).length (List.take (n - 20) (pad4 header ++ (uintCodec.enc enc.length ++
      (uintCodec.enc 0x004E4942 ++ enc.bytes)))) = pad4 header by
        rw [List.take_take, min_eq_left (by omega), List.take_left]]
    congr 3
    omega

theorem loadDocument_bad_buffer {L : Loader} {bin bin' : Option (List UInt8 × ℕ)} {text : List UInt8} {N : Model}
    (h : loadDocument L bin text = (N, .ok ())) {v o : Fields ℚ} {e : PyErr}
    (hparse : L.parse text = some (.obj v)) (hv : v.get? "buffers" = some (.arr [.obj o])) (ho : parseBuffer L bin' o = .error e) :
    loadDocument L bin' text = ({}, .error e) := by
  unfold loadDocument at h ⊢
  split_ifs at h ⊢ with h1
  · cases h
  rw [hparse] at h ⊢
  dsimp only at h ⊢
  split_ifs at h ⊢ with h2
  rotate_left
  · cases h
  have : parseSection v "buffers" (fun _ => parseBuffer L bin') (fun M b => { M with buffers := M.buffers ++ [b] }) {} =
      ({}, .error e) := by
    unfold parseSection
    rw [hv]
    dsimp only
    simp only [parseEach, ho]
  simp only [this, Loading.andThen]

/-- Loading the beginning of an exported file. -/
theorem loadGlb_cut {W : Writer} {L : Loader} {f : Number → Option ℚ} {round : ℚ → ℚ} (hF : Faithful W L f round) {M : Model}
    (hM : Good M) {root : String} {v : Fields ℚ} {enc : BodyEncoder} {d : List UInt8} {pics : List Written}
    (hE : Exported W L f M root v enc d pics) {b : List UInt8} (hb : exportString (W.dumps (.obj v)) enc = .ok b)
    (h31 : b.length < 2 ^ 31) (hne : pad4 d ++ bodyOf pics ≠ []) {n : ℕ} (hn : n < b.length) :
    loadGlb L (some (b.take n)) = .error (if n < 20 + (pad4 (W.dumps (.obj v))).length then .ioError else .undefined) := by
  have hh : W.dumps (.obj v) ≠ [] := by
    intro e
    have := hE.header
    rw [e] at this
    simp at this
  have hpad : 4 ≤ (pad4 (W.dumps (.obj v))).length := by
    rw [length_pad4]
    exact hE.header.trans (align4_spec _).2.1
  obtain ⟨b1, -, -⟩ := loadBinary_export (L := L) hb (by rw [hE.length, hE.bytes]) hh
  obtain ⟨c1, c2⟩ := loadBinary_cut (L := L) hb (by rw [hE.length, hE.bytes]) hh hn
  have htl : (b.take n).length = n := by rw [List.length_take]; omega
  unfold loadGlb
  by_cases h0 : n = 0
  · subst h0
    rw [if_pos (by omega)]
    rfl
  · rw [readWhole_ok (b := b.take n) (by intro e; rw [e] at htl; simp at htl; omega) (by omega)]
    dsimp only
    split_ifs with h
    · rw [c1 h]
      rfl
    · rw [c2 (by omega)]
      obtain ⟨N, res, out, n1, -⟩ := loadDocument_glb hF hM hE.buffers hE.pictures hE.doc hpad hE.parse
        (size := 8 + enc.length) (by rw [hE.length]; omega) hne
      obtain ⟨o, o1, o2, o3⟩ := hE.doc.buffers
      have hbuf : parseBuffer L (some (enc.bytes.take (n - (28 + (pad4 (W.dumps (.obj v))).length)), 8 + enc.length)) o =
          .error .undefined := by
        have n1 : numberOf o "byteLength" = some (((pad4 d ++ bodyOf pics).length : ℕ) : ℚ) := by
          unfold numberOf; rw [o3]
          show Json.number? (.int _) = _
          rw [number?_int]
          norm_cast
        have n2 : stringOf o "uri" = none := by unfold stringOf; rw [o2]
        unfold parseBuffer
        rw [n1, n2]
        simp only [Option.getD_none, toNat_toInt_natCast, ne_eq, not_true, if_false]
        have hl : (pad4 d ++ bodyOf pics).length ≠ 0 := fun e => hne (List.length_eq_zero_iff.1 e)
        have hle := hE.length
        rw [if_neg (by omega), if_neg (by rw [not_lt]; exact_mod_cast (by omega)), if_neg hl, if_neg]
        rw [List.length_take]
        omega
      rw [loadDocument_bad_buffer n1 hE.parse o1 hbuf]
      rfl

/-! ### Materials without contents -/

theorem Loading.andThen_ok {r : Loading} {k : Model → Loading} {N : Model} (h : r.andThen k = (N, .ok ())) :
    ∃ M, r = (M, .ok ()) ∧ k M = (N, .ok ()) := by
  unfold Loading.andThen at h
  obtain ⟨M, x⟩ := r
  cases x with
  | error e => cases h
  | ok u => exact ⟨M, rfl, h⟩

theorem parseEach_null {α : Type} {parse : Model → Fields ℚ → Except PyErr α} {add : Model → α → Model} {l : List (Json ℚ)}
    (h : .null ∈ l) (M N : Model) : parseEach parse add M l ≠ (N, .ok ()) := by
  induction l generalizing M with
  | nil => simp at h
  | cons j l ih =>
    intro e
    cases j with
    | obj o =>
      unfold parseEach at e
      cases hp : parse M o with
      | error x => rw [hp] at e; cases e
      | ok a =>
        rw [hp] at e
        exact ih (by simpa using h) _ e
    | _ => cases e

theorem loadDocument_bad_material {L : Loader} {bin : Option (List UInt8 × ℕ)} {text : List UInt8} {v : Fields ℚ} {l : List (Json ℚ)}
    (hparse : L.parse text = some (.obj v)) (hv : v.get? "materials" = some (.arr l)) (hl : .null ∈ l) (N : Model) :
    loadDocument L bin text ≠ (N, .ok ()) := by
  intro h
  unfold loadDocument at h
  split_ifs at h with h1
  · cases h
  rw [hparse] at h
  dsimp only at h
  split_ifs at h with h2
  rotate_left
  · cases h
  obtain ⟨_, h, _⟩ := Loading.andThen_ok h
  obtain ⟨_, h, _⟩ := Loading.andThen_ok h
  obtain ⟨_, h, _⟩ := Loading.andThen_ok h
  obtain ⟨_, _, h⟩ := Loading.andThen_ok h
  unfold parseSection at h
  rw [hv] at h
  exact parseEach_null hl _ _ h

theorem null_material {f : Number → Option ℚ} {junk : Bool} {bin : String} {M : Model} (hM : Writable M)
    (hm : (⟨"", [], []⟩ : GltfMaterial) ∈ M.materials) :
    ∃ l, Dict.get? (Json.printFields f (writeDocument junk bin M)) "materials" = some (.arr l) ∧ .null ∈ l := by
  obtain ⟨d, hd⟩ := hM.buffers
  obtain ⟨-, -, -, -, g, -⟩ := document_get junk bin M hM.someAccessors hM.someViews (by rw [hd]; simp)
  refine ⟨(M.materials.map (writeMaterial junk)).map (Json.print f), ?_, ?_⟩
  · rw [get?_printFields, g, if_pos (List.ne_nil_of_mem hm), Option.map_some, print_arr]
  · exact List.mem_map.2 ⟨.null, List.mem_map.2 ⟨_, hm, rfl⟩, rfl⟩

theorem loadGltf_bad_material {W : Writer} {L : Loader} {f : Number → Option ℚ} {round : ℚ → ℚ} (hF : Faithful W L f round) {M : Model}
    (hM : Writable M) (hm : (⟨"", [], []⟩ : GltfMaterial) ∈ M.materials) (bin : String) (N : Model) :
    loadGltf L (some (W.dump (.obj (writeDocument W.junk bin M)) ++ [10])) ≠ .ok N := by
  have hp := hF.parse _ (wf_obj.2 (document_wf (junk := W.junk) (bin := bin) hM))
  obtain ⟨l, h1, h2⟩ := null_material (f := f) (junk := W.junk) (bin := bin) hM hm
  rw [print_obj] at hp
  unfold loadGltf
  generalize hr : readWhole (some (W.dump (.obj (writeDocument W.junk bin M)) ++ [10])) = t
  cases t with
  | none => simp
  | some t =>
    have : t = W.dump (.obj (writeDocument W.junk bin M)) ++ [10] := by
      unfold readWhole at hr
      dsimp only at hr
      split_ifs at hr
      exact (Option.some.inj hr).symm
    subst this
    dsimp only
    cases hl : loadDocument L none (W.dump (.obj (writeDocument W.junk bin M)) ++ [10]) with
    | mk K r =>
      cases r with
      | error e => simp
      | ok u => exact absurd hl (loadDocument_bad_material hp h1 h2 K)

theorem loadGlb_bad_material {W : Writer} {L : Loader} {f : Number → Option ℚ} {M : Model} (hM : Writable M)
    (hm : (⟨"", [], []⟩ : GltfMaterial) ∈ M.materials) {root : String} {v : Fields ℚ} {enc : BodyEncoder} {d : List UInt8}
    {pics : List Written} (hE : Exported W L f M root v enc d pics) {b : List UInt8}
    (hb : exportString (W.dumps (.obj v)) enc = .ok b) (N : Model) : loadGlb L (some b) ≠ .ok N := by
  have hh : W.dumps (.obj v) ≠ [] := by
    intro e
    have := hE.header
    rw [e] at this
    simp at this
  obtain ⟨l, h1, h2⟩ := null_material (f := f) (junk := W.junk) (bin := root ++ ".bin") hM hm
  rw [← hE.doc.other "materials" (by decide) (by decide) (by decide)] at h1
  obtain ⟨b1, b2, b3⟩ := loadBinary_export (L := L) hb (by rw [hE.length, hE.bytes]) hh
  unfold loadGlb
  generalize hr : readWhole (some b) = t
  cases t with
  | none => simp
  | some t =>
    have : t = b := by
      unfold readWhole at hr
      dsimp only at hr
      split_ifs at hr
      exact (Option.some.inj hr).symm
    subst this
    dsimp only
    rw [b3]
    generalize hl : loadDocument L _ _ = K
    obtain ⟨K, r⟩ := K
    cases r with
    | error e =>
      cases e
      case ioError =>
        dsimp only
        generalize Model.setURIsFrom ".png" 0 K.images = u
        obtain ⟨i, u⟩ := u
        cases u <;> simp
      all_goals simp
    | ok u => exact absurd hl (loadDocument_bad_material hE.parse h1 h2 K)

theorem four_of_length {l : List UInt8} (h : 4 ≤ l.length) : ∃ c0 c1 c2 c3 t, l = c0 :: c1 :: c2 :: c3 :: t := by
  match l, h with
  | c0 :: c1 :: c2 :: c3 :: t, _ => exact ⟨c0, c1, c2, c3, t, rfl⟩

/-! ### What saving changes -/

theorem picture_name {L : Loader} {i : ℕ} {imgs : List Image} {pics : List Written} (h : GoodImages i imgs)
    (hp : List.Forall₂ (Picture L) imgs pics) : ∀ w ∈ pics, ∃ k : ℕ, w.1 = toString k ++ ".png" := by
  induction hp generalizing i with
  | nil => simp
  | cons h1 _ ih =>
    cases h with
    | cons g1 g2 =>
      intro w hw
      rcases List.mem_cons.1 hw with rfl | hw
      · exact ⟨i, h1.1.trans g1.uri⟩
      · exact ih g2 w hw

theorem forall₂_same_uri (l : List Image) : List.Forall₂ (fun a b : Image => ∃ uri, b = { a with uri := uri }) l l := by
  induction l with
  | nil => exact .nil
  | cons a l ih => exact .cons ⟨a.uri, rfl⟩ ih

theorem updateImages_uri {i : ℕ} {l l' : List Image} (h : updateImages i l = .ok l') :
    List.Forall₂ (fun a b : Image => ∃ uri, b = { a with uri := uri }) l l' := by
  induction l generalizing i l' with
  | nil => cases h; exact .nil
  | cons a l ih =>
    unfold updateImages at h
    obtain ⟨b, h1, h⟩ := except_bind_ok.1 h
    obtain ⟨r, h2, h⟩ := except_bind_ok.1 h
    cases h
    refine .cons ?_ (ih h2)
    unfold updateImage at h1
    dsimp only at h1
    split_ifs at h1
    · cases h1; exact ⟨_, rfl⟩
    · cases h1; exact ⟨a.uri, rfl⟩

theorem primitiveMeshes_uri {M : Model} {images : List Image}
    (h : List.Forall₂ (fun a b : Image => ∃ uri, b = { a with uri := uri }) M.images images) :
    ({ M with images := images } : Model).primitiveMeshes = M.primitiveMeshes := by
  have htex : ∀ t, ({ M with images := images } : Model).extractTexture t = M.extractTexture t := by
    intro t
    unfold Model.extractTexture
    split_ifs
    · rfl
    · dsimp only
      cases M.textures[t.toNat]? with
      | none => rfl
      | some x =>
        dsimp only
        split_ifs
        · rfl
        · cases hx : M.images[x.source.toNat]? with
          | none =>
            have hlen := List.Forall₂.length_eq h
            rw [List.getElem?_eq_none_iff] at hx
            rw [List.getElem?_eq_none_iff.2 (by omega)]
          | some a =>
            obtain ⟨b, h1, uri, rfl⟩ := Forall₂.getElem? h hx
            rw [h1]
            rfl
  have hmat : ∀ m k, ({ M with images := images } : Model).materialTexture m k = M.materialTexture m k := by
    intro m k
    unfold Model.materialTexture
    simp only [htex]
  have hany : ∀ p, extractAny ({ M with images := images } : Model) p = extractAny M p := by
    intro p
    have hpl : extractPlain ({ M with images := images } : Model) p = extractPlain M p := rfl
    unfold extractAny extractTextured
    simp only [hpl, hmat]
    rfl
  rw [primitiveMeshes_eq, primitiveMeshes_eq, funext hany]

/-- A mesh with the default material can be added and the model written. -/
theorem addPrimitiveMesh_writable {M : Model} (hM : M = {} ∨ Good M) {mesh : Mesh F32} (hm : mesh.material = ⟨"", [], []⟩) :
    Writable (M.addPrimitiveMesh mesh) ∧ (⟨"", [], []⟩ : GltfMaterial) ∈ (M.addPrimitiveMesh mesh).materials := by
  have hs : Storable ⟨"x", [], []⟩ :=
    ⟨Or.inl (by decide), fun e he => by simp at he, fun e he => by simp at he, by simp [Ordered], by simp [Ordered],
      fun k hk => by simp [Dict.keys] at hk, fun h => absurd h (by decide)⟩
  have hg := addPrimitiveMesh_good (mesh := { mesh with material := ⟨"x", [], []⟩ }) hM hs
  have e : (M.addPrimitiveMesh mesh).materials = M.materials ++ [⟨"", [], []⟩] := by rw [← hm]; rfl
  refine ⟨⟨hg.buffers, hg.views, hg.someViews, hg.accessors, hg.someAccessors, hg.meshes, hg.scenes, fun junk m h => ?_, hg.images,
    hg.textures⟩, by rw [e]; simp⟩
  rw [e, List.mem_append, List.mem_singleton] at h
  rcases h with h | rfl
  · rcases hM with rfl | hM
    · simp at h
    · exact wf_writeMaterial (hM.materials m h) junk
  · exact trivial

theorem saveGltf_keeps (W : Writer) (M : Model) (dirs : List String) (old : String → Bool) (root : String) :
    ∃ images, (saveGltf W dirs old M root).1 = { M with images := images } ∧
      List.Forall₂ (fun a b : Image => ∃ uri, b = { a with uri := uri }) M.images images ∧
      (saveGltf W dirs old M root).1.primitiveMeshes = M.primitiveMeshes := by
  unfold saveGltf
  cases hw : writeGltfScene W dirs M root with
  | error e => exact ⟨M.images, rfl, forall₂_same_uri _, rfl⟩
  | ok r =>
    obtain ⟨M', written⟩ := r
    unfold writeGltfScene at hw
    obtain ⟨images, h1, h2⟩ := except_bind_ok.1 hw
    cases h2
    have hu := updateImages_uri h1
    dsimp only
    split_ifs
    · exact ⟨images, rfl, hu, primitiveMeshes_uri hu⟩
    · exact ⟨images, rfl, hu, primitiveMeshes_uri hu⟩

end Gltf
end Sumo
