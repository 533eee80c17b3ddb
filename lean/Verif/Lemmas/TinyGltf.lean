import Verif.Lemmas.TinyDocument

/-! # Lemmas: reading the files written by `save_as_gltf` -/

namespace Sumo
namespace Gltf

theorem readWhole_ok {b : List UInt8} (h1 : b ≠ []) (h2 : b.length < 2 ^ 31) : readWhole (some b) = some b := by
  unfold readWhole
  have : b.length ≠ 0 := fun e => h1 (List.length_eq_zero_iff.1 e)
  dsimp only
  rw [if_neg (by omega), if_neg this]

theorem loadImageData_ok {L : Loader} {img : Image} {x : Mat3b} {bytes : List UInt8} (h : Holds img x) (img' : Image)
    (hd : L.decode bytes = some (x.cols, x.rows, 3, x.data)) :
    ∃ r, loadImageData L img' 0 0 bytes = .ok r ∧ r.uri = img'.uri ∧ Holds r x := by
  have hp := h.pixels
  have h1 : x.rows ≠ 0 := fun e => hp (by rw [e, Nat.zero_mul])
  have h2 : x.cols ≠ 0 := fun e => hp (by rw [e, Nat.mul_zero])
  refine ⟨{ img' with width := x.cols, height := x.rows, component := 3, image := x.data }, ?_, rfl,
    ⟨rfl, rfl, rfl, rfl, h.sound, h.pixels⟩⟩
  unfold loadImageData
  rw [hd]
  dsimp only
  split_ifs <;> first | rfl | omega

/-- An image of a document next to its files. -/
theorem parseImage_file {L : Loader} {f : Number → Option ℚ} {i : ℕ} {img : Image} {w : Written} (hi : GoodImage i img)
    (hw : Picture L img w) (hf : L.file w.1 = some w.2) (hs : w.2.length < 2 ^ 31) (M : Model) :
    ∃ o r, (writeImage img).print f = .obj o ∧ parseImage L M o = .ok r ∧ r.uri = img.uri ∧ ∀ x, Holds img x → Holds r x := by
  obtain ⟨h1, h2, x, hx, hd⟩ := hw
  obtain ⟨o, e1, e2, e3⟩ := image_fields img
  have hb : Dict.has (Json.printFields f o) "bufferView" = false := by
    rw [Bool.eq_false_iff, Ne, Dict.has_iff, get?_printFields, e3]; simp
  have hu : Dict.has (Json.printFields f o) "uri" = true := by
    rw [Dict.has_iff, get?_printFields, e3]; simp
  have hus : stringOf (Json.printFields f o) "uri" = some img.uri := by rw [stringOf_print, e3]; simp
  obtain ⟨r, hr, hru, hrx⟩ := loadImageData_ok (bytes := w.2) hx
    ⟨(stringOf (Json.printFields f o) "name").getD "", img.uri, L.uninit.1, L.uninit.2.1, L.uninit.2.2, [], ""⟩
    (by simpa using hd 0)
  refine ⟨Json.printFields f o, r, by rw [e1, print_obj], ?_, hru, fun y hy => ?_⟩
  · unfold parseImage
    dsimp only
    have hne : img.uri ≠ "" := by
      rw [hi.uri]; unfold pngName; intro e; have := congrArg String.toList e; simp at this
    rw [hb, hu, if_neg (by decide), if_neg (by decide), hus]
    dsimp only
    rw [if_neg (by rw [isDataUri_plain (fun h => (pngName_chars (i := i) (hi.uri ▸ h)).1 rfl)]; decide)]
    have : loadExternal L img.uri none = some w.2 := by
      unfold loadExternal
      rw [if_neg hne, ← h1, hf, readWhole_ok h2 hs]
    rw [this]
    exact hr
  · have : y = x := by
      have := hy.cvImage
      rw [hx.cvImage] at this
      exact (Except.ok.inj this).symm
    rw [this]
    exact hrx

theorem images_file {L : Loader} {f : Number → Option ℚ} {M : Model} : ∀ {i : ℕ} {imgs : List Image} {pics : List Written},
    GoodImages i imgs → List.Forall₂ (Picture L) imgs pics → (∀ w ∈ pics, L.file w.1 = some w.2 ∧ w.2.length < 2 ^ 31) →
    ∃ res, Reads (parseImage L M) ((imgs.map writeImage).map (Json.print f)) res ∧
      List.Forall₂ (fun a b => ∀ x, Holds a x → Holds b x) imgs res ∧ GoodImages i res := by
  intro i imgs pics hg hp
  induction hp generalizing i with
  | nil => intro _; exact ⟨[], .nil, .nil, .nil _⟩
  | @cons img w imgs pics h1 _ ih =>
    intro hf
    cases hg with
    | cons g1 g2 =>
      obtain ⟨res, a1, a2, a3⟩ := ih g2 fun w hw => hf w (List.mem_cons_of_mem _ hw)
      obtain ⟨hf1, hf2⟩ := hf w List.mem_cons_self
      obtain ⟨o, r, b1, b2, b3, b4⟩ := parseImage_file (f := f) g1 h1 hf1 hf2 M
      obtain ⟨x, hx⟩ := g1.holds
      exact ⟨r :: res, .cons ⟨o, b1, b2⟩ a1, .cons b4 a2, .cons ⟨b3.trans g1.uri, x, b4 x hx⟩ a3⟩

theorem buffer_fields (bin : String) (d : List UInt8) : ∃ o : Fields Number, writeBuffer bin d = .obj o ∧ WfO o ∧
    o.get? "byteLength" = some (.int d.length) ∧ o.get? "uri" = some (.str bin) := by
  refine ⟨_, rfl, by wfo, ?_, ?_⟩ <;> simp [get?_mapSet]

/-- The one buffer of a document next to its file. -/
theorem parseBuffer_file {L : Loader} {f : Number → Option ℚ} {bin : String} {d : List UInt8} (hs : '/' ∉ bin.toList)
    (hne : bin ≠ "") (hf : L.file bin = some d) :
    ∃ o, (writeBuffer bin d).print f = .obj o ∧
      parseBuffer L none o = match readWhole (some d) with | none => .error .ioError | some b => .ok b := by
  obtain ⟨o, e1, e2, e3, e4⟩ := buffer_fields bin d
  refine ⟨Json.printFields f o, by rw [e1, print_obj], ?_⟩
  have h1 : numberOf (Json.printFields f o) "byteLength" = some (d.length : ℚ) := by
    rw [numberOf_print, e3]; exact number?_print_int f _
  have h2 : stringOf (Json.printFields f o) "uri" = some bin := by rw [stringOf_print, e4]
  unfold parseBuffer
  rw [h1, h2]
  simp only [Option.getD_some, toNat_toInt_natCast, isDataUri_plain hs, Bool.false_eq_true, if_false]
  unfold loadExternal
  rw [if_neg hne, hf]
  cases hr : readWhole (some d) with
  | none => rfl
  | some b =>
    have : b = d := by
      unfold readWhole at hr
      dsimp only at hr
      split_ifs at hr
      exact (Option.some.inj hr).symm
    simp [this]

theorem loadDocument_no_buffer {L : Loader} {bin : Option (List UInt8 × ℕ)} {text : List UInt8} {v : Fields ℚ} {o : Fields ℚ} {e : PyErr}
    (hparse : L.parse text = some (.obj v)) (hv : v.get? "buffers" = some (.arr [.obj o])) (ho : parseBuffer L bin o = .error e) :
    ∃ e', (loadDocument L bin text).2 = .error e' ∧ (e' = e ∨ e' = .ioError) := by
  unfold loadDocument
  split_ifs with h
  · exact ⟨_, rfl, Or.inr rfl⟩
  · rw [hparse]
    dsimp only
    split_ifs with h'
    · have : parseSection v "buffers" (fun _ => parseBuffer L bin) (fun M b => { M with buffers := M.buffers ++ [b] }) {} =
          ({}, .error e) := by
        unfold parseSection
        rw [hv]
        simp only [parseEach, ho]
      simp only [this, Loading.andThen]
      exact ⟨_, rfl, Or.inl rfl⟩
    · exact ⟨_, rfl, Or.inr rfl⟩

theorem filesOf_text_ne {W : Writer} {M : Model} {root : String} : W.dump (.obj (writeDocument W.junk (root ++ ".bin") M)) ++ [10] ≠ [] := by
  simp

theorem document_ne {junk : Bool} {bin : String} {M : Model} (hM : Good M) : writeDocument junk bin M ≠ [] := by
  obtain ⟨d, hd⟩ := hM.buffers
  intro h
  have := (document_get junk bin M hM.someAccessors hM.someViews (by rw [hd]; simp)).1
  rw [h] at this
  cases this

theorem loadGltf_good {W : Writer} {L : Loader} {f : Number → Option ℚ} {round : ℚ → ℚ} (hF : Faithful W L f round) {M : Model}
    (hM : Good M) {d : List UInt8} (hd : M.buffers = [d]) {root : String} (hr : RootName root) {pics : List Written}
    (hp : List.Forall₂ (Picture L) M.images pics)
    (hfile : ∀ w ∈ filesOf W M root d pics, L.file w.1 = some w.2 ∧ w.2.length < 2 ^ 31) (hne : d ≠ []) :
    ∃ N, loadGltf L (L.file (root ++ ".gltf")) = .ok N ∧ Kept round M N := by
  have f1 := hfile _ (List.mem_cons_self (a := (root ++ ".bin", d)))
  have f2 := hfile (root ++ ".gltf", W.dump (.obj (writeDocument W.junk (root ++ ".bin") M)) ++ [10])
    (List.mem_cons_of_mem _ List.mem_cons_self)
  have f3 : ∀ w ∈ pics, L.file w.1 = some w.2 ∧ w.2.length < 2 ^ 31 := fun w hw =>
    hfile w (List.mem_cons_of_mem _ (List.mem_cons_of_mem _ hw))
  obtain ⟨r1, r2, r3, r4, r5, r6, r7, mats, r8, r9⟩ := document_reads hF hM W.junk (root ++ ".bin")
  obtain ⟨g1, g2, g3, g4, -⟩ := document_get W.junk (root ++ ".bin") M hM.someAccessors hM.someViews (by rw [hd]; simp)
  obtain ⟨res, i1, i2, i3⟩ := images_file (f := f) (M := { buffers := M.buffers, bufferViews := M.bufferViews }) hM.images hp f3
  have hbn : (root ++ ".bin") ≠ "" := by
    intro e; have := congrArg String.toList e; simp at this
  obtain ⟨bo, b1, b2⟩ := parseBuffer_file (L := L) (f := f) (hr.noSlash (s := ".bin") (by decide)) hbn f1.1
  rw [readWhole_ok hne f1.2] at b2
  have hwf := document_wf (junk := W.junk) (bin := root ++ ".bin") hM.writable
  let N : Model := { M with accessors := M.accessors.map (backAccessor f), materials := mats, images := res }
  have hload : loadDocument L none (W.dump (.obj (writeDocument W.junk (root ++ ".bin") M)) ++ [10]) = (N, .ok ()) := by
    refine loadDocument_ok (v := Json.printFields f (writeDocument W.junk (root ++ ".bin") M)) ?_ ?_ ?_ ?_ r1 r2 r3 r4 r5 r8 ?_
      r6 r7 ?_ hM.someViews (by simpa [N] using hM.someAccessors) hM.someNodes hM.someScenes
    · have := hF.dumpLength _ (document_ne (junk := W.junk) (bin := root ++ ".bin") hM)
      rw [List.length_append]
      omega
    · have := hF.parse _ (wf_obj.2 hwf)
      rwa [print_obj] at this
    · right
      refine ⟨[(writeBuffer (root ++ ".bin") d).print f], ?_, ?_⟩
      · rw [get?_printFields, g2, hd, Option.map_some, print_arr]
        rfl
      · show Reads _ _ M.buffers
        rw [hd]
        exact .cons ⟨bo, b1, b2⟩ .nil
    · rw [get?_printFields, g3]
      have hv := readsSection_written (reads_same (f := f) (g := id) fun a ha => parse_view f (hM.views a ha))
      rw [if_pos hM.someViews, List.map_id] at hv
      exact hv
    · rw [get?_printFields, g4]
      exact readsSection_written i1
    · show M.buffers ≠ []
      rw [hd]; simp
  refine ⟨N, ?_, ?_⟩
  · unfold loadGltf
    rw [f2.1, readWhole_ok (by simp) f2.2]
    dsimp only
    rw [hload]
  · exact ⟨⟨d, [], hd, by rw [List.append_nil]; exact hd⟩, ⟨[], by simp [N], by simp⟩, ⟨f, rfl⟩, rfl, rfl, rfl, rfl, rfl, r9, i2, i3⟩

/-- Without data the file of the buffer is empty, and loading fails. -/
theorem loadGltf_empty {W : Writer} {L : Loader} {f : Number → Option ℚ} {round : ℚ → ℚ} (hF : Faithful W L f round) {M : Model}
    (hM : Good M) (hd : M.buffers = [[]]) {root : String} (hr : RootName root)
    (hb : L.file (root ++ ".bin") = some []) {text : List UInt8}
    (ht : text = W.dump (.obj (writeDocument W.junk (root ++ ".bin") M)) ++ [10]) :
    loadGltf L (some text) = .error .ioError := by
  obtain ⟨g1, g2, -⟩ := document_get W.junk (root ++ ".bin") M hM.someAccessors hM.someViews (by rw [hd]; simp)
  have hbn : (root ++ ".bin") ≠ "" := by
    intro e; have := congrArg String.toList e; simp at this
  obtain ⟨bo, b1, b2⟩ := parseBuffer_file (L := L) (f := f) (hr.noSlash (s := ".bin") (by decide)) hbn hb
  have hwf := document_wf (junk := W.junk) (bin := root ++ ".bin") hM.writable
  have hparse : L.parse text = some (.obj (Json.printFields f (writeDocument W.junk (root ++ ".bin") M))) := by
    have := hF.parse _ (wf_obj.2 hwf)
    rw [print_obj] at this
    rw [ht]
    exact this
  have hv : Dict.get? (Json.printFields f (writeDocument W.junk (root ++ ".bin") M)) "buffers" = some (.arr [.obj bo]) := by
    rw [get?_printFields, g2, hd, Option.map_some, print_arr, ← b1]
    rfl
  obtain ⟨e, h1, h2⟩ := loadDocument_no_buffer hparse hv (bin := none) (e := .ioError) (by rw [b2]; rfl)
  have he : e = .ioError := by rcases h2 with h | h <;> exact h
  subst he
  unfold loadGltf
  cases hw : readWhole (some text) with
  | none => rfl
  | some t =>
    have : t = text := by
      unfold readWhole at hw
      dsimp only at hw
      split_ifs at hw
      exact (Option.some.inj hw).symm
    subst this
    dsimp only
    cases hl : loadDocument L none t with
    | mk N r =>
      rw [hl] at h1
      dsimp only at h1 ⊢
      subst h1
      rfl

end Gltf
end Sumo
