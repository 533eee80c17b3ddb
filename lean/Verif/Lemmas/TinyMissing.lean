import Verif.Lemmas.TinyHistory

/-! # Lemmas: folders from which files are missing -/

namespace Sumo
namespace Gltf

/-- The buffer of a document whose file is missing or has another size. -/
theorem parseBuffer_other {L : Loader} {f : Number → Option ℚ} {bin : String} {d : List UInt8} (hs : '/' ∉ bin.toList)
    (hf : ∀ b, L.file bin = some b → b.length ≠ d.length) :
    ∃ o, (writeBuffer bin d).print f = .obj o ∧ parseBuffer L none o = .error .ioError := by
  obtain ⟨o, e1, e2, e3, e4⟩ := buffer_fields bin d
  refine ⟨Json.printFields f o, by rw [e1, print_obj], ?_⟩
  have h1 : numberOf (Json.printFields f o) "byteLength" = some (d.length : ℚ) := by
    rw [numberOf_print, e3]; exact number?_print_int f _
  have h2 : stringOf (Json.printFields f o) "uri" = some bin := by rw [stringOf_print, e4]
  unfold parseBuffer
  rw [h1, h2]
  simp only [Option.getD_some, toNat_toInt_natCast, isDataUri_plain hs, Bool.false_eq_true, if_false]
  unfold loadExternal
  split_ifs with hne
  · rfl
  · cases hr : readWhole (L.file bin) with
    | none => rfl
    | some b =>
      have : L.file bin = some b := by
        unfold readWhole at hr
        cases hl : L.file bin with
        | none => rw [hl] at hr; cases hr
        | some c =>
          rw [hl] at hr
          dsimp only at hr
          split_ifs at hr
          exact hr
      dsimp only
      rw [if_neg (Ne.symm (hf b this))]

theorem loadGltf_other_buffer {W : Writer} {L : Loader} {f : Number → Option ℚ} {round : ℚ → ℚ} (hF : Faithful W L f round) {M : Model}
    (hM : Good M) {d : List UInt8} (hd : M.buffers = [d]) {root : String} (hr : RootName root)
    (hb : ∀ b, L.file (root ++ ".bin") = some b → b.length ≠ d.length) {text : List UInt8}
    (ht : text = W.dump (.obj (writeDocument W.junk (root ++ ".bin") M)) ++ [10]) :
    loadGltf L (some text) = .error .ioError := by
  obtain ⟨g1, g2, -⟩ := document_get W.junk (root ++ ".bin") M hM.someAccessors hM.someViews (by rw [hd]; simp)
  obtain ⟨bo, b1, b2⟩ := parseBuffer_other (L := L) (f := f) (hr.noSlash (s := ".bin") (by decide)) hb
  have hwf := document_wf (junk := W.junk) (bin := root ++ ".bin") hM.writable
  have hparse : L.parse text = some (.obj (Json.printFields f (writeDocument W.junk (root ++ ".bin") M))) := by
    have := hF.parse _ (wf_obj.2 hwf)
    rw [print_obj] at this
    rw [ht]
    exact this
  have hv : Dict.get? (Json.printFields f (writeDocument W.junk (root ++ ".bin") M)) "buffers" = some (.arr [.obj bo]) := by
    rw [get?_printFields, g2, hd, Option.map_some, print_arr, ← b1]
    rfl
  obtain ⟨e, h1, h2⟩ := loadDocument_no_buffer hparse hv (bin := none) (e := .ioError) b2
  have he : e = .ioError := by rcases h2 with h | h <;> exact h
  subst he
  unfold loadGltf
  cases hw : readWhole (some text) with
  | none => rfl
  | some t =>
    have : t = text := by
      unfold readWhole at hw
      dsimp only at hw
      split_ifs at hw
      exact (Option.some.inj hw).symm
    subst this
    dsimp only
    cases hl : loadDocument L none t with
    | mk N r =>
      rw [hl] at h1
      dsimp only at h1 ⊢
      subst h1
      rfl

/-- A picture whose file is missing. -/
theorem parseImage_missing {L : Loader} {f : Number → Option ℚ} {i : ℕ} {img : Image} (hi : GoodImage i img)
    (hf : L.file img.uri = none) (M : Model) :
    ∃ o, (writeImage img).print f = .obj o ∧
      parseImage L M o = .ok ⟨img.name, img.uri, L.uninit.1, L.uninit.2.1, L.uninit.2.2, [], ""⟩ := by
  obtain ⟨o, e1, e2, e3⟩ := image_fields img
  have hb : Dict.has (Json.printFields f o) "bufferView" = false := by
    rw [Bool.eq_false_iff, Ne, Dict.has_iff, get?_printFields, e3]; simp
  have hu : Dict.has (Json.printFields f o) "uri" = true := by
    rw [Dict.has_iff, get?_printFields, e3]; simp
  have hus : stringOf (Json.printFields f o) "uri" = some img.uri := by rw [stringOf_print, e3]; simp
  have hname : (stringOf (Json.printFields f o) "name").getD "" = img.name := by
    rw [stringOf_print, e3]
    by_cases h : img.name = "" <;> simp [h]
  refine ⟨Json.printFields f o, by rw [e1, print_obj], ?_⟩
  unfold parseImage
  dsimp only
  have hne : img.uri ≠ "" := by
    rw [hi.uri]; unfold pngName; intro e; have := congrArg String.toList e; simp at this
  rw [hb, hu, if_neg (by decide), if_neg (by decide), hus]
  dsimp only
  rw [if_neg (by rw [isDataUri_plain (fun h => (pngName_chars (i := i) (hi.uri ▸ h)).1 rfl)]; decide)]
  have : loadExternal L img.uri none = none := by
    unfold loadExternal
    rw [if_neg hne, hf]
    rfl
  rw [this, hname]

theorem images_missing {L : Loader} {f : Number → Option ℚ} {M : Model} : ∀ {i : ℕ} {imgs : List Image},
    GoodImages i imgs → (∀ img ∈ imgs, L.file img.uri = none) →
    Reads (parseImage L M) ((imgs.map writeImage).map (Json.print f))
      (imgs.map fun img => ⟨img.name, img.uri, L.uninit.1, L.uninit.2.1, L.uninit.2.2, [], ""⟩) := by
  intro i imgs hg
  induction hg with
  | nil => intro _; exact .nil
  | cons g1 _ ih =>
    intro hf
    exact .cons (parseImage_missing g1 (hf _ List.mem_cons_self) M) (ih fun w hw => hf w (List.mem_cons_of_mem _ hw))

theorem GoodImages.uri_of_mem {i : ℕ} {imgs : List Image} (h : GoodImages i imgs) {img : Image} (hi : img ∈ imgs) :
    ∃ k : ℕ, img.uri = toString k ++ ".png" := by
  induction h with
  | nil => simp at hi
  | cons g1 _ ih =>
    rcases List.mem_cons.1 hi with rfl | hi
    · exact ⟨_, g1.uri⟩
    · exact ih hi

theorem loadGltf_no_pictures {W : Writer} {L : Loader} {f : Number → Option ℚ} {round : ℚ → ℚ} (hF : Faithful W L f round) {M : Model}
    (hM : Good M) {d : List UInt8} (hd : M.buffers = [d]) {root : String} (hr : RootName root)
    (hbin : L.file (root ++ ".bin") = some d) (hsmall : d.length < 2 ^ 31)
    (htext : (W.dump (.obj (writeDocument W.junk (root ++ ".bin") M)) ++ [10]).length < 2 ^ 31)
    (hno : ∀ img ∈ M.images, L.file img.uri = none) (hne : d ≠ []) :
    ∃ N, loadGltf L (some (W.dump (.obj (writeDocument W.junk (root ++ ".bin") M)) ++ [10])) = .ok N ∧
      N.images = M.images.map fun img => ⟨img.name, img.uri, L.uninit.1, L.uninit.2.1, L.uninit.2.2, [], ""⟩ := by
  obtain ⟨r1, r2, r3, r4, r5, r6, r7, mats, r8, r9⟩ := document_reads hF hM W.junk (root ++ ".bin")
  obtain ⟨g1, g2, g3, g4, -⟩ := document_get W.junk (root ++ ".bin") M hM.someAccessors hM.someViews (by rw [hd]; simp)
  have i1 := images_missing (f := f) (M := { buffers := M.buffers, bufferViews := M.bufferViews }) hM.images hno
  have hbn : (root ++ ".bin") ≠ "" := by
    intro e; have := congrArg String.toList e; simp at this
  obtain ⟨bo, b1, b2⟩ := parseBuffer_file (L := L) (f := f) (hr.noSlash (s := ".bin") (by decide)) hbn hbin
  rw [readWhole_ok hne hsmall] at b2
  have hwf := document_wf (junk := W.junk) (bin := root ++ ".bin") hM.writable
  let N : Model := { M with accessors := M.accessors.map (backAccessor f), materials := mats,
                            images := M.images.map fun img => ⟨img.name, img.uri, L.uninit.1, L.uninit.2.1, L.uninit.2.2, [], ""⟩ }
  have hload : loadDocument L none (W.dump (.obj (writeDocument W.junk (root ++ ".bin") M)) ++ [10]) = (N, .ok ()) := by
    refine loadDocument_ok (v := Json.printFields f (writeDocument W.junk (root ++ ".bin") M)) ?_ ?_ ?_ ?_ r1 r2 r3 r4 r5 r8 ?_
      r6 r7 ?_ hM.someViews (by simpa [N] using hM.someAccessors) hM.someNodes hM.someScenes
    · have := hF.dumpLength _ (document_ne (junk := W.junk) (bin := root ++ ".bin") hM)
      rw [List.length_append]
      omega
    · have := hF.parse _ (wf_obj.2 hwf)
      rwa [print_obj] at this
    · right
      refine ⟨[(writeBuffer (root ++ ".bin") d).print f], ?_, ?_⟩
      · rw [get?_printFields, g2, hd, Option.map_some, print_arr]
        rfl
      · show Reads _ _ M.buffers
        rw [hd]
        exact .cons ⟨bo, b1, b2⟩ .nil
    · rw [get?_printFields, g3]
      have hv := readsSection_written (reads_same (f := f) (g := id) fun a ha => parse_view f (hM.views a ha))
      rw [if_pos hM.someViews, List.map_id] at hv
      exact hv
    · rw [get?_printFields, g4]
      exact readsSection_written i1
    · show M.buffers ≠ []
      rw [hd]; simp
  refine ⟨N, ?_, rfl⟩
  unfold loadGltf
  rw [readWhole_ok (by simp) htext]
  dsimp only
  rw [hload]

end Gltf
end Sumo
