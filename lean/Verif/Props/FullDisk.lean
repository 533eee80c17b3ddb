import Verif.Model.FullDisk
import Verif.Props.Ply
import Verif.Props.Tiff
import Verif.Props.TinyGltf

/-! # A save that returns has written everything: C154 -/

namespace Sumo

/-! ### PLY -/

namespace Ply

open Spec

variable {K : Type} [Zero K]

/-- **C154** (PLY, the part that holds).  `write_ply` of a consistent cloud returns, whether there is room or not; the file
holds as much of the PLY text as there is room for, hence everything if there is room for everything.  Other files stay
as they are.

Missing from C154: the caller is not told if there was no room (`C154_ply_false`). -/
theorem C154_ply_partial (C : SingleCodec K) (narrow : K → K) (hC : SingleCodec.Lawful C narrow) (c : PointCloud K)
    (hc : ConsistentCloud c) (v : Volume) (name : String) :
    ∃ v' b, writePlyOn C c v name = (v', .ok ()) ∧
      b = bytes (cloudContent C c.points (if c.colors = [] then none else some c.colors)) ∧
      v'.file name = some (b.take (v.room name)) ∧ (b.length ≤ v.room name → v'.file name = some b) ∧
      ∀ n, n ≠ name → v'.file n = v.file n := by
  refine ⟨_, _, by unfold writePlyOn; rw [C101_written C narrow hC c hc]; rfl, rfl, ?_, fun h => ?_, fun n hn => ?_⟩
  · simp [Volume.store]
  · simp [Volume.store, List.take_of_length_le h]
  · simp [Volume.store, hn]

/-- **C154 is false of the code** (PLY): if there is room for the header and a part of the points, `write_ply` returns, and
`load_ply` reads the file without an error: all its points have the same single number for coordinates. -/
theorem C154_ply_false (C : SingleCodec K) (narrow : K → K) (hC : SingleCodec.Lawful C narrow) (ascii : Reader)
    (scratch : Bytes) (hs : scratch.length = 128) (ps : List (Vec3 K)) (hn : ps.length < 2 ^ 64) (v : Volume) (name : String)
    (h1 : v.room name < (bytes (cloudContent C ps none)).length)
    (h2 : (bytes (cloudContent C ps none)).length ≤ v.room name + 12 * ps.length) :
    ∃ v' b x, writePlyOn C ⟨ps, []⟩ v name = (v', .ok ()) ∧ v'.file name = some b ∧
      b.length < (bytes (cloudContent C ps none)).length ∧
      loadPly C ascii scratch (some b) = .ok ⟨List.replicate ps.length ⟨x, x, x⟩, []⟩ := by
  obtain ⟨v', b, e1, e2, e3, -⟩ := C154_ply_partial C narrow hC ⟨ps, []⟩ (Or.inl rfl) v name
  have e2' : b = bytes (cloudContent C ps none) := e2
  subst e2'
  obtain ⟨x, hx⟩ := C103_truncated_false C narrow hC ascii scratch hs ps hn
    ((bytes (cloudContent C ps none)).length - v.room name) (by omega) (by omega)
  refine ⟨v', _, x, e1, e3, by rw [List.length_take]; omega, ?_⟩
  rw [← hx]
  congr 3
  omega

/-- A disk with room for the header and half of the points. -/
example : ∃ v : Volume, v.room "a.ply" < (bytes (cloudContent exCodec [⟨1, 2, 3⟩, ⟨4, 5, 6⟩] none)).length ∧
    (bytes (cloudContent exCodec [⟨1, 2, 3⟩, ⟨4, 5, 6⟩] none)).length ≤ v.room "a.ply" + 12 * 2 ∧ v.free ≠ 0 :=
  ⟨⟨(bytes (cloudContent exCodec [⟨1, 2, 3⟩, ⟨4, 5, 6⟩] none)).length - 12, fun _ => none⟩, by decide +kernel, by decide +kernel,
    by decide +kernel⟩

end Ply

/-! ### TIFF -/

namespace Tiff

variable {K : Type} [Field K] [LinearOrder K] [FloorRing K]

/-- **C154** (TIFF, the part that holds).  If libtiff stores what it is told to, saving does what it should (`save`, of which
C71 and C153 speak).

Missing from C154: the caller is not told if it does not (`C154_tiff_false`). -/
theorem C154_tiff_partial (stored : List (Page K) → Option (List (Page K))) (ρ : Rounding K) (writable : String → Bool)
    (files : TiffFiles K) (images : Dict String (NpImage K)) (path : String) (near : K)
    (h : ∀ pages, stored pages = some pages) :
    saveOn stored ρ writable files images path near = save ρ writable files images path near := by
  unfold saveOn save writeRgbdTiffOn writeRgbdTiff
  cases validate images with
  | error e => rfl
  | ok u =>
    dsimp only
    cases saveLoop ρ near (fun _ => none) images with
    | error e => rfl
    | ok pm => simp only [h]

/-- **C154 is false of the code** (TIFF): whether saving returns does not depend on what libtiff could store.  If it could store
nothing, saving returns as if nothing had happened, and loading the file fails. -/
theorem C154_tiff_false (ρ : Rounding K) (writable : String → Bool) (files : TiffFiles K) (images : Dict String (NpImage K))
    (path : String) (near : K) (h : (save ρ writable files images path near).2 = .ok ()) :
    (∀ stored, (saveOn stored ρ writable files images path near).2 = .ok ()) ∧
      ∃ stored, load ρ (saveOn stored ρ writable files images path near).1 path = .error .runtimeError := by
  have key : ∃ pm, ∀ stored, saveOn stored ρ writable files images path near =
      (fun p => if p = path then stored (pagesOf pm (ρ.f32 near)) else files p, .ok ()) := by
    unfold save at h
    unfold saveOn
    cases h1 : validate images with
    | error e => rw [h1] at h; cases h
    | ok u =>
      rw [h1] at h
      dsimp only at h ⊢
      cases h2 : saveLoop ρ near (fun _ => none) images with
      | error e => rw [h2] at h; cases h
      | ok pm =>
        rw [h2] at h
        refine ⟨pm, fun stored => ?_⟩
        dsimp only at h ⊢
        unfold writeRgbdTiff at h
        unfold writeRgbdTiffOn
        split_ifs at h ⊢
        rfl
  obtain ⟨pm, hpm⟩ := key
  refine ⟨fun stored => by rw [hpm], fun _ => none, ?_⟩
  rw [hpm]
  unfold load readRgbdTiff
  simp [bind, Except.bind]

example : (save (Rounding.exact ℚ) (fun _ => true) (fun _ => none) exImages "a.tiff" (3 / 10)).2 = .ok () := by
  simp [save, validate, exImages, Dict.get, Dict.get?, saveLoop, saveStep, writeRgbdTiff, PageMap.put, bind, Except.bind]

end Tiff

/-! ### glTF and GLB -/

namespace Gltf

variable {W : Writer} {L : Loader} {printed : Number → Option ℚ} {round : ℚ → ℚ} {M : Model} {l : List AnyMesh}

theorem storeAll_file : ∀ (l : List Written) (v : Volume), (l.map fun w => w.2.length).sum ≤ v.free →
    (storeAll v l).file = lastWritten l v.file
  | [], _, _ => rfl
  | w :: l, v, h => by
    rw [List.map_cons, List.sum_cons] at h
    have hr : w.2.length ≤ v.room w.1 := by unfold Volume.room; omega
    have := storeAll_file l (v.store w.1 w.2) (by simp only [Volume.store, Volume.room]; omega)
    unfold storeAll at this ⊢
    rw [List.foldl_cons, this]
    simp only [lastWritten, Volume.store, List.take_of_length_le hr]

/-- **C154** (glTF, the part that holds).  `save_as_gltf` returns or raises as it would with any amount of room, and leaves the
model the same; if there is room for everything it writes, the files are complete.

Missing from C154: the caller is not told if there is no room (`C154_gltf_false`). -/
theorem C154_gltf_partial (W : Writer) (f : Folder) (free : ℕ) (M : Model) (root : String) :
    (saveAsGltfOn W f.dirs ⟨free, f.file⟩ M root).1 = (saveAsGltf W (some f) M root).1 ∧
    (saveAsGltfOn W f.dirs ⟨free, f.file⟩ M root).2.2 = (saveAsGltf W (some f) M root).2.2 ∧
    (((saveGltf W f.dirs (fun n => (f.file n).isSome) M root).2.1.map fun w => w.2.length).sum ≤ free →
      (saveAsGltf W (some f) M root).2.1 = some ⟨(saveAsGltfOn W f.dirs ⟨free, f.file⟩ M root).2.1.file, f.dirs⟩) := by
  refine ⟨rfl, rfl, fun h => ?_⟩
  show some _ = some _
  rw [show (saveAsGltfOn W f.dirs ⟨free, f.file⟩ M root).2.1.file = _ from storeAll_file _ ⟨free, f.file⟩ h]

theorem storeAll_full : ∀ (l : List Written) (v : Volume), v.free = 0 → (∀ n b, v.file n = some b → b = []) →
    (storeAll v l).free = 0 ∧ ∀ n b, (storeAll v l).file n = some b → b = []
  | [], _, h, h' => ⟨h, h'⟩
  | w :: l, v, h, h' => by
    have hr : v.room w.1 = 0 := by
      unfold Volume.room
      rw [h]
      cases hf : v.file w.1 with
      | none => rfl
      | some b => rw [h' _ _ hf]; rfl
    refine storeAll_full l (v.store w.1 w.2) (by simp [Volume.store, hr]) fun n b hb => ?_
    simp only [Volume.store, hr, List.take_zero] at hb
    split_ifs at hb with hn
    · exact (Option.some.inj hb).symm
    · exact h' n b hb

theorem storeAll_keeps : ∀ (l : List Written) (v : Volume) (n : String), ((storeAll v l).file n).isSome = true ↔
    (v.file n).isSome = true ∨ n ∈ l.map Prod.fst
  | [], v, n => by simp [storeAll]
  | w :: l, v, n => by
    have := storeAll_keeps l (v.store w.1 w.2) n
    unfold storeAll at this ⊢
    rw [List.foldl_cons, this]
    simp only [Volume.store, List.map_cons, List.mem_cons]
    by_cases hn : n = w.1
    · simp [hn]
    · simp [hn]

/-- **C154 is false of the code** (glTF): on a full disk, `save_as_gltf` into an empty folder returns whenever it would with
room; all the files it leaves are empty, and the document cannot be loaded. -/
theorem C154_gltf_false (W : Writer) (L : Loader) (dirs : List String) (M : Model) (root : String)
    (h : (saveAsGltf W (some ⟨fun _ => none, dirs⟩) M root).2.2 = .ok ()) :
    ∃ M' v, saveAsGltfOn W dirs ⟨0, fun _ => none⟩ M root = (M', v, .ok ()) ∧ v.file (root ++ ".gltf") = some [] ∧
      (∀ n b, v.file n = some b → b = []) ∧ loadGltf L (v.file (root ++ ".gltf")) = .error .ioError := by
  have h' : (saveGltf W dirs (fun _ => false) M root).2.2 = .ok () := h
  obtain ⟨-, hall⟩ := storeAll_full (saveGltf W dirs (fun _ => false) M root).2.1 ⟨0, fun _ => none⟩ rfl
    (fun n b hb => by cases hb)
  have hmem : root ++ ".gltf" ∈ (saveGltf W dirs (fun _ => false) M root).2.1.map Prod.fst := by
    unfold saveGltf at h' ⊢
    cases hw : writeGltfScene W dirs M root with
    | error e => rw [hw] at h'; cases h'
    | ok r =>
      rw [hw] at h'
      dsimp only at h' ⊢
      split_ifs at h' ⊢ with hc
      · rw [Bool.and_eq_true, not_and] at hc
        have := hc rfl
        simp only [Bool.not_eq_true', Bool.not_eq_false, List.contains_iff_mem] at this
        rw [List.map_append]
        exact List.mem_append_left _ this
  have hsome := (storeAll_keeps (saveGltf W dirs (fun _ => false) M root).2.1 ⟨0, fun _ => none⟩ (root ++ ".gltf")).2
    (Or.inr hmem)
  obtain ⟨b, hb⟩ := Option.isSome_iff_exists.1 hsome
  have hb' : b = [] := hall _ _ hb
  subst hb'
  have e : saveAsGltfOn W dirs ⟨0, fun _ => none⟩ M root = ((saveGltf W dirs (fun _ => false) M root).1,
      storeAll ⟨0, fun _ => none⟩ (saveGltf W dirs (fun _ => false) M root).2.1, .ok ()) := by
    rw [← h']
    rfl
  refine ⟨_, _, e, hb, hall, ?_⟩
  rw [hb]
  rfl

example : (saveAsGltf exWriter (some ⟨fun _ => none, []⟩) tinyModel "room").2.2 = .ok () := by
  obtain ⟨ms, f', -, h2, -⟩ := C122_partial exFaithful (tinyModel_history exWriter exLoader) tinyModel_geometry
    (root := "room") ⟨by decide, by decide⟩ ⟨fun _ => none, []⟩
  rw [h2]

/-- What is assumed about texts that were cut off: no beginning of the text of an object is a JSON text (the last brace is
missing); the text without the newline after it is the same document. -/
structure CutTexts (W : Writer) : Prop where
  beginning : ∀ o k, k < (W.dump (.obj o)).length → W.loads ((W.dump (.obj o)).take k) = none
  newline : ∀ o, W.loads (W.dump (.obj o)) = W.loads (W.dump (.obj o) ++ [10])

/-- **C154** (GLB, the bundle).  If `save_as_glb` returns, the file is a complete GLB file: nothing of the bundle is missing.
If there is no room for it, an `IOError` is raised; other files stay as they are. -/
theorem C154_glb_bundle {temp : ℕ} {v v' : Volume} {name : String} (h : saveAsGlbOn W M temp v name = (v', .ok ())) :
    (∃ header body b, exportString header body = .ok b ∧ v'.file name = some b ∧ b.length ≤ v.room name) ∧
      ∀ n, n ≠ name → v'.file n = v.file n := by
  unfold saveAsGlbOn at h
  split_ifs at h with hx
  · cases h
  · split at h
    · cases h
    · split at h
      · cases h
      · unfold exportOn at h
        split at h
        · cases h
        · rename_i header body hc _ b hb
          unfold Volume.pyWrite at h
          split_ifs at h with hr
          · cases h
            refine ⟨⟨header, body, b, hb, ?_, hr⟩, fun n hn => ?_⟩
            · simp [Volume.store, List.take_of_length_le hr]
            · simp [Volume.store, hn]
          · cases h

/-- **C154** (GLB, the part that holds).  If `save_as_glb` returns for a model without pictures, the file has all of it,
however little room there was for the temporary files: loading it gives the same meshes.  The same holds for models with
pictures if there was room for all temporary files.

Missing from C154: pictures that did not fit (`C154_glb_false`). -/
theorem C154_glb_partial (hF : Faithful W L printed round) (hT : CutTexts W) (h : History W L M l)
    (hg : ∃ m ∈ l, HasGeometry m) {temp : ℕ} {v v' : Volume} {name root : String} (hn : GlbSave.GlbName name root)
    (hr : RootName name) (hs : saveAsGlbOn W M temp v name = (v', .ok ()))
    (hroom : M.images = [] ∨ ((saveGltf W [] (fun _ => false) M root).2.1.map fun w => w.2.length).sum ≤ temp) :
    ∃ ms b, M.primitiveMeshes = .ok ms ∧ v'.file name = some b ∧ (b.length < 2 ^ 31 →
      ∃ N ns, loadGlb L (some b) = .ok N ∧ N.primitiveMeshes = .ok ns ∧ List.Forall₂ (MeshBack round) ms ns) := by
  obtain ⟨hM, ms, hm, hst⟩ := sane hF h
  have hM : Good M := by
    rcases hM with ⟨_, rfl⟩ | hM
    · obtain ⟨m, hm, _⟩ := hg
      simp at hm
    · exact hM
  obtain ⟨d, hd⟩ := hM.writable.buffers
  obtain ⟨pics, hp, hsave⟩ := saveGltf_good hF hd hM.images (hr.root hn)
  have hnd := filesOf_nodup hM.images hp W root d
  rw [hsave] at hroom
  unfold saveAsGlbOn saveAsGltfOn at hs
  rw [GlbSave.splitext_glb hn, if_neg (by simp), hsave] at hs
  dsimp only at hs
  have hdoc := hF.loads _ (wf_obj.2 (document_wf (junk := W.junk) (bin := root ++ ".bin") hM.writable))
  have hlen := hF.dumpLength _ (document_ne (junk := W.junk) (bin := root ++ ".bin") hM)
  generalize ht : (storeAll ⟨temp, fun _ => none⟩ (filesOf W M root d pics)).file = files at hs
  have key : files (root ++ ".bin") = some d ∧ (∀ w ∈ pics, files w.1 = some w.2) ∧ ∃ text,
      files (root ++ ".gltf") = some text ∧
      W.loads text = some ((Json.obj (writeDocument W.junk (root ++ ".bin") M)).print printed) := by
    rcases hroom with hi | hroom
    · have hpn : pics = [] := by
        rw [hi] at hp
        cases hp
        rfl
      subst hpn
      have hne : root ++ ".bin" ≠ root ++ ".gltf" := last_ne (c := 'n') (e := 'f') (last_append rfl) (last_append rfl) (by decide)
      have hgl : files (root ++ ".gltf") =
          some ((W.dump (.obj (writeDocument W.junk (root ++ ".bin") M)) ++ [10]).take (temp - d.length)) := by
        rw [← ht]
        simp [storeAll, filesOf, Volume.store, Volume.room, hne.symm]
      have hbl : files (root ++ ".bin") = some (d.take temp) := by
        rw [← ht]
        simp [storeAll, filesOf, Volume.store, Volume.room, hne]
      by_cases hk : temp - d.length < (W.dump (.obj (writeDocument W.junk (root ++ ".bin") M))).length
      · exfalso
        unfold convertGltf at hs
        rw [hgl] at hs
        dsimp only at hs
        rw [List.take_append_of_le_length hk.le, hT.beginning _ _ hk] at hs
        cases hs
      · refine ⟨by rw [hbl, List.take_of_length_le (by omega)], by simp, _, hgl, ?_⟩
        rcases Nat.lt_or_ge (W.dump (.obj (writeDocument W.junk (root ++ ".bin") M))).length (temp - d.length) with hlt | hge
        · rw [List.take_of_length_le (by rw [List.length_append]; simpa using hlt)]
          exact hdoc
        · rw [List.take_append_of_le_length hge, List.take_of_length_le (not_lt.1 hk), hT.newline]
          exact hdoc
    · have hf := storeAll_file (filesOf W M root d pics) ⟨temp, fun _ => none⟩ hroom
      rw [ht] at hf
      rw [hf]
      exact ⟨lastWritten_mem hnd _ List.mem_cons_self,
        fun w hw => lastWritten_mem hnd _ (List.mem_cons_of_mem _ (List.mem_cons_of_mem _ hw)),
        _, lastWritten_mem hnd _ (List.mem_cons_of_mem _ List.mem_cons_self), hdoc⟩
  obtain ⟨k1, k2, text, k3, k4⟩ := key
  obtain ⟨w, enc, c1, c2, c3, c4⟩ := convert_document (f := printed) (mime := W.mime) (junk := W.junk) hM.writable hd hp k1 k2
  have hc : convertGltf W root files = .ok (W.dumps (.obj w), enc) := by
    unfold convertGltf
    rw [k3]
    dsimp only
    rw [k4, print_obj]
    simp only [c1, bind, Except.bind, pure, Except.pure]
  rw [hc] at hs
  dsimp only at hs
  unfold exportOn at hs
  cases hb : exportString (W.dumps (.obj w)) enc with
  | error e => rw [hb] at hs; cases hs
  | ok b =>
    rw [hb] at hs
    dsimp only at hs
    unfold Volume.pyWrite at hs
    split_ifs at hs with hfit
    · cases hs
      have hwne : w ≠ [] := by
        obtain ⟨o, h, _⟩ := c2.buffers
        rintro rfl
        cases h
      have hne : pad4 d ++ bodyOf pics ≠ [] := by
        have hdne := data_of_geometry hd hm hst hg
        intro e
        have := congrArg List.length e
        rw [List.length_append, length_pad4, List.length_nil] at this
        have h1 := (align4_spec d.length).2.1
        exact hdne (List.length_eq_zero_iff.1 (by omega))
      obtain ⟨-, -, b3, -⟩ := loadGlb_bundle hF hM hd hp c2 c3 c4 (hF.dumpsLength w hwne)
        (hF.parsePython w _ (wf_obj.2 c2.wf)) hb
      refine ⟨ms, b, hm, by simp [Volume.store, List.take_of_length_le hfit], fun h31 => ?_⟩
      obtain ⟨N, n1, n2⟩ := b3 h31 hne
      obtain ⟨ns, n3, n4⟩ := n2.primitiveMeshes hM hm
      exact ⟨N, ns, n1, n3, n4⟩
    · cases hs

/-! ### An example -/

theorem readNat_unfinished {l : List UInt8} (h : ∀ b ∈ l, b ≠ 0) : (readNat l).2 = [] := by
  induction l with
  | nil => rfl
  | cons b l ih =>
    unfold readNat
    rw [if_neg (h b List.mem_cons_self)]
    exact ih fun x hx => h x (List.mem_cons_of_mem _ hx)

theorem natBits_ne_zero : ∀ (f n : ℕ), ∀ b ∈ natBits f n, b ≠ 0
  | 0, _, b, h => by simp [natBits] at h
  | f + 1, n, b, h => by
    unfold natBits at h
    split_ifs at h with h0 h1
    · simp at h
    · rcases List.mem_cons.1 h with rfl | h
      · decide
      · exact natBits_ne_zero f _ b h
    · rcases List.mem_cons.1 h with rfl | h
      · decide
      · exact natBits_ne_zero f _ b h

/-- A text that starts with its length. -/
def sizedText (j : Json ℚ) : List UInt8 := natText (exText j).length ++ exText j

/-- Reads such a text. -/
def sizedParse (text : List UInt8) : Option (Json ℚ) :=
  if (readNat text).2.length < (readNat text).1 then none else exParse (readNat text).2

theorem sizedParse_text (j : Json ℚ) (r : List UInt8) : sizedParse (sizedText j ++ r) = some j := by
  unfold sizedParse sizedText
  rw [List.append_assoc, readNat_text]
  dsimp only
  rw [if_neg (by rw [List.length_append]; omega), exParse_text]

theorem sizedParse_cut (j : Json ℚ) (k : ℕ) (h : k < (sizedText j).length) : sizedParse ((sizedText j).take k) = none := by
  unfold sizedText at h ⊢
  rcases Nat.lt_or_ge k (natText (exText j).length).length with hk | hk
  · have hk' : k ≤ (natBits (exText j).length (exText j).length).length := by
      unfold natText at hk
      rw [List.length_append, List.length_singleton] at hk
      omega
    rw [List.take_append_of_le_length hk.le]
    unfold natText
    rw [List.take_append_of_le_length hk']
    have := readNat_unfinished (l := (natBits (exText j).length (exText j).length).take k)
      fun b hb => natBits_ne_zero _ _ b (List.mem_of_mem_take hb)
    unfold sizedParse
    rw [this]
    split_ifs
    · rfl
    · rfl
  · rw [List.take_append, List.take_of_length_le hk]
    unfold sizedParse
    rw [readNat_text]
    dsimp only
    rw [List.length_append] at h
    rw [if_pos (by rw [List.length_take]; omega)]

/-- A writer whose texts cannot be read if they are cut off. -/
def sizedWriter : Writer := { exWriter with dump := fun j => sizedText (j.print Number.value), loads := sizedParse }

/-- A loader for both kinds of texts: those of Python start with a zero. -/
def sizedLoader : Loader :=
  { exLoader with parse := fun text => if text.head? = some 0 then exParse text else sizedParse text }

theorem sizedText_head (j : Json ℚ) (r : List UInt8) : (sizedText j ++ r).head? ≠ some 0 := by
  have h4 : 4 ≤ (exText j).length := by simp [exText]
  obtain ⟨n, hn⟩ : ∃ n, (exText j).length = n + 1 := ⟨(exText j).length - 1, by omega⟩
  unfold sizedText natText
  rw [hn]
  unfold natBits
  rw [if_neg (by omega)]
  split_ifs <;> simp

theorem sizedFaithful : Faithful sizedWriter sizedLoader Number.value id where
  finite _ := rfl
  again _ := rfl
  loads _ _ := sizedParse_text _ _
  parse o _ := by
    show (if (sizedText ((Json.obj o).print Number.value) ++ [10]).head? = some 0 then _ else _) = _
    rw [if_neg (sizedText_head _ _)]
    exact sizedParse_text _ _
  parsePython o n _ := by
    show (if (exText (.obj o) ++ List.replicate n 32).head? = some 0 then exParse (exText (.obj o) ++ List.replicate n 32)
      else sizedParse (exText (.obj o) ++ List.replicate n 32)) = _
    rw [if_pos (by simp [exText]), exParse_text]
  dumpLength _ _ := by simp [sizedWriter, sizedText, exText]; omega
  dumpsLength _ _ := by simp [sizedWriter, exWriter, exText]
  png _ x hs _ := ⟨exPng x, rfl, by simp [exPng], _, swapRB_reversed _ ⟨_, hs⟩, fun n => exDecode_png hs _⟩

theorem sizedCut : CutTexts sizedWriter where
  beginning _ k h := sizedParse_cut _ k h
  newline o := by
    show sizedParse (sizedText _) = sizedParse (sizedText _ ++ [10])
    rw [sizedParse_text, ← List.append_nil (sizedText _), sizedParse_text]

/-- A model with one triangle and no pictures. -/
def plainModel : Model := (({} : Model).addMesh (some (.inl tinyTriangle))).1

theorem plainModel_history (W : Writer) (L : Loader) : History W L plainModel [.inl tinyTriangle] := by
  obtain ⟨M1, p, m', h1, -⟩ := addMesh_spec {} tinyTriangle_addable
  have e : plainModel = M1 := by unfold plainModel; rw [h1]
  rw [e]
  exact .add (l := []) .new tinyTriangle_addable tinyTriangle_storable h1

/-- Whether saving returned, and whether loading raised an `IOError`. -/
def savedLoaded (M : Model) (temp : ℕ) : Bool × Bool :=
  ((saveAsGlbOn sizedWriter M temp ⟨100000, fun _ => none⟩ "room.glb").2.toBool,
    match loadGlb sizedLoader ((saveAsGlbOn sizedWriter M temp ⟨100000, fun _ => none⟩ "room.glb").1.file "room.glb") with
    | .error .ioError => true
    | _ => false)

theorem saved_of {M : Model} {temp : ℕ} {b : Bool} (h : savedLoaded M temp = (true, b)) :
    ∃ v', saveAsGlbOn sizedWriter M temp ⟨100000, fun _ => none⟩ "room.glb" = (v', .ok ()) := by
  have h1 := congrArg Prod.fst h
  unfold savedLoaded at h1
  dsimp only at h1
  generalize saveAsGlbOn sizedWriter M temp ⟨100000, fun _ => none⟩ "room.glb" = r at h1
  obtain ⟨v, r⟩ := r
  cases r with
  | error e => cases h1
  | ok u => exact ⟨v, rfl⟩

/-- The hypotheses of `C154_glb_partial` for a model without pictures; with less room `save_as_glb` raises an exception. -/
example : (∃ v', saveAsGlbOn sizedWriter plainModel 4605 ⟨100000, fun _ => none⟩ "room.glb" = (v', .ok ())) ∧
    plainModel.images = [] ∧ (saveAsGlbOn sizedWriter plainModel 4603 ⟨100000, fun _ => none⟩ "room.glb").2.toBool = false :=
  ⟨saved_of (b := false) (by decide +kernel), rfl, by decide +kernel⟩

example := fun (v v' : Volume) (temp : ℕ) => C154_glb_partial (v := v) (v' := v') (temp := temp) sizedFaithful sizedCut
  (plainModel_history _ _) ⟨_, List.mem_cons_self, Or.inl (by decide)⟩ (name := "room.glb") (root := "room")
  ⟨by decide, 'r', by decide, by decide⟩ ⟨by decide, by decide⟩

/-- **C154 is false of the code** (GLB): if there is no room for the temporary file of a picture, `save_as_glb` returns all the
same, although there is room for the bundle; the picture in it has no bytes, and the file cannot be loaded. -/
theorem C154_glb_false : ∃ (W : Writer) (L : Loader) (printed : Number → Option ℚ) (round : ℚ → ℚ) (M : Model) (l : List AnyMesh)
    (temp : ℕ) (v v' : Volume), Faithful W L printed round ∧ CutTexts W ∧ History W L M l ∧ (∃ m ∈ l, HasGeometry m) ∧
      saveAsGlbOn W M temp v "room.glb" = (v', .ok ()) ∧ loadGlb L (v'.file "room.glb") = .error .ioError := by
  have h : savedLoaded tinyModel 9903 = (true, true) := by decide +kernel
  obtain ⟨v', hv⟩ := saved_of h
  refine ⟨sizedWriter, sizedLoader, Number.value, id, tinyModel, _, 9903, ⟨100000, fun _ => none⟩, v', sizedFaithful, sizedCut,
    tinyModel_history _ _, tinyModel_geometry, hv, ?_⟩
  have h2 := congrArg Prod.snd h
  unfold savedLoaded at h2
  rw [hv] at h2
  dsimp only at h2
  split at h2
  · assumption
  · cases h2

end Gltf
end Sumo
