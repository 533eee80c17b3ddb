import Verif.Lemmas.TinyCut
import Verif.Lemmas.TinyMissing
import Verif.Lemmas.TinyExample

/-! # Properties: saving models and loading them again -/

namespace Sumo
namespace Gltf

variable {W : Writer} {L : Loader} {printed : Number → Option ℚ} {round : ℚ → ℚ} {M : Model} {l : List AnyMesh}

/-! ### A history -/

/-- A triangle with a named material. -/
def tinyTriangle : Mesh F32 :=
  ⟨[0, 1, 2], [⟨⟨0⟩, ⟨0⟩, ⟨0⟩⟩, ⟨⟨0x3F800000⟩, ⟨0⟩, ⟨0⟩⟩, ⟨⟨0⟩, ⟨0x3F800000⟩, ⟨0⟩⟩],
    [⟨⟨0⟩, ⟨0⟩, ⟨0x3F800000⟩⟩, ⟨⟨0⟩, ⟨0⟩, ⟨0x3F800000⟩⟩, ⟨⟨0⟩, ⟨0⟩, ⟨0x3F800000⟩⟩], ⟨"wood", [], []⟩⟩

/-- A textured triangle. -/
def tinyTextured : TexturedMesh F32 Mat3b :=
  ⟨{ tinyTriangle with material := TexturedMesh.defaultMaterial false },
    [(⟨0⟩, ⟨0⟩), (⟨0x3F800000⟩, ⟨0⟩), (⟨0⟩, ⟨0x3F800000⟩)], ⟨1, 2, [10, 20, 30, 40, 50, 60]⟩, .none⟩

theorem tinyTriangle_addable : Addable (.inl tinyTriangle) := .plain _ (by unfold Indices32; decide)

theorem tinyTextured_addable : Addable (.inr tinyTextured) :=
  .textured _ (by unfold Indices32; decide) rfl rfl ⟨by decide, by decide⟩

theorem tinyTriangle_storable : Storable (materialOf (.inl tinyTriangle)) :=
  ⟨Or.inl (by decide), fun e he => by simp [materialOf, tinyTriangle] at he, fun e he => by simp [materialOf, tinyTriangle] at he,
    by simp [materialOf, tinyTriangle, Ordered], by simp [materialOf, tinyTriangle, Ordered],
    fun k hk => by simp [materialOf, tinyTriangle, Dict.keys] at hk, fun h => absurd h (by decide)⟩

theorem tinyTextured_storable : Storable (materialOf (.inr tinyTextured)) := by
  have hv : (materialOf (.inr tinyTextured)).values = [("baseColorTexture", TexturedMesh.textureParameter 0)] := rfl
  have ha : (materialOf (.inr tinyTextured)).additionalValues = [] := rfl
  refine ⟨Or.inr (Or.inl (by rw [hv]; simp)), fun e he => ?_, fun e he => ?_, ?_, ?_, fun k hk => ?_, fun _ hk => ?_⟩
  · rw [hv, List.mem_singleton] at he
    subst he
    exact OneKind.object [("index", 0)] (by simp) (by simp [Ordered])
  · rw [ha] at he; simp at he
  · rw [hv]; simp [Ordered]
  · rw [ha]; simp [Ordered]
  · rw [ha] at hk; simp [Dict.keys] at hk
  · rw [ha] at hk; simp [Dict.keys] at hk

/-- A model with both. -/
def tinyModel : Model := ((({} : Model).addMesh (some (.inl tinyTriangle))).1.addMesh (some (.inr tinyTextured))).1

theorem tinyModel_history (W : Writer) (L : Loader) : History W L tinyModel [.inl tinyTriangle, .inr tinyTextured] := by
  obtain ⟨M1, p, m', h1, -⟩ := addMesh_spec {} tinyTriangle_addable
  obtain ⟨M2, p, m', h2, -⟩ := addMesh_spec M1 tinyTextured_addable
  have e : tinyModel = M2 := by unfold tinyModel; rw [h1]; dsimp only; rw [h2]
  rw [e]
  exact .add (l := [.inl tinyTriangle]) (.add (l := []) .new tinyTriangle_addable tinyTriangle_storable h1) tinyTextured_addable
    tinyTextured_storable h2

theorem tinyModel_geometry : ∃ m ∈ ([.inl tinyTriangle, .inr tinyTextured] : List AnyMesh), HasGeometry m :=
  ⟨_, List.mem_cons_self, Or.inl (by decide)⟩

/-- The model saved as a GLB file. -/
theorem tinyModel_saved : ∃ M os b, saveAsGlb exWriter tinyModel GlbSave.exOs ["tmp", "x1"] ⟨true, ["home"], "room.glb"⟩ =
    (M, os, .ok ()) ∧ os.file ["home"] "room.glb" = some b ∧ b.length = 10348 := by
  have h : (fun r : Model × GlbSave.Os × Except PyErr Unit =>
      r.2.2.toBool && (r.2.1.file ["home"] "room.glb").map List.length == some 10348)
      (saveAsGlb exWriter tinyModel GlbSave.exOs ["tmp", "x1"] ⟨true, ["home"], "room.glb"⟩) = true := by decide +kernel
  generalize saveAsGlb exWriter tinyModel GlbSave.exOs ["tmp", "x1"] ⟨true, ["home"], "room.glb"⟩ = r at h
  obtain ⟨M, os, r⟩ := r
  simp only [Bool.and_eq_true, beq_iff_eq] at h
  cases r with
  | error e => cases h.1
  | ok u =>
    cases hb : os.file ["home"] "room.glb" with
    | none => rw [hb] at h; cases h.2
    | some b =>
      rw [hb] at h
      exact ⟨M, os, b, rfl, hb, by simpa using h.2⟩

/-! ### GLB -/

/-- C121 (partial): a model made by adding meshes, saving and loading can be saved as a GLB file and loaded from it; the
meshes are the same, in the same order, up to the rounding of numbers in the materials; the model itself does not change.
Saving fails exactly if the file would have 4 GiB or more; loading fails exactly if it has 2 GiB or more. -/
theorem C121_partial (hF : Faithful W L printed round) (h : History W L M l) (hg : ∃ m ∈ l, HasGeometry m)
    {os : GlbSave.Os} {temp : GlbSave.Dir} {p : GlbSave.GlbPath} {root : String} (hf : GlbSave.Fresh os temp)
    (hp : p.absolute = true) (hn : GlbSave.GlbName p.name root) (hr : RootName p.name) (hd : os.isDir p.dirs = true) :
    ∃ ms os' r v, M.primitiveMeshes = .ok ms ∧ saveAsGlb W M os temp p = (M, os', r) ∧
      (r = .error .structError ∧ 2 ^ 32 ≤ 28 + ((W.dumps v).length + 3) / 4 * 4 +
          bodySize root (saveGltf W [] (fun _ => false) M root).2.1 ∨
        r = .ok () ∧ ∃ b, os'.file p.dirs p.name = some b ∧ b.length = 28 + ((W.dumps v).length + 3) / 4 * 4 +
          bodySize root (saveGltf W [] (fun _ => false) M root).2.1 ∧ b.length < 2 ^ 32 ∧ ∀ files,
          (2 ^ 31 ≤ b.length → loadGlb { L with file := files } (some b) = .error .ioError) ∧
          (b.length < 2 ^ 31 → ∃ N ns, loadGlb { L with file := files } (some b) = .ok N ∧ N.primitiveMeshes = .ok ns ∧
            List.Forall₂ (MeshBack round) ms ns)) := by
  obtain ⟨hM, ms, hm, hs⟩ := sane hF h
  have hM : Good M := by
    rcases hM with ⟨_, rfl⟩ | hM
    · obtain ⟨m, hm, _⟩ := hg
      simp at hm
    · exact hM
  obtain ⟨v, enc, d, pics, hE⟩ := exported hF hM.writable (hr.root hn)
  obtain ⟨s1, s2, s3, s4⟩ := saveAsGlb_exported hE hf hp hn
  have hne : pad4 d ++ bodyOf pics ≠ [] := by
    have hdne := data_of_geometry hE.buffers hm hs hg
    intro e
    have := congrArg List.length e
    rw [List.length_append, length_pad4, List.length_nil] at this
    have h1 := (align4_spec d.length).2.1
    exact hdne (List.length_eq_zero_iff.1 (by omega))
  have hw : (saveGltf W [] (fun _ => false) M root).2.1 = filesOf W M root d pics := by
    have := hE.write
    unfold exporter at this
    dsimp only at this
    rw [this]
  have hsize : 28 + (pad4 (W.dumps (.obj v))).length + enc.length = 28 + ((W.dumps (.obj v)).length + 3) / 4 * 4 +
      bodySize root (saveGltf W [] (fun _ => false) M root).2.1 := by
    rw [hw, body_size hM.images hE.pictures, hE.length, length_pad4]
    unfold align4
    omega
  refine ⟨ms, (saveAsGlb W M os temp p).2.1, (saveAsGlb W M os temp p).2.2, .obj v, hm, ?_, ?_⟩
  · exact Prod.ext s1 rfl
  · by_cases h32 : 28 + (pad4 (W.dumps (.obj v))).length + enc.length < 2 ^ 32
    · right
      obtain ⟨b, hb⟩ := export_ok h32
      obtain ⟨g1, g2⟩ := s2 hd b hb
      obtain ⟨b1, b2, -⟩ := loadGlb_export hF hM hE hb
      refine ⟨g1, b, g2, b1.trans hsize, b2, fun files => ?_⟩
      have hE' : Exported W { L with file := files } printed M root v enc d pics :=
        ⟨hE.buffers, hE.pictures, hE.write, hE.convert, hE.model, hE.doc, hE.bytes, hE.length, hE.header, hE.parse⟩
      obtain ⟨-, -, b3, b4, -⟩ := loadGlb_export (hF.files files) hM hE' hb
      refine ⟨b4, fun h31 => ?_⟩
      obtain ⟨N, n1, n2⟩ := b3 h31 hne
      obtain ⟨ns, n3, n4⟩ := n2.primitiveMeshes hM hm
      exact ⟨N, ns, n1, n3, n4⟩
    · left
      exact ⟨s3 hd _ (export_error (by omega)), hsize ▸ not_lt.1 h32⟩

/-- The model of the example is saved and loaded again. -/
example : ∃ b N ms ns, (saveAsGlb exWriter tinyModel GlbSave.exOs ["tmp", "x1"] ⟨true, ["home"], "room.glb"⟩).2.1.file ["home"]
    "room.glb" = some b ∧ loadGlb exLoader (some b) = .ok N ∧ tinyModel.primitiveMeshes = .ok ms ∧ N.primitiveMeshes = .ok ns ∧
    List.Forall₂ (MeshBack id) ms ns := by
  obtain ⟨ms, os', r, v, h1, h2, h3⟩ := C121_partial exFaithful (tinyModel_history _ _) tinyModel_geometry GlbSave.exOs_fresh
    (p := ⟨true, ["home"], "room.glb"⟩) (root := "room") rfl ⟨by decide, 'r', by decide, by decide⟩ ⟨by decide, by decide⟩ rfl
  obtain ⟨M, os, b, e1, e2, e3⟩ := tinyModel_saved
  rw [e1] at h2 ⊢
  cases h2
  rcases h3 with ⟨h3, _⟩ | ⟨_, b', h4, h5, h6, h7⟩
  · cases h3
  · rw [e2] at h4
    cases h4
    obtain ⟨N, ns, n1, n2, n3⟩ := (h7 exLoader.file).2 (by omega)
    exact ⟨b, N, ms, ns, e2, n1, h1, n2, n3⟩

/-- C121 fails for models in which there is nothing: the GLB file is written, but loading it ends the process (or raises an `IOError` if
it is too long). -/
theorem C121_false (hF : Faithful W L printed round) {m : Mesh F32} (hi : m.indices = []) (hv : m.vertices = [])
    (hn : m.normals = []) (hs : Storable m.material) {os : GlbSave.Os} {temp : GlbSave.Dir} {p : GlbSave.GlbPath} {root : String}
    (hf : GlbSave.Fresh os temp) (hp : p.absolute = true) (hname : GlbSave.GlbName p.name root) (hr : RootName p.name)
    (hd : os.isDir p.dirs = true) {os' : GlbSave.Os} {b : List UInt8}
    (hsave : (saveAsGlb W (({} : Model).addMesh (some (.inl m))).1 os temp p).2 = (os', .ok ()))
    (hb : os'.file p.dirs p.name = some b) (files : Files) :
    loadGlb { L with file := files } (some b) = .error (if b.length < 2 ^ 31 then .terminated else .ioError) := by
  have hM : Good (({} : Model).addPrimitiveMesh m) := addPrimitiveMesh_good (Or.inl rfl) hs
  have hF' := hF.files files
  obtain ⟨v, enc, d, pics, hE⟩ := exported hF' hM.writable (hr.root hname)
  obtain ⟨s1, s2, s3, s4⟩ := saveAsGlb_exported hE hf hp hname
  have hbuf : (({} : Model).addPrimitiveMesh m).buffers = [[]] := by
    simp [Model.addPrimitiveMesh, Model.pushData, Model.addToBuffer, Model.addBufferView, Model.addAccessor, hi, hv, hn]
  have hd0 : d = [] := by
    have := hE.buffers
    rw [hbuf] at this
    simpa using this.symm
  have hp0 : pics = [] := by
    have := hE.pictures
    rw [show (({} : Model).addPrimitiveMesh m).images = [] from rfl] at this
    cases this
    rfl
  have hsave : (saveAsGlb W (({} : Model).addPrimitiveMesh m) os temp p).2 = (os', .ok ()) := hsave
  cases hx : exportString (W.dumps (.obj v)) enc with
  | error e =>
    have := s3 hd e hx
    rw [hsave] at this
    cases this
  | ok b' =>
    obtain ⟨g1, g2⟩ := s2 hd b' hx
    rw [hsave, hb] at g2
    cases g2
    obtain ⟨-, -, -, b4, b5⟩ := loadGlb_export hF' hM hE hx
    by_cases h31 : b.length < 2 ^ 31
    · rw [if_pos h31, b5 (by rw [hd0, hp0]; rfl) h31]
    · rw [if_neg h31, b4 (not_lt.1 h31)]

/-- A mesh without anything, in a model by itself. -/
example : ∃ os b, (saveAsGlb exWriter (({} : Model).addMesh (some (.inl (⟨[], [], [], ⟨"wood", [], []⟩⟩ : Mesh F32)))).1
    GlbSave.exOs ["tmp", "x1"] ⟨true, ["home"], "room.glb"⟩).2 = (os, .ok ()) ∧ os.file ["home"] "room.glb" = some b := by
  have h : (fun r : GlbSave.Os × Except PyErr Unit => r.2.toBool && (r.1.file ["home"] "room.glb").isSome)
      (saveAsGlb exWriter (({} : Model).addMesh (some (.inl (⟨[], [], [], ⟨"wood", [], []⟩⟩ : Mesh F32)))).1
        GlbSave.exOs ["tmp", "x1"] ⟨true, ["home"], "room.glb"⟩).2 = true := by decide +kernel
  generalize (saveAsGlb exWriter (({} : Model).addMesh (some (.inl (⟨[], [], [], ⟨"wood", [], []⟩⟩ : Mesh F32)))).1
    GlbSave.exOs ["tmp", "x1"] ⟨true, ["home"], "room.glb"⟩).2 = r at h
  obtain ⟨os, r⟩ := r
  simp only [Bool.and_eq_true] at h
  cases r with
  | error e => cases h.1
  | ok u =>
    obtain ⟨b, hb⟩ := Option.isSome_iff_exists.1 h.2
    exact ⟨os, b, rfl, hb⟩

/-! ### glTF -/

/-- C122 (partial): a model made by adding meshes, saving and loading can be saved as a glTF file and loaded from it; the meshes
are the same, in the same order, up to the rounding of numbers in the materials; the model itself does not change.  Of the
folder only `root.gltf`, `root.bin` and `0.png`, `1.png`, ... change. -/
theorem C122_partial (hF : Faithful W L printed round) (h : History W L M l) (hg : ∃ m ∈ l, HasGeometry m) {root : String}
    (hr : RootName root) (f : Folder) :
    ∃ ms f', M.primitiveMeshes = .ok ms ∧ saveAsGltf W (some f) M root = (M, some f', .ok ()) ∧
      (∀ n, n ≠ root ++ ".gltf" → n ≠ root ++ ".bin" → (∀ i, n ≠ toString (i : ℕ) ++ ".png") → f'.file n = f.file n) ∧
      (SmallFiles f' → ∀ files, Sees { L with file := files } f' → ∃ N ns,
        loadGltf { L with file := files } (f'.file (root ++ ".gltf")) = .ok N ∧ N.primitiveMeshes = .ok ns ∧
        List.Forall₂ (MeshBack round) ms ns) := by
  obtain ⟨hM, ms, hm, hs⟩ := sane hF h
  have hM : Good M := by
    rcases hM with ⟨_, rfl⟩ | hM
    · obtain ⟨m, hm, _⟩ := hg
      simp at hm
    · exact hM
  obtain ⟨d, hd⟩ := hM.buffers
  obtain ⟨pics, f', p1, p2, p3, p4⟩ := saveAsGltf_good hF hM hd hr f
  refine ⟨ms, f', hm, p2, fun n n1 n2 n3 => ?_, fun hsmall files hsee => ?_⟩
  · refine p4 n fun hn => ?_
    obtain ⟨w, hw, rfl⟩ := List.mem_map.1 hn
    unfold filesOf at hw
    rcases List.mem_cons.1 hw with rfl | hw
    · exact n2 rfl
    · rcases List.mem_cons.1 hw with rfl | hw
      · exact n1 rfl
      · obtain ⟨i, hi⟩ := picture_name hM.images p1 w hw
        exact n3 i hi
  · have ht := p3 (root ++ ".gltf", _) (List.mem_cons_of_mem _ List.mem_cons_self)
    obtain ⟨N, n1, n2⟩ := loadGltf_good (hF.files files) hM hd hr p1
      (fun w hw => ⟨hsee _ _ (p3 w hw), hsmall _ _ (p3 w hw)⟩) (data_of_geometry hd hm hs hg)
    obtain ⟨ns, n3, n4⟩ := n2.primitiveMeshes hM hm
    refine ⟨N, ns, ?_, n3, n4⟩
    have e : files (root ++ ".gltf") = f'.file (root ++ ".gltf") := by rw [ht]; exact hsee _ _ ht
    rw [← e]
    exact n1

example := C122_partial exFaithful (tinyModel_history _ _) tinyModel_geometry (root := "room") ⟨by decide, by decide⟩
  ⟨fun _ => none, []⟩

/-- C121 and C122 fail for models with a mesh that has the material it gets when nothing is said about it: the files are written,
but they cannot be loaded. -/
theorem C122_false (hF : Faithful W L printed round) (h : History W L M l) {m : Mesh F32} (hm : m.material = ⟨"", [], []⟩) :
    (∀ root, RootName root → ∀ f, ∃ M' f', saveAsGltf W (some f) (M.addMesh (some (.inl m))).1 root = (M', some f', .ok ()) ∧
      ∀ files N, loadGltf { L with file := files } (f'.file (root ++ ".gltf")) ≠ .ok N) ∧
    (∀ os temp p root, GlbSave.Fresh os temp → p.absolute = true → GlbSave.GlbName p.name root → RootName p.name →
      os.isDir p.dirs = true → ∀ M' os' b, saveAsGlb W (M.addMesh (some (.inl m))).1 os temp p = (M', os', .ok ()) →
      os'.file p.dirs p.name = some b → ∀ files N, loadGlb { L with file := files } (some b) ≠ .ok N) := by
  have hM : M = {} ∨ Good M := by
    rcases (sane hF h).1 with ⟨h, _⟩ | h
    · exact Or.inl h
    · exact Or.inr h
  obtain ⟨hK, hmem⟩ := addPrimitiveMesh_writable hM hm
  have e : (M.addMesh (some (.inl m))).1 = M.addPrimitiveMesh m := rfl
  rw [e]
  refine ⟨fun root hr f => ?_, fun os temp p root hf hp hn hr hd M' os' b hs hb files N => ?_⟩
  · obtain ⟨d, hd⟩ := hK.buffers
    obtain ⟨pics, h1, h2⟩ := saveGltf_good hF hd hK.images hr
    refine ⟨M.addPrimitiveMesh m, ⟨lastWritten (filesOf W (M.addPrimitiveMesh m) root d pics) f.file, f.dirs⟩, ?_, fun files N => ?_⟩
    · unfold saveAsGltf
      dsimp only
      rw [h2]
    · have ht : lastWritten (filesOf W (M.addPrimitiveMesh m) root d pics) f.file (root ++ ".gltf") =
          some (W.dump (.obj (writeDocument W.junk (root ++ ".bin") (M.addPrimitiveMesh m))) ++ [10]) :=
        lastWritten_mem (filesOf_nodup hK.images h1 W root d) _ (List.mem_cons_of_mem _ List.mem_cons_self)
      dsimp only
      rw [ht]
      exact loadGltf_bad_material (hF.files files) hK hmem _ N
  · obtain ⟨v, enc, d, pics, hE⟩ := exported (hF.files files) hK (hr.root hn)
    obtain ⟨s1, s2, s3, s4⟩ := saveAsGlb_exported hE hf hp hn
    rw [hs] at s2 s3
    cases hx : exportString (W.dumps (.obj v)) enc with
    | error e => cases s3 hd e hx
    | ok b' =>
      have hb' := (s2 hd b' hx).2
      rw [hb] at hb'
      cases hb'
      exact loadGlb_bad_material hK hmem hE hx N

example := (C122_false exFaithful (tinyModel_history _ _) (m := { tinyTriangle with material := ⟨"", [], []⟩ }) rfl).1 "room"
  ⟨by decide, by decide⟩ ⟨fun _ => none, []⟩

/-! ### Histories -/

/-- C123 is false for the material: once the model has been saved and loaded, the name of a material is also among its
additional entries, and `has_same_material` says that it is another one. -/
theorem C123_false (hF : Faithful W L printed round) {m : Mesh F32} (ha : Addable (.inl m)) (hs : Storable m.material)
    (hg : HasGeometry (.inl m)) (hn : m.material.name ≠ "") (hno : "name" ∉ m.material.additionalValues.keys) {root : String}
    (hr : RootName root) (f : Folder) :
    ∃ M f', ({} : Model).addMesh (some (.inl m)) = (M, .ok ()) ∧ saveAsGltf W (some f) M root = (M, some f', .ok ()) ∧
      (SmallFiles f' → ∀ files, Sees { L with file := files } f' → ∃ N m',
        loadGltf { L with file := files } (f'.file (root ++ ".gltf")) = .ok N ∧ N.primitiveMeshes = .ok [.inl m'] ∧
        History W L N [.inl m] ∧ m.hasSameMaterial m' = false) := by
  obtain ⟨M, p, m0, h1, -⟩ := addMesh_spec {} ha
  have h : History W L M [.inl m] := .add (l := []) .new ha hs h1
  obtain ⟨ms, f', h2, h3, -, h4⟩ := C122_partial hF h ⟨_, List.mem_cons_self, hg⟩ hr f
  refine ⟨M, f', h1, h3, fun hsmall files hsee => ?_⟩
  obtain ⟨N, ns, h5, h6, h8⟩ := h4 hsmall files hsee
  have h7 : History W L N [.inl m] := .loadGltf h hr h3 hsmall hsee h5
  obtain ⟨ms', g1, g2⟩ := (sane hF h).2
  rw [h2] at g1
  cases g1
  cases g2 with
  | cons g3 g4 =>
  cases g4
  cases g3 with
  | plain _ m1 i1 i2 i3 i4 =>
  cases h8 with
  | cons g3 g4 =>
  cases g4
  cases g3 with
  | plain _ m2 j1 j2 j3 j4 =>
  refine ⟨N, m2, h5, h6, h7, ?_⟩
  have e := j4.entry
  rw [i4.name, if_neg hn] at e
  rw [← Bool.not_eq_true]
  intro hsame
  unfold Mesh.hasSameMaterial Mesh.materialsEqual at hsame
  simp only [Bool.and_eq_true] at hsame
  refine hno ?_
  rw [keys_of_parameterMapsEqual hsame.1.1]
  exact Dict.mem_keys.2 ⟨_, Dict.mem_of_get? e⟩

example := C123_false exFaithful tinyTriangle_addable tinyTriangle_storable (Or.inl (by decide)) (by decide) (by decide)
  (root := "room") ⟨by decide, by decide⟩ ⟨fun _ => none, []⟩

/-- C123 (partial): however meshes are added and the model is saved and loaded, the model has the meshes that were added, in
this order. -/
theorem C123_partial (hF : Faithful W L printed round) (h : History W L M l) :
    ∃ ms, M.primitiveMeshes = .ok ms ∧ List.Forall₂ (StillMesh round) l ms := (sane hF h).2

/-- Adding a mesh, saving the model, loading it and adding another one. -/
example : ∃ N, History exWriter exLoader N [.inl tinyTriangle, .inr tinyTextured, .inl tinyTriangle] := by
  obtain ⟨ms, f', -, h2, -, h4⟩ := C122_partial exFaithful (tinyModel_history exWriter exLoader) tinyModel_geometry
    (root := "room") ⟨by decide, by decide⟩ ⟨fun _ => none, []⟩
  by_cases hs : SmallFiles f'
  · obtain ⟨N, ns, n1, -⟩ := h4 hs f'.file fun _ _ h => h
    obtain ⟨M', p, m', h5, -⟩ := addMesh_spec N tinyTriangle_addable
    exact ⟨M', .add (l := [.inl tinyTriangle, .inr tinyTextured]) (.loadGltf (tinyModel_history exWriter exLoader)
      ⟨by decide, by decide⟩ h2 hs (fun _ _ h => h) n1) tinyTriangle_addable tinyTriangle_storable h5⟩
  · obtain ⟨M', p, m', h5, -⟩ := addMesh_spec tinyModel tinyTriangle_addable
    exact ⟨M', .add (l := [.inl tinyTriangle, .inr tinyTextured]) (tinyModel_history exWriter exLoader) tinyTriangle_addable
      tinyTriangle_storable h5⟩

/-! ### Saving -/

/-- C124: saving, whether it succeeds or not, leaves everything in the model as it is, except the URIs of the images; in
particular the meshes. -/
theorem C124 (W : Writer) (M : Model) :
    (∀ f root, ∃ images, (saveAsGltf W f M root).1 = { M with images := images } ∧
      List.Forall₂ (fun a b => ∃ uri, b = { a with uri := uri }) M.images images ∧
      (saveAsGltf W f M root).1.primitiveMeshes = M.primitiveMeshes) ∧
    (∀ os temp p, ∃ images, (saveAsGlb W M os temp p).1 = { M with images := images } ∧
      List.Forall₂ (fun a b => ∃ uri, b = { a with uri := uri }) M.images images ∧
      (saveAsGlb W M os temp p).1.primitiveMeshes = M.primitiveMeshes) := by
  have key := saveGltf_keeps W M
  refine ⟨fun f root => ?_, fun os temp p => ?_⟩
  · unfold saveAsGltf
    cases f with
    | none => exact ⟨M.images, rfl, forall₂_same_uri _, rfl⟩
    | some f => exact key _ _ _
  · unfold saveAsGlb
    dsimp only
    split_ifs
    · exact key _ _ _
    · exact ⟨M.images, rfl, forall₂_same_uri _, rfl⟩

example : (saveAsGltf exWriter (some ⟨fun _ => none, []⟩) tinyModel "room").1.primitiveMeshes = tinyModel.primitiveMeshes := by
  obtain ⟨_, _, _, h⟩ := (C124 exWriter tinyModel).1 (some ⟨fun _ => none, []⟩) "room"
  exact h

/-! ### Files that were cut off -/

/-- C125 is false: of every GLB file saved from a model with geometry, the beginnings that hold the text, but not all of the
data, make the loader read behind the end of what it has.  Shorter ones lead to an `IOError`. -/
theorem C125_false (hF : Faithful W L printed round) (h : History W L M l) (hg : ∃ m ∈ l, HasGeometry m)
    {os : GlbSave.Os} {temp : GlbSave.Dir} {p : GlbSave.GlbPath} {root : String} (hf : GlbSave.Fresh os temp)
    (hp : p.absolute = true) (hn : GlbSave.GlbName p.name root) (hr : RootName p.name) (hd : os.isDir p.dirs = true)
    {M' : Model} {os' : GlbSave.Os} {b : List UInt8} (hs : saveAsGlb W M os temp p = (M', os', .ok ()))
    (hb : os'.file p.dirs p.name = some b) (h31 : b.length < 2 ^ 31) (files : Files) :
    ∃ k, 24 ≤ k ∧ k + 8 < b.length ∧ ∀ n < b.length,
      loadGlb { L with file := files } (some (b.take n)) = .error (if n < k then .ioError else .undefined) := by
  obtain ⟨hM, ms, hm, hst⟩ := sane hF h
  have hM : Good M := by
    rcases hM with ⟨_, rfl⟩ | hM
    · obtain ⟨m, hm, _⟩ := hg
      simp at hm
    · exact hM
  obtain ⟨v, enc, d, pics, hE⟩ := exported (hF.files files) hM.writable (hr.root hn)
  obtain ⟨s1, s2, s3, s4⟩ := saveAsGlb_exported hE hf hp hn
  have hne : pad4 d ++ bodyOf pics ≠ [] := by
    have hdne := data_of_geometry hE.buffers hm hst hg
    intro e
    have := congrArg List.length e
    rw [List.length_append, length_pad4, List.length_nil] at this
    have h1 := (align4_spec d.length).2.1
    exact hdne (List.length_eq_zero_iff.1 (by omega))
  rw [hs] at s2 s3
  cases hx : exportString (W.dumps (.obj v)) enc with
  | error e => cases s3 hd e hx
  | ok b' =>
    have hb' := (s2 hd b' hx).2
    rw [hb] at hb'
    cases hb'
    obtain ⟨b1, -⟩ := loadGlb_export (hF.files files) hM hE hx
    have hl : (pad4 d ++ bodyOf pics).length ≠ 0 := fun e => hne (List.length_eq_zero_iff.1 e)
    have hle := hE.length
    have hpad : 4 ≤ (pad4 (W.dumps (.obj v))).length := by
      rw [length_pad4]
      exact hE.header.trans (align4_spec _).2.1
    exact ⟨20 + (pad4 (W.dumps (.obj v))).length, by omega, by omega, fun n hn => loadGlb_cut (hF.files files) hM hE hx h31 hne hn⟩

/-- Of the 10348 bytes of the example, the first 10347 make the loader read behind the end. -/
example : ∃ b, (saveAsGlb exWriter tinyModel GlbSave.exOs ["tmp", "x1"] ⟨true, ["home"], "room.glb"⟩).2.1.file ["home"]
    "room.glb" = some b ∧ loadGlb exLoader (some (b.take 10347)) = .error .undefined ∧
    loadGlb exLoader (some (b.take 23)) = .error .ioError := by
  obtain ⟨M, os, b, e1, e2, e3⟩ := tinyModel_saved
  obtain ⟨k, k1, k2, k3⟩ := C125_false exFaithful (tinyModel_history _ exLoader) tinyModel_geometry GlbSave.exOs_fresh
    (p := ⟨true, ["home"], "room.glb"⟩) (root := "room") rfl ⟨by decide, 'r', by decide, by decide⟩ ⟨by decide, by decide⟩ rfl
    e1 e2 (by omega) exLoader.file
  rw [e1]
  refine ⟨b, e2, ?_, ?_⟩
  · rw [k3 10347 (by omega), if_neg (by omega)]
  · rw [k3 23 (by omega), if_pos (by omega)]

/-- C125 (partial): whatever else is in the file, an `IOError` is raised if there is no file, if it has less than 20 bytes, if it
does not begin with `glTF`, if the first part is not marked as `JSON`, is empty or would go on behind the end of the file. -/
theorem C125_partial (L : Loader) :
    loadGlb L none = .error .ioError ∧ ∀ b : List UInt8, b.length < 2 ^ 32 →
      (b.length < 20 → loadGlb L (some b) = .error .ioError) ∧
      (b.take 4 ≠ [103, 108, 84, 70] → loadGlb L (some b) = .error .ioError) ∧
      ((b.drop 16).take 4 ≠ [74, 83, 79, 78] → loadGlb L (some b) = .error .ioError) ∧
      ∀ k < 2 ^ 32 - 20, (b.drop 12).take 4 = [UInt8.ofNat k, UInt8.ofNat (k / 256), UInt8.ofNat (k / 65536),
        UInt8.ofNat (k / 16777216)] → k = 0 ∨ b.length < 20 + k → loadGlb L (some b) = .error .ioError := by
  refine ⟨rfl, fun b h31 => ?_⟩
  have key : loadBinary L b = ({}, .error .ioError) → loadGlb L (some b) = .error .ioError := by
    intro hb
    unfold loadGlb
    cases hr : readWhole (some b) with
    | none => rfl
    | some t =>
      have : t = b := by
        unfold readWhole at hr
        dsimp only at hr
        split_ifs at hr
        exact (Option.some.inj hr).symm
      subst this
      dsimp only
      rw [hb]
      rfl
  have hmod := Nat.mod_eq_of_lt h31
  by_cases h20 : b.length < 20
  · have : loadGlb L (some b) = .error .ioError := by
      refine key ?_
      unfold loadBinary
      rw [hmod, if_pos h20]
    exact ⟨fun _ => this, fun _ => this, fun _ => this, fun _ _ _ _ => this⟩
  · refine ⟨fun h => absurd h h20, fun h => ?_, fun h => ?_, fun k hk h hor => ?_⟩
    · refine key ?_
      unfold loadBinary
      rw [hmod, if_neg h20, if_pos h]
    · refine key ?_
      unfold loadBinary
      rw [hmod, if_neg h20]
      dsimp only
      split_ifs with h1 h2 h3
      · rfl
      · rfl
      all_goals
        exfalso
        push Not at h2
        have h16 := h2.2.2
        obtain ⟨c0, c1, c2, c3, t, ht⟩ : ∃ c0 c1 c2 c3 t, b.drop 16 = c0 :: c1 :: c2 :: c3 :: t := four_of_length (by
          rw [List.length_drop]; omega)
        unfold uintAt uintCodec at h16
        rw [ht] at h h16
        simp only [List.getD_cons_zero, List.getD_cons_succ] at h16
        have g0 := c0.toNat_lt
        have g1 := c1.toNat_lt
        have g2 := c2.toNat_lt
        have g3 := c3.toNat_lt
        refine h ?_
        simp only [List.take_succ_cons, List.take_zero, List.cons.injEq, and_true]
        exact ⟨UInt8.toNat_inj.1 (show c0.toNat = 74 by omega), UInt8.toNat_inj.1 (show c1.toNat = 83 by omega),
          UInt8.toNat_inj.1 (show c2.toNat = 79 by omega), UInt8.toNat_inj.1 (show c3.toNat = 78 by omega)⟩
    · refine key ?_
      have hu : uintAt b 12 = k := by
        unfold uintAt
        rw [← List.take_append_drop 4 (b.drop 12), h]
        exact dec_enc_append (n := k) (by omega) _
      unfold loadBinary
      rw [hmod, if_neg h20]
      dsimp only
      rw [hu]
      split_ifs with h1 h2 h3
      · rfl
      · rfl
      all_goals
        exfalso
        push Not at h2
        rw [Nat.mod_eq_of_lt (show 20 + k < 2 ^ 32 by omega)] at h2
        omega

example : loadGlb exLoader (some (List.replicate 100 0)) = .error .ioError :=
  ((C125_partial exLoader).2 _ (by simp)).2.1 (by decide)

/-- C125 is also false for files that were not cut off, but damaged: if the length of the JSON part is close to 2³², the sum with
the length of the header is small, and the loader reads behind the end. -/
theorem C125_overflow (L : Loader) {b h t : List UInt8} (hh : h.length = 8) (n : UInt8) (hn : 236 ≤ n.toNat)
    (hb : b = [103, 108, 84, 70] ++ h ++ [n, 255, 255, 255] ++ [74, 83, 79, 78] ++ t) (h31 : b.length < 2 ^ 31) :
    loadGlb L (some b) = .error .undefined := by
  obtain ⟨h0, h1, h2, h3, h', rfl⟩ := four_of_length (l := h) (by omega)
  obtain ⟨h4, h5, h6, h7, h'', rfl⟩ := four_of_length (l := h') (by simp at hh; omega)
  obtain rfl : h'' = [] := by simpa using hh
  have hl : b.length = 20 + t.length := by rw [hb]; simp; omega
  have hlt := n.toNat_lt
  have u12 : uintAt b 12 = n.toNat + 256 * 255 + 65536 * 255 + 16777216 * 255 := by rw [hb]; simp [uintAt, uintCodec]
  have u16 : uintAt b 16 = 0x4E4F534A := by rw [hb]; simp [uintAt, uintCodec]
  have t4 : b.take 4 = [103, 108, 84, 70] := by rw [hb]; rfl
  unfold loadGlb
  rw [readWhole_ok (by intro e; rw [e] at hl; simp at hl; omega) h31]
  dsimp only
  have : loadBinary L b = ({}, .error .undefined) := by
    unfold loadBinary
    rw [Nat.mod_eq_of_lt (by omega)]
    dsimp only
    rw [if_neg (by omega), if_neg (by rw [t4]; simp)]
    have c : ¬ (b.length < (20 + uintAt b 12) % 2 ^ 32 ∨ uintAt b 12 < 1 ∨ uintAt b 16 ≠ 0x4E4F534A) := by
      rintro (h | h | h)
      · rw [u12] at h; omega
      · rw [u12] at h; omega
      · exact h u16
    have c' : b.length < 20 + uintAt b 12 := by
      rw [u12]
      calc b.length < 2 ^ 31 := h31
        _ ≤ 20 + (n.toNat + 256 * 255 + 65536 * 255 + 16777216 * 255) := by omega
    rw [if_neg c, if_pos c']
  rw [this]
  rfl

example : loadGlb exLoader (some ([103, 108, 84, 70] ++ [2, 0, 0, 0, 20, 0, 0, 0] ++ [236, 255, 255, 255] ++ [74, 83, 79, 78] ++ [])) =
    .error .undefined :=
  C125_overflow exLoader rfl 236 (by decide) rfl (by decide)

/-! ### Files that are missing -/

/-- C126 (partial): a saved glTF file whose `root.bin` is missing or has another size is not loaded; an `IOError` is raised. -/
theorem C126_partial (hF : Faithful W L printed round) (h : History W L M l) (hg : ∃ m ∈ l, HasGeometry m) {root : String}
    (hr : RootName root) (f : Folder) :
    ∃ f' d, saveAsGltf W (some f) M root = (M, some f', .ok ()) ∧ f'.file (root ++ ".bin") = some d ∧ d ≠ [] ∧
      ∀ files : Files, (∀ b, files (root ++ ".bin") = some b → b.length ≠ d.length) →
        loadGltf { L with file := files } (f'.file (root ++ ".gltf")) = .error .ioError := by
  obtain ⟨hM, ms, hm, hs⟩ := sane hF h
  have hM : Good M := by
    rcases hM with ⟨_, rfl⟩ | hM
    · obtain ⟨m, hm, _⟩ := hg
      simp at hm
    · exact hM
  obtain ⟨d, hd⟩ := hM.buffers
  obtain ⟨pics, f', p1, p2, p3, p4⟩ := saveAsGltf_good hF hM hd hr f
  refine ⟨f', d, p2, p3 _ List.mem_cons_self, data_of_geometry hd hm hs hg, fun files hb => ?_⟩
  rw [p3 (root ++ ".gltf", _) (List.mem_cons_of_mem _ List.mem_cons_self)]
  exact loadGltf_other_buffer (hF.files files) hM hd hr hb rfl

example := C126_partial exFaithful (tinyModel_history _ _) tinyModel_geometry (root := "room") ⟨by decide, by decide⟩
  ⟨fun _ => none, []⟩

/-- C126 is false for the pictures: if they are missing, the file is loaded, and the images of the model have no pixels. -/
theorem C126_false (hF : Faithful W L printed round) (h : History W L M l) (hg : ∃ m ∈ l, HasGeometry m) {root : String}
    (hr : RootName root) (f : Folder) :
    ∃ f', saveAsGltf W (some f) M root = (M, some f', .ok ()) ∧
      (SmallFiles f' → ∀ files : Files, files (root ++ ".bin") = f'.file (root ++ ".bin") →
        (∀ i : ℕ, files (toString i ++ ".png") = none) →
        ∃ N, loadGltf { L with file := files } (f'.file (root ++ ".gltf")) = .ok N ∧ N.images.length = M.images.length ∧
          ∀ img ∈ N.images, img.image = []) := by
  obtain ⟨hM, ms, hm, hs⟩ := sane hF h
  have hM : Good M := by
    rcases hM with ⟨_, rfl⟩ | hM
    · obtain ⟨m, hm, _⟩ := hg
      simp at hm
    · exact hM
  obtain ⟨d, hd⟩ := hM.buffers
  obtain ⟨pics, f', p1, p2, p3, p4⟩ := saveAsGltf_good hF hM hd hr f
  have hbin := p3 _ List.mem_cons_self
  have htext := p3 (root ++ ".gltf", _) (List.mem_cons_of_mem _ List.mem_cons_self)
  refine ⟨f', p2, fun hsmall files hb hno => ?_⟩
  obtain ⟨N, n1, n2⟩ := loadGltf_no_pictures (hF.files files) hM hd hr (hb.trans hbin) (hsmall _ _ hbin) (hsmall _ _ htext)
    (fun img hi => by
      obtain ⟨k, hk⟩ := hM.images.uri_of_mem hi
      rw [hk]
      exact hno k) (data_of_geometry hd hm hs hg)
  rw [htext]
  refine ⟨N, n1, by rw [n2, List.length_map], fun img hi => ?_⟩
  rw [n2] at hi
  obtain ⟨_, _, rfl⟩ := List.mem_map.1 hi
  rfl

/-- The example has a picture. -/
example : tinyModel.images.length = 1 := by rfl

end Gltf
end Sumo
