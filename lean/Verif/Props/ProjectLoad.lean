import Verif.Props.Project
import Verif.Props.SceneLoad
import Verif.Props.Box

/-!
# Loading any project folder (C146)

Whatever is in the folder: which folders are refused, and what a scene that was loaded has to do with the files.  Also what the
bounds written for a mesh object are, in terms of the bits of its vertices.
-/

namespace Sumo

/-- The number of an IEEE 754 binary32 pattern that is neither infinite nor a NaN: sign bit, eight exponent bits, 23 fraction bits. -/
def ieeeValue (b : BitVec 32) : ℚ :=
  let e := (b.extractLsb' 23 8).toNat
  let f := (b.extractLsb' 0 23).toNat
  (-1) ^ (b.extractLsb' 31 1).toNat * (if e = 0 then (f : ℚ) / 2 ^ 23 * 2 ^ (-126 : ℤ) else (1 + (f : ℚ) / 2 ^ 23) * 2 ^ ((e : ℤ) - 127))

theorem toRat_eq_ieee (x : F32) : x.toRat = ieeeValue x.bits.toBitVec := by
  obtain ⟨⟨b⟩⟩ := x
  have hb := b.isLt
  unfold F32.toRat ieeeValue F32.magnitude
  simp only [BitVec.extractLsb'_toNat, Nat.shiftRight_eq_div_pow, UInt32.toNat, pow_zero, Nat.div_one]
  have e1 : b.toNat % 2147483648 / 8388608 = b.toNat / 2 ^ 23 % 2 ^ 8 := by omega
  have e2 : b.toNat % 2147483648 % 8388608 = b.toNat % 2 ^ 23 := by omega
  rw [e1, e2]
  have hs : b.toNat / 2 ^ 31 % 2 ^ 1 = if 2147483648 ≤ b.toNat then 1 else 0 := by split_ifs <;> omega
  rw [hs]
  have hv : (if b.toNat / 2 ^ 23 % 2 ^ 8 = 0 then ((b.toNat % 2 ^ 23 : ℕ) : ℚ) / 2 ^ 149
      else (8388608 + ((b.toNat % 2 ^ 23 : ℕ) : ℚ)) * 2 ^ (b.toNat / 2 ^ 23 % 2 ^ 8) / 2 ^ 150) =
      (if b.toNat / 2 ^ 23 % 2 ^ 8 = 0 then ((b.toNat % 2 ^ 23 : ℕ) : ℚ) / 2 ^ 23 * 2 ^ (-126 : ℤ)
      else (1 + ((b.toNat % 2 ^ 23 : ℕ) : ℚ) / 2 ^ 23) * 2 ^ (((b.toNat / 2 ^ 23 % 2 ^ 8 : ℕ) : ℤ) - 127)) := by
    split_ifs
    · rw [zpow_neg]; norm_num; ring
    · rw [zpow_sub₀ (by norm_num), zpow_natCast]; norm_num; ring
  rw [hv]
  split_ifs <;> ring

namespace Project

open GlbSave

variable {E : Env}

theorem loadElements_last {os : Os} {folder : Path} {pt : String} (cs : List Xml) (d : ObjectDict (ops E))
    (h : loadElements E os pt folder cs = .ok (some d)) :
    ∃ c, (cs.filter fun c => c.tag = "elements").getLast? = some c ∧ loadObjects E os pt c folder = .ok d := by
  unfold loadElements at h
  induction cs using List.reverseRecOn generalizing d with
  | nil => simp [pure, Except.pure] at h
  | append_singleton cs c ih =>
    rw [List.foldlM_append] at h
    simp only [List.foldlM_cons, List.foldlM_nil, bind, Except.bind, pure, Except.pure] at h
    split at h
    · simp at h
    · rename_i st hst
      by_cases hc : c.tag = "elements"
      · refine ⟨c, by rw [List.filter_append]; simp [hc], ?_⟩
        rw [if_pos hc] at h
        cases hl : loadObjects E os pt c folder with
        | error e => rw [hl] at h; simp at h
        | ok d' => rw [hl] at h; simpa using h
      · rw [if_neg hc] at h
        simp only [Except.ok.injEq] at h
        subst h
        obtain ⟨c', h1, h2⟩ := ih d hst
        exact ⟨c', by rw [List.filter_append]; simp [hc, h1], h2⟩

/-- What one `<element>` and the files say about an object. -/
def FromFiles (E : Env) (os : Os) (folder : Path) (pt : String) (c : Xml) (o : ProjectObject (ops E)) : Prop :=
  ∃ b st, ProjectObject.parseXml E.T c = .ok (o.id, b, st) ∧ o.projectType = pt ∧ o.bounds = some b ∧ o.pose = st.pose ∧
    o.category = st.category ∧ o.symmetry = st.symmetry.getD ProjectObject.noSymmetry ∧ o.score = st.score ∧ o.evaluated = st.evaluated ∧
    (pt = "bounding_box" ∧ o.voxels = none ∧ o.meshes = none ∨
     pt = "voxels" ∧ o.meshes = none ∧ (∃ bytes f, (folder.join (o.id ++ ".h5")).read os = some bytes ∧ E.h5Read bytes = some f ∧
      o.voxels = some ⟨f.scale, f.minCorner, f.voxels3d, f.sizeX, f.sizeY⟩) ∨
     pt = "meshes" ∧ o.voxels = none ∧ ∃ bytes M, (folder.join (o.id ++ ".glb")).read os = some bytes ∧
      Gltf.loadGlb E.L (some bytes) = .ok M ∧ o.meshes = some M)

theorem FromFiles.id_eq {os : Os} {folder : Path} {pt : String} {c : Xml} {o o' : ProjectObject (ops E)}
    (h : FromFiles E os folder pt c o) (h' : FromFiles E os folder pt c o') : o.id = o'.id := by
  obtain ⟨b, st, e, -⟩ := h
  obtain ⟨b', st', e', -⟩ := h'
  rw [e] at e'
  simp only [Except.ok.injEq, Prod.mk.injEq] at e'
  exact e'.1

theorem loadObject_files {os : Os} {folder : Path} {pt : String} {c : Xml} {o : ProjectObject (ops E)}
    (hno : ∀ M, Gltf.loadGlb E.L none ≠ .ok M) (h : loadObject E os pt c folder = .ok o) : FromFiles E os folder pt c o := by
  unfold loadObject at h
  simp only [bind, Except.bind] at h
  split at h
  · cases h
  rename_i r hr
  obtain ⟨id, b, st⟩ := r
  dsimp only at h
  split_ifs at h with h1 h2 h3
  · simp only [ProjectObject.genBoundingBox, ProjectObject.init, if_true, Option.getD_some, Except.ok.injEq] at h
    subst h
    exact ⟨b, st, hr, h1.symm, rfl, rfl, rfl, rfl, rfl, rfl, Or.inl ⟨h1, rfl, rfl⟩⟩
  · split at h
    · cases h
    · rename_i f hf
      obtain ⟨bytes, hb, hf⟩ := Option.bind_eq_some_iff.1 hf
      simp only [ProjectObject.genVoxels, ProjectObject.init, if_true, Option.getD_some] at h
      rw [if_neg (by decide)] at h
      cases h
      exact ⟨b, st, hr, h2.symm, rfl, rfl, rfl, rfl, rfl, rfl, Or.inr (Or.inl ⟨h2, rfl, bytes, f, hb, hf, rfl⟩)⟩
  · split at h
    · cases h
    · rename_i M hM
      simp only [ProjectObject.genMeshes, ProjectObject.init, if_true, Option.getD_some] at h
      rw [if_neg (by decide), if_neg (by decide)] at h
      cases h
      cases hb : (folder.join (id ++ ".glb")).read os with
      | none => rw [hb] at hM; exact absurd hM (hno M)
      | some bytes =>
        rw [hb] at hM
        exact ⟨b, st, hr, h3.symm, rfl, rfl, rfl, rfl, rfl, rfl, Or.inr (Or.inr ⟨h3, rfl, bytes, M, hb, hM, rfl⟩)⟩

theorem loadGlb_none (L : Gltf.Loader) (M : Gltf.Model) : Gltf.loadGlb L none ≠ .ok M := by
  intro h
  simp [Gltf.loadGlb, Gltf.readWhole] at h

theorem loadObjects_files {os : Os} {folder : Path} {pt : String} {e : Xml} {d : ObjectDict (ops E)}
    (h : loadObjects E os pt e folder = .ok d) : d.NodupKeys ∧
    (∀ k o, (k, o) ∈ d → k = o.id ∧ ∃ before c after, e.children = before ++ c :: after ∧ c.tag = "element" ∧ FromFiles E os folder pt c o ∧
      ∀ c' ∈ after, c'.tag = "element" → ∀ o', FromFiles E os folder pt c' o' → o'.id ≠ k) ∧
    (∀ c ∈ e.children, c.tag = "element" → ∃ o, FromFiles E os folder pt c o ∧ o.id ∈ d.keys) := by
  unfold loadObjects at h
  obtain ⟨tag, attrs, text, cs⟩ := e
  simp only [Xml.children] at h ⊢
  induction cs using List.reverseRecOn generalizing d with
  | nil =>
    simp only [List.foldlM_nil, pure, Except.pure, Except.ok.injEq] at h
    subst h
    exact ⟨by simp [Dict.NodupKeys, Dict.keys], by simp, by simp⟩
  | append_singleton cs c ih =>
    rw [List.foldlM_append] at h
    simp only [List.foldlM_cons, List.foldlM_nil, bind, Except.bind, pure, Except.pure] at h
    split at h
    · cases h
    rename_i d' hd'
    obtain ⟨i0, i1, i2⟩ := ih hd'
    by_cases hc : c.tag = "element"
    · rw [if_pos hc] at h
      cases hl : loadObject E os pt c folder with
      | error err => rw [hl] at h; cases h
      | ok po =>
        rw [hl] at h
        simp only [Except.ok.injEq] at h
        subst h
        have hf := loadObject_files (loadGlb_none E.L) hl
        refine ⟨Dict.nodupKeys_set i0 _ _, fun k o hko => ?_, fun x hx ht => ?_⟩
        · rcases (Dict.mem_set i0 _ _ _).1 hko with hko | ⟨hne, hko⟩
          · obtain ⟨rfl, rfl⟩ := Prod.mk.inj hko
            exact ⟨rfl, cs, c, [], rfl, hc, hf, by simp⟩
          · obtain ⟨a, before, x, after, e1, e2, e3, e4⟩ := i1 k o hko
            refine ⟨a, before, x, after ++ [c], by rw [e1]; simp, e2, e3, fun c' hc' ht o' ho' => ?_⟩
            rcases List.mem_append.1 hc' with hc' | hc'
            · exact e4 c' hc' ht o' ho'
            · rw [List.mem_singleton] at hc'
              subst hc'
              rw [ho'.id_eq hf]
              exact Ne.symm hne
        · rcases List.mem_append.1 hx with hx | hx
          · obtain ⟨o, ho, hk⟩ := i2 x hx ht
            exact ⟨o, ho, (Dict.mem_keys_set _ _ _ _).2 (Or.inr hk)⟩
          · rw [List.mem_singleton] at hx
            subst hx
            exact ⟨po, hf, (Dict.mem_keys_set _ _ _ _).2 (Or.inl rfl)⟩
    · rw [if_neg hc] at h
      simp only [Except.ok.injEq] at h
      subst h
      refine ⟨i0, fun k o hko => ?_, fun x hx ht => ?_⟩
      · obtain ⟨a, before, x, after, e1, e2, e3, e4⟩ := i1 k o hko
        refine ⟨a, before, x, after ++ [c], by rw [e1]; simp, e2, e3, fun c' hc' ht o' ho' => ?_⟩
        rcases List.mem_append.1 hc' with hc' | hc'
        · exact e4 c' hc' ht o' ho'
        · rw [List.mem_singleton] at hc'
          subst hc'
          exact absurd ht hc
      · rcases List.mem_append.1 hx with hx | hx
        · exact i2 x hx ht
        · rw [List.mem_singleton] at hx
          subst hx
          exact absurd ht hc

/-- **C146** What is refused, and how: no scene file gives `IOError`, a file that is not XML `ParseError`; a document that is not a
`<scene>`, one without `<project_type>` and one whose last `<project_type>` is empty give `ValueError`. -/
theorem C146_refused (h : Heap) (os : Os) (path : Path) (name : String) :
    (((path.join name).join (name ++ ".xml")).read os = none → loadScene E h os path name = .error .ioError) ∧
    ∀ bytes, ((path.join name).join (name ++ ".xml")).read os = some bytes →
      (E.xmlParse bytes = none → loadScene E h os path name = .error .parseError) ∧
      ∀ root, E.xmlParse bytes = some root →
        (root.tag ≠ "scene" → loadScene E h os path name = .error .valueError) ∧
        (root.last "project_type" = none → loadScene E h os path name = .error .valueError) ∧
        (∀ c, root.last "project_type" = some c → c.text = none → loadScene E h os path name = .error .valueError) := by
  unfold loadScene
  dsimp only
  refine ⟨fun hn => by rw [hn], fun bytes hb => ?_⟩
  rw [hb]
  dsimp only
  refine ⟨fun hn => by rw [hn], fun root hr => ?_⟩
  rw [hr]
  dsimp only
  refine ⟨fun ht => by rw [if_pos ht], fun hp => ?_, fun c hp hc => ?_⟩
  · split_ifs
    · rfl
    · unfold Xml.last at hp
      rw [readHeader_type, hp]
      rfl
  · split_ifs
    · rfl
    · unfold Xml.last at hp
      rw [readHeader_type, hp, Option.bind_some, hc]

/-- **C146** A scene that was loaded says what the files say: it comes from a `<scene>` whose last `<project_type>` is its type; its
elements are keyed by their ids, each comes from the last `<element>` with this id of the last `<elements>` and the file named after
its id, and no `<element>` was passed over.  It has a settings dictionary of its own; no other one changes. -/
theorem C146_loaded {h h' : Heap} {os : Os} {path : Path} {name : String} {s : ProjectScene (ops E)}
    (hl : loadScene E h os path name = .ok (h', s)) :
    ∃ bytes root cp ce, ((path.join name).join (name ++ ".xml")).read os = some bytes ∧ E.xmlParse bytes = some root ∧ root.tag = "scene" ∧
      root.last "project_type" = some cp ∧ cp.text = some s.projectType ∧ s.projectType ∈ ["bounding_box", "voxels", "meshes"] ∧
      root.last "elements" = some ce ∧ s.constrained = true ∧ s.elements.NodupKeys ∧
      (∀ k o, (k, o) ∈ s.elements → k = o.id ∧ ∃ before c after, ce.children = before ++ c :: after ∧ c.tag = "element" ∧
        FromFiles E os (path.join name) s.projectType c o ∧
        ∀ c' ∈ after, c'.tag = "element" → ∀ o', FromFiles E os (path.join name) s.projectType c' o' → o'.id ≠ k) ∧
      (∀ c ∈ ce.children, c.tag = "element" → ∃ o, FromFiles E os (path.join name) s.projectType c o ∧ o.id ∈ s.elements.keys) ∧
      s.settings = h.next ∧ (∀ a, a ≠ h.next → h'.cells a = h.cells a) ∧
      (h'.cells s.settings).get? "version" = (root.last "version").map Xml.text := by
  unfold loadScene at hl
  dsimp only at hl
  split at hl
  · cases hl
  rename_i bytes hb
  split at hl
  · cases hl
  rename_i root hr
  split_ifs at hl with ht
  split at hl
  · cases hl
  rename_i pt hpt
  simp only [bind, Except.bind] at hl
  split at hl
  · cases hl
  rename_i o ho
  split at hl
  · cases hl
  rename_i d
  split at hl
  · cases hl
  rename_i s' hs'
  unfold ProjectScene.init at hs'
  split_ifs at hs' with hm
  cases hs'
  cases hl
  obtain ⟨ce, hce, hload⟩ := loadElements_last _ _ ho
  rw [readHeader_type] at hpt
  obtain ⟨cp, hcp, hcpt⟩ := Option.bind_eq_some_iff.1 hpt
  obtain ⟨f0, f1, f2⟩ := loadObjects_files hload
  refine ⟨bytes, root, cp, ce, hb, hr, not_not.1 ht, hcp, hcpt, hm, hce, rfl, f0, f1, f2, rfl, fun a ha => ?_, ?_⟩
  · simp [Heap.alloc, ha]
  · simp only [Heap.alloc, Option.getD_some, if_true]
    exact readHeader_version _

/-- **C146** The bounds in the file of a mesh object are the smallest box around the vertices of its meshes, taken as the numbers
their bits stand for, unless a mesh is empty. -/
theorem C146_bounds {o : ProjectObject (ops E)} {M : Gltf.Model} {ms : List AnyMesh} (ht : o.projectType = "meshes") (hm : o.meshes = some M)
    (hms : M.primitiveMeshes = .ok ms) (hne : ms ≠ []) (hv : ∀ m ∈ ms, (m.elim id TexturedMesh.toMesh).vertices ≠ []) :
    ∃ x b, o.toXml E.T = .ok x ∧ x.last "bounds" = some ((Box3d.toXml E.T b).withTag "bounds") ∧
      let points := ms.flatMap fun m => (m.elim id TexturedMesh.toMesh).vertices.map fun v =>
        (⟨ieeeValue v.x.bits.toBitVec, ieeeValue v.y.bits.toBitVec, ieeeValue v.z.bits.toBitVec⟩ : Vec3 ℚ)
      (∀ p ∈ points, BoxSpec.Mem b p) ∧ BoxSpec.Tight b points := by
  have hp : (ms.map verticesOf).flatten = ms.flatMap fun m => (m.elim id TexturedMesh.toMesh).vertices.map fun v =>
        (⟨ieeeValue v.x.bits.toBitVec, ieeeValue v.y.bits.toBitVec, ieeeValue v.z.bits.toBitVec⟩ : Vec3 ℚ) := by
    rw [← List.flatMap_def]
    unfold verticesOf
    simp only [toRat_eq_ieee]
  obtain ⟨-, h1, h2⟩ := C41_bbox_meshes (ms.map verticesOf) (by simpa using hne) (by
    intro l hl
    obtain ⟨m, hm, rfl⟩ := List.mem_map.1 hl
    simpa [verticesOf] using hv m hm)
  have hb : o.xmlBounds = .ok (bboxOfMeshes (ms.map verticesOf)) := by
    unfold ProjectObject.xmlBounds
    rw [if_pos ht, hm]
    simp only [ops, hms, bind, Except.bind]
  obtain ⟨x, hx, hx'⟩ : ∃ x, o.toXml E.T = .ok x ∧
      x.last "bounds" = some ((Box3d.toXml E.T (bboxOfMeshes (ms.map verticesOf))).withTag "bounds") := by
    unfold ProjectObject.toXml
    rw [hb]
    refine ⟨_, rfl, ?_⟩
    simp [Xml.last, Xml.children, Xml.leaf, Xml.tag, Xml.withTag, Box3d.toXml, Pose3.toXml, ObjectSymmetry.toXml]
  refine ⟨x, bboxOfMeshes (ms.map verticesOf), hx, hx', ?_⟩
  rw [← hp]
  refine ⟨fun p hp' => ?_, h2⟩
  obtain ⟨l, hl, hpl⟩ := List.mem_flatten.1 hp'
  exact h1 l hl p hpl

/-! ### Non-vacuity -/

/-- The hypothesis of `C146_loaded` is met by the scene of voxels of `Props/Project`, saved and loaded. -/
example : ∃ os h' s, loadScene exEnv .start os ⟨false, []⟩ "p" = .ok (h', s) ∧ s.elements.keys = ["v"] := by
  obtain ⟨fx, r, h1, h2, -, -, -, h3⟩ := C131_partial exEnv_faithful .start (os := exOs) (temps := exTemps) (path := ⟨false, []⟩) (name := "p")
    (s := exVoxelScene) (by unfold FileName; decide) exOs_free exTemps_fresh (Or.inr (by decide)) (by decide) rfl
    ⟨by unfold Dict.NodupKeys; decide, by
      intro kv hkv
      simp only [exVoxelScene, List.mem_cons, List.not_mem_nil, or_false] at hkv
      subst hkv; rfl⟩ exVoxelScene_whole exSettings
  rcases h2 with rfl | ⟨-, h2⟩
  · obtain ⟨h', s', l1, -, -, -, l2⟩ := h3 rfl (fun e => absurd e (by decide))
    refine ⟨_, h', s', l1, ?_⟩
    have h : List.Forall₂ (fun a b => b = a) exVoxelScene.elements.keys s'.elements.keys :=
      List.forall₂_map_left_iff.2 (List.forall₂_map_right_iff.2 (l2.imp fun _ _ h => h.1))
    rw [List.forall₂_eq_eq_eq.le _ _ h.flip]
    rfl
  · exact absurd h2 (by decide)

/-- `C146_refused` on an empty disk. -/
example : loadScene exEnv .start exOs ⟨true, ["home"]⟩ "p" = .error .ioError := (C146_refused .start exOs ⟨true, ["home"]⟩ "p").1 rfl

/-- 1.5, -2.5 and the smallest positive number. -/
example : ieeeValue 0x3fc00000#32 = 3 / 2 ∧ ieeeValue 0xc0200000#32 = -5 / 2 ∧ ieeeValue 1#32 = 1 / 2 ^ 149 := by
  refine ⟨?_, ?_, ?_⟩ <;> decide +kernel

/-- The hypotheses of `C146_bounds` are met by the chair. -/
example : ∃ ms, Gltf.tinyModel.primitiveMeshes = .ok ms ∧ ms ≠ [] ∧ ∀ m ∈ ms, (m.elim id TexturedMesh.toMesh).vertices ≠ [] := by
  have h : (match Gltf.tinyModel.primitiveMeshes with
      | .error _ => false
      | .ok ms => !ms.isEmpty && ms.all fun m => !(m.elim id TexturedMesh.toMesh).vertices.isEmpty) = true := by decide +kernel
  split at h
  · cases h
  · rename_i ms hms
    simp only [Bool.and_eq_true, Bool.not_eq_true', List.isEmpty_eq_false_iff, List.all_eq_true] at h
    exact ⟨ms, hms, h⟩

end Project
end Sumo
