import Verif.Lemmas.ProjectKilled
import Verif.Lemmas.ProjectExample

/-! # Project folders (C131–C133) -/

namespace Sumo
namespace Project

open GlbSave

variable {E : Env} {printed : Gltf.Number → Option ℚ} {round : ℚ → ℚ}

theorem isFile_eq (os : Os) (d : Dir) (n : String) : isFile os (d ++ [n]) = (os.file d n).isSome := by
  unfold isFile
  simp

theorem blocked_iff (os : Os) (d : Dir) : blocked os d = false ↔ Free os d := by
  unfold blocked Free
  rw [Bool.or_eq_false_iff, List.any_eq_false]
  refine and_congr_right fun _ => ⟨fun h above name hp => ?_, fun h x hx => ?_⟩
  · have := h _ ((List.mem_inits _ _).2 hp)
    rw [isFile_eq] at this
    simpa using this
  · rw [List.mem_inits] at hx
    rcases List.eq_nil_or_concat x with rfl | ⟨a, n, rfl⟩
    · simp [isFile]
    · rw [List.concat_eq_append] at hx ⊢
      rw [isFile_eq, h a n hx]
      simp

theorem xml_ne {a b e : String} (h : e = ".glb" ∨ e = ".h5") : a ++ ".xml" ≠ b ++ e := by
  intro h'
  have := congrArg (fun s : String => s.toList.reverse.head?) h'
  rcases h with rfl | rfl <;> simp [String.toList_append] at this

theorem loadElements_four {os : Os} {folder : Path} (pt : String) {a b c e : Xml} {d : ObjectDict (ops E)}
    (ha : a.tag ≠ "elements") (hb : b.tag ≠ "elements") (hc : c.tag ≠ "elements") (he : e.tag = "elements")
    (hd : loadObjects E os pt e folder = .ok d) : loadElements E os pt folder [a, b, c, e] = .ok (some d) := by
  unfold loadElements
  simp only [List.foldlM_cons, List.foldlM_nil, if_neg ha, if_neg hb, if_neg hc, if_pos he, hd, bind, Except.bind, pure,
    Except.pure]

/-- **C131** (partial: for absolute paths or projects without meshes.)  A scene can be saved to a free place and loaded from there:
same project type and settings, same elements in the same order, with their poses, bounds, voxels and meshes.  Saving fails only
for mesh files of 4 GiB or more, loading only for mesh files of 2 GiB or more.  In the file system only the project folder is new;
the temporary folders are gone, and the scene is what it was. -/
theorem C131_partial (hE : E.Faithful printed round) (h : Heap) {os : Os} {temps : ℕ → Dir} {path : Path} {name : String}
    {s : ProjectScene (ops E)} (hn : FileName name) (hfree : Free os (path.dir os ++ [name]))
    (ht : ∀ i, Fresh os (temps i) ∧ ¬ temps i <+: path.dir os ++ [name])
    (hp : path.absolute = true ∨ s.projectType ≠ "meshes")
    (hpt : s.projectType ∈ ["bounding_box", "voxels", "meshes"]) (hd : s.constrained = true) (hk : KeyedById s.elements)
    (hs : ∀ o ∈ s.elements.values, Whole E o ∧ o.projectType = s.projectType ∧ XmlText o.id ∧
      ∀ c, o.category = some c → XmlText c)
    (hset : ∀ k ∈ fileSettings, ∃ v, (h.cells s.settings).get? k = some v ∧ ∀ x, v = some x → XmlText x) :
    ∃ fx r, saveScene E h os temps path name s = (s, fx, r) ∧
      (r = .ok () ∨ r = .error .structError ∧ s.projectType = "meshes") ∧
      (runAll os fx).cwd = os.cwd ∧
      (∀ d, (runAll os fx).isDir d = true ↔ os.isDir d = true ∨ d <+: path.dir os ++ [name]) ∧
      (∀ d n, d ≠ path.dir os ++ [name] → (runAll os fx).file d n = os.file d n) ∧
      (r = .ok () →
        (s.projectType = "meshes" → ∀ o ∈ s.elements.values, ∀ b, (runAll os fx).file (path.dir os ++ [name]) (o.id ++ ".glb") = some b → b.length < 2 ^ 31) →
        ∃ h' s', loadScene E h (runAll os fx) path name = .ok (h', s') ∧
          s'.projectType = s.projectType ∧ s'.constrained = true ∧
          (∀ k ∈ fileSettings, (h'.cells s'.settings).get? k = (h.cells s.settings).get? k) ∧
          List.Forall₂ (fun kv kv' => kv'.1 = kv.1 ∧ Back E round kv.2 kv'.2) s.elements s'.elements) := by
  have hnd : (s.elements.values.map (·.id)).Nodup := by rw [← keyedById_ids hk]; exact hk.1
  obtain ⟨ver, hv1, hv2⟩ := hset "version" (by simp [fileSettings])
  obtain ⟨cid, hc1, hc2⟩ := hset "categories_id" (by simp [fileSettings])
  obtain ⟨url, hu1, hu2⟩ := hset "categories_url" (by simp [fileSettings])
  have hptx : XmlText s.projectType := by
    simp only [List.mem_cons, List.not_mem_nil, or_false] at hpt
    rcases hpt with e | e | e <;> rw [e] <;> exact xmlText_of_decide (by decide)
  have hdoc : ∀ e, ProjectScene.document (h.cells s.settings) s.projectType e =
      .ok (.node "scene" [("xmlns:sumo", "https://www.sumochallenge.org")] none
        [.node "version" [] ver [], .node "categories" [] none [.node "id" [] cid [], .node "url" [] url []],
         .leaf "project_type" s.projectType, e]) := by
    intro e
    unfold ProjectScene.document Dict.get
    rw [hv1, hc1, hu1]; rfl
  have hfolder : (path.join name).dir os = path.dir os ++ [name] := dir_join path os hn
  have hzip : ({ s with elements := s.elements.keys.zip s.elements.values } : ProjectScene (ops E)) = s := by
    have : s.elements.keys.zip s.elements.values = s.elements := by
      unfold Dict.keys Dict.values
      rw [List.zip_map']
      simp
    rw [this]
  -- the folder
  have m1 : ∀ d, (runAll os [.makedirs (path.dir os ++ [name])]).isDir d =
      (decide (d <+: path.dir os ++ [name]) || os.isDir d) := fun d => rfl
  have m2 : (path.join name).dir (runAll os [.makedirs (path.dir os ++ [name])]) = path.dir os ++ [name] :=
    (dir_cwd _ rfl).trans hfolder
  have m3 : (path.join name).absolute = true ∨ ∀ o ∈ s.elements.values, o.projectType ≠ "meshes" := by
    rw [join_name path hn]
    exact hp.imp id (fun hne o ho => by rw [(hs o ho).2.1]; exact hne)
  obtain ⟨fx, r, e1, q1, -, hr⟩ := saveObjects_whole hE s.elements.values (runAll os [.makedirs (path.dir os ++ [name])]) temps
    (fun o ho => (hs o ho).1) hnd (fun i => by
      rw [m2]
      refine ⟨⟨fun d hd' => ?_, fun d n hd' => (ht i).1.2 d n hd'⟩, (ht i).2⟩
      rw [m1, (ht i).1.1 d hd', decide_eq_false (fun hpre => (ht i).2 (hd'.trans hpre)), Bool.or_false])
    (by rw [m2, m1]; simp) m3
  rw [m2] at q1 hr
  have hquiet : (runAll os (.makedirs (path.dir os ++ [name]) :: fx)) =
      runAll (runAll os [.makedirs (path.dir os ++ [name])]) fx := rfl
  have hdirs : ∀ d, (runAll os (.makedirs (path.dir os ++ [name]) :: fx)).isDir d = true ↔
      os.isDir d = true ∨ d <+: path.dir os ++ [name] := fun d => by
    rw [hquiet, q1.isDir, m1, Bool.or_eq_true, decide_eq_true_iff]
    exact or_comm
  unfold saveScene
  dsimp only
  rw [hfolder, if_neg (by rw [(blocked_iff _ _).2 hfree]; simp), hdoc]
  dsimp only
  rw [if_neg (by rw [hd]; simp), e1]
  rcases hr with ⟨rfl, o, ho, hm⟩ | ⟨xs, rfl, hx, hin⟩
  · refine ⟨.makedirs (path.dir os ++ [name]) :: fx, .error .structError, by dsimp only; rw [hzip], Or.inr ⟨rfl, (hs o ho).2.1 ▸ hm⟩, q1.cwd, hdirs,
      q1.file, fun e => by cases e⟩
  · have hxml : FileName (name ++ ".xml") := fileName_ext hn.2 fileName_xml
    dsimp only
    rw [hdoc]
    dsimp only
    rw [join_file _ hxml, hzip, resolve_file]
    have m4 : (path.join name).dir (runAll os (.makedirs (path.dir os ++ [name]) :: fx)) = path.dir os ++ [name] :=
      (dir_cwd _ q1.cwd).trans m2
    rw [m4, if_pos ((hdirs _).2 (Or.inr (List.prefix_refl _)))]
    generalize hdc : (Xml.node "scene" [("xmlns:sumo", "https://www.sumochallenge.org")] none
        [.node "version" [] ver [], .node "categories" [] none [.node "id" [] cid [], .node "url" [] url []],
         .leaf "project_type" s.projectType, .node "elements" [] none xs]) = doc
    generalize hos : runAll os (.makedirs (path.dir os ++ [name]) :: fx) = os1 at *
    rw [← hquiet] at q1 hin
    have hrun : runAll os (.makedirs (path.dir os ++ [name]) :: fx ++ [.write (path.dir os ++ [name]) (name ++ ".xml") (E.xmlWrite doc)]) =
        os1.write (path.dir os ++ [name]) (name ++ ".xml") (E.xmlWrite doc) := by
      rw [runAll_append, hos]; rfl
    refine ⟨_, .ok (), rfl, Or.inl rfl, ?_⟩
    rw [hrun]
    refine ⟨q1.cwd, hdirs, fun d n hdn => ?_, fun _ hsmall => ?_⟩
    · show (if d = path.dir os ++ [name] ∧ n = name ++ ".xml" then _ else _) = _
      rw [if_neg (fun e => hdn e.1)]
      exact q1.file d n hdn
    · generalize hos2 : os1.write (path.dir os ++ [name]) (name ++ ".xml") (E.xmlWrite doc) = os2 at *
      have m5 : (path.join name).dir os2 = path.dir os ++ [name] := by rw [← hos2]; exact m4
      have hfile : ∀ n, n ≠ name ++ ".xml" → os2.file (path.dir os ++ [name]) n = os1.file (path.dir os ++ [name]) n := fun n hn' => by
        rw [← hos2]
        show (if _ then _ else _) = _
        rw [if_neg (fun e => hn' e.2)]
      have hrr : xs.map Xml.reread = xs := by
        have : List.Forall₂ (fun o x => x.reread = x) s.elements.values xs := by
          have := (List.forall₂_and_left _ _).2 ⟨fun o ho => (hs o ho).2.2, hx⟩
          refine this.imp ?_
          rintro o x ⟨⟨a1, a2⟩, b, -, -, -, rfl⟩
          exact reread_element E.T o b a1 a2
        clear * - this
        generalize s.elements.values = os at this
        induction this with
        | nil => rfl
        | cons hx _ ih => simp [hx, ih]
      have h4 : List.Forall₂ (fun o x => x.tag = "element" ∧ ∃ o', loadObject E os2 s.projectType x (path.join name) = .ok o' ∧
          Back E round o o') s.elements.values xs := by
        have := (List.forall₂_and_left _ _).2 ⟨fun o ho => (⟨(hs o ho).1, (hs o ho).2.1, hin o ho, fun e => hsmall ((hs o ho).2.1.symm.trans e) o ho⟩ :
          Whole E o ∧ o.projectType = s.projectType ∧ InFiles E round os1 (path.dir os ++ [name]) o ∧
            (o.projectType = "meshes" → ∀ b, os2.file (path.dir os ++ [name]) (o.id ++ ".glb") = some b → b.length < 2 ^ 31)), hx⟩
        refine this.imp ?_
        rintro o x ⟨⟨a1, a2, a3, a4⟩, b, -, b2, b3, rfl⟩
        obtain ⟨o', c1, c2⟩ := loadObject_back hE a1 b2 b3 (os := os2) (folder := path.join name)
          (by rw [m5]; exact a3.later (hfile _ (Ne.symm (xml_ne (Or.inl rfl)))) (hfile _ (Ne.symm (xml_ne (Or.inr rfl))))) (by rw [m5]; exact a4)
        exact ⟨rfl, o', by rw [← a2]; exact c1, c2⟩
      obtain ⟨l', i1, i2⟩ := loadObjects_back _ _ h4 hnd [] (by simp [Dict.keys])
      refine ⟨(h.alloc [("version", ver), ("categories_id", cid), ("categories_url", url)]).1,
        ⟨s.projectType, h.next, true, l'.map (fun o => (o.id, o))⟩, ?_, rfl, rfl, ?_, ?_⟩
      · unfold loadScene
        dsimp only
        have hread : ((path.join name).join (name ++ ".xml")).read os2 = some (E.xmlWrite doc) := by
          rw [read_file _ _ hxml, m5, ← hos2]
          show (if _ then _ else _) = _
          rw [if_pos ⟨rfl, rfl⟩]
        have hre : doc.reread = doc := by
          rw [← hdc]
          simp only [Xml.reread, rereadList_eq_map, List.map_cons, List.map_nil, Option.bind_none, optText_reread hv2,
            optText_reread hc2, optText_reread hu2, reread_leaf hptx, hrr]
        rw [hread]
        dsimp only
        rw [hE.xml, hre, ← hdc]
        simp only [Xml.tag, ne_eq, not_true_eq_false, if_false, Xml.children]
        have hh : ProjectScene.readHeader
            [Xml.node "version" [] ver [], Xml.node "categories" [] none [.node "id" [] cid [], .node "url" [] url []],
             Xml.leaf "project_type" s.projectType, Xml.node "elements" [] none xs] =
            ([("version", ver), ("categories_id", cid), ("categories_url", url)], some s.projectType) := rfl
        rw [hh]
        simp only
        have hre2 : loadElements E os2 s.projectType (path.join name)
            [Xml.node "version" [] ver [], Xml.node "categories" [] none [.node "id" [] cid [], .node "url" [] url []],
             Xml.leaf "project_type" s.projectType, Xml.node "elements" [] none xs] =
            .ok (some (l'.map (fun o => (o.id, o)))) := by
          have hol : loadObjects E os2 s.projectType (Xml.node "elements" [] none xs) (path.join name) =
              .ok (l'.map (fun o => (o.id, o))) := i1
          exact loadElements_four _ (by show "version" ≠ "elements"; decide) (by show "categories" ≠ "elements"; decide)
            (by show "project_type" ≠ "elements"; decide) rfl hol
        rw [hre2]
        simp only [bind, Except.bind, ProjectScene.init, if_neg (show ¬ (s.projectType ∉ ["bounding_box", "voxels", "meshes"]) from
          not_not.2 hpt)]
        rfl
      · intro k hk'
        simp only [fileSettings, List.mem_cons, List.not_mem_nil, or_false] at hk'
        have : ∀ a, ((h.alloc a).1).cells h.next = a := by intro a; simp [Heap.alloc]
        rw [this]
        rcases hk' with rfl | rfl | rfl
        · rw [hv1]; rfl
        · rw [hc1]; rfl
        · rw [hu1]; rfl
      · rw [List.forall₂_map_right_iff]
        have i3 : List.Forall₂ (fun (kv : String × ProjectObject (ops E)) o' => Back E round kv.2 o') s.elements l' := by
          unfold Dict.values at i2; exact List.forall₂_map_left_iff.1 i2
        have := (List.forall₂_and_left _ _).2 ⟨fun kv hkv => hk.2 kv hkv, i3⟩
        refine this.imp ?_
        rintro kv o' ⟨e, hsame⟩
        exact ⟨by rw [hsame.id, e], hsame⟩

/-! ### Relative paths -/

theorem relative_ioError {X : Exporter} {os : Os} {temp : Dir} {p : GlbPath} {root : String} {hb : List UInt8 × BodyEncoder}
    (hf : Fresh os temp) (hp : p.absolute = false) (hne : p.dirs ≠ []) (hn : GlbName p.name root) (hw : (X.write root).2 = .ok ())
    (hc : X.convert root (contents (X.write root).1) = .ok hb) : (saveAsGlb X os temp p).2 = .error .ioError := by
  unfold saveAsGlb
  dsimp only
  rw [splitext_glb hn, if_neg (by simp)]
  show (tryBody X _ temp root p).2 = _
  unfold tryBody
  dsimp only
  obtain ⟨h1, h2, h3⟩ := writeAll_isDir temp (X.write root).1 ((os.mkdtemp temp).chdir temp)
  rw [hw]
  dsimp only
  rw [writeAll_contents temp _ ((os.mkdtemp temp).chdir temp) (fun n => hf.2 temp n (List.prefix_refl _)), hc]
  dsimp only
  unfold exportTo
  rw [h1, show Os.resolve _ p = temp ++ p.dirs by unfold Os.resolve; rw [if_neg (by simp [hp]), h2]; rfl]
  have : ((os.mkdtemp temp).chdir temp).isDir (temp ++ p.dirs) = false := by
    show (if temp ++ p.dirs = temp then true else os.isDir (temp ++ p.dirs)) = false
    rw [if_neg (by simpa using hne), hf.1 _ (List.prefix_append _ _)]
  rw [this]
  rfl

theorem saveAsGlb_model {W : Gltf.Writer} {M : Gltf.Model} {os : Os} {temp : Dir} {p : GlbPath} {root : String} (hn : GlbName p.name root)
    (h : (Gltf.saveGltf W [] (fun _ => false) M root).1 = M) : (Gltf.saveAsGlb W M os temp p).1 = M := by
  show (if (splitext p.name).2 = ".glb" then _ else _) = _
  rw [splitext_glb hn, if_pos rfl]
  exact h

/-- Saving a mesh object into a folder given by a relative path. -/
theorem saveObject_relative (hE : E.Faithful printed round) {o : ProjectObject (ops E)} (h : Whole E o) (hm : o.projectType = "meshes")
    {os : Os} {temp : Dir} {folder : Path} (hf : Fresh os temp) (hp : folder.absolute = false) (hne : folder.parts ≠ []) :
    ∃ fx, saveObject E os temp folder o = (o, fx, .error .ioError) ∧ (runAll os fx).file = os.file ∧ (runAll os fx).isDir = os.isDir ∧
      (runAll os fx).cwd = os.cwd := by
  obtain ⟨x, hx, -, -⟩ := whole_bounds hE h
  have hxml : o.toXml E.T = .ok (elementXml E.T o x) := by
    unfold ProjectObject.toXml; rw [hx]; rfl
  rcases h.shape with ⟨ht, -⟩ | ⟨ht, -⟩ | ⟨-, -, ⟨hid, hdot⟩, M, l, hM, hh, hg, -⟩
  · rw [hm] at ht; exact absurd ht (by decide)
  · rw [hm] at ht; exact absurd ht (by decide)
  · have hname : GlbName (o.id ++ ".glb") o.id := ⟨rfl, hdot⟩
    obtain ⟨hgood, -⟩ := Gltf.sane hE.gltf hh
    have hgood : Gltf.Good M := by
      rcases hgood with ⟨_, rfl⟩ | hgood
      · obtain ⟨m, hm, _⟩ := hg
        simp at hm
      · exact hgood
    obtain ⟨v, enc, d, pics, hX⟩ := Gltf.exported hE.gltf hgood.writable hid
    have hio := relative_ioError (X := Gltf.exporter E.W M) (p := ⟨folder.absolute, folder.parts, o.id ++ ".glb"⟩) hf hp hne hname
      (by rw [hX.write]) (by rw [hX.write]; exact hX.convert)
    have hrun := glbEffects_run (Gltf.exporter E.W M) os temp ⟨folder.absolute, folder.parts, o.id ++ ".glb"⟩
    have hrun1 := congrArg Prod.fst hrun
    have hrun2 := congrArg Prod.snd hrun
    dsimp only at hrun1 hrun2
    have hmodel : (Gltf.saveAsGlb E.W M os temp ⟨folder.absolute, folder.parts, o.id ++ ".glb"⟩).1 = M :=
      saveAsGlb_model hname hX.model
    refine ⟨(glbEffects (Gltf.exporter E.W M) os temp ⟨folder.absolute, folder.parts, o.id ++ ".glb"⟩).1, ?_, ?_, ?_, ?_⟩
    · unfold saveObject
      rw [hxml]
      dsimp only
      rw [if_pos hm, hM]
      dsimp only
      rw [join_file folder (fileName_ext hid.1 fileName_glb), hmodel, hrun2, hio]
      have ho : { o with meshes := some M } = o := by
        rw [← hM]
      rw [ho]
      rfl
    · rw [hrun1]
      exact (C99_relative (Gltf.exporter E.W M) hf hp).1
    · rw [hrun1]
      exact (C99_side_effects (Gltf.exporter E.W M) _ hf).2 _ hname
    · rw [hrun1]
      exact C99_working_directory _ _ _ _

/-- **C131** is false for relative paths and projects with meshes, all of them: saving raises an `IOError` and leaves an empty folder
behind, from which nothing can be loaded and which makes every further attempt to save there fail. -/
theorem C131_false (hE : E.Faithful printed round) (h : Heap) {os : Os} (hsound : Sound os) {temps : ℕ → Dir} {path : Path} {name : String}
    {s : ProjectScene (ops E)} (hn : FileName name) (hfree : Free os (path.dir os ++ [name]))
    (ht : ∀ i, Fresh os (temps i) ∧ ¬ temps i <+: path.dir os ++ [name]) (hp : path.absolute = false)
    (hpt : s.projectType = "meshes") (hne : s.elements ≠ []) (hd : s.constrained = true)
    (hs : ∀ o ∈ s.elements.values, Whole E o ∧ o.projectType = s.projectType)
    (hset : ∀ k ∈ fileSettings, ∃ v, (h.cells s.settings).get? k = some v) :
    ∃ fx, saveScene E h os temps path name s = (s, fx, .error .ioError) ∧
      (runAll os fx).file = os.file ∧ (∀ d, (runAll os fx).isDir d = true ↔ os.isDir d = true ∨ d <+: path.dir os ++ [name]) ∧
      loadScene E h (runAll os fx) path name = .error .ioError ∧
      ∀ temps' s', saveScene E h (runAll os fx) temps' path name s' = (s', [], .error .ioError) := by
  obtain ⟨ver, hv1⟩ := hset "version" (by simp [fileSettings])
  obtain ⟨cid, hc1⟩ := hset "categories_id" (by simp [fileSettings])
  obtain ⟨url, hu1⟩ := hset "categories_url" (by simp [fileSettings])
  have hdoc : ∀ e, ∃ doc, ProjectScene.document (h.cells s.settings) s.projectType e = .ok doc := by
    intro e
    unfold ProjectScene.document Dict.get
    rw [hv1, hc1, hu1]; exact ⟨_, rfl⟩
  have hfolder : (path.join name).dir os = path.dir os ++ [name] := dir_join path os hn
  cases hv : s.elements.values with
  | nil =>
    unfold Dict.values at hv
    exact absurd (List.map_eq_nil_iff.1 hv) hne
  | cons o l =>
    have ho : o ∈ s.elements.values := by rw [hv]; exact List.mem_cons_self
    have hfresh : Fresh (runAll os [.makedirs (path.dir os ++ [name])]) (temps 0) := by
      refine ⟨fun d hd' => ?_, fun d n hd' => (ht 0).1.2 d n hd'⟩
      show (decide (d <+: path.dir os ++ [name]) || os.isDir d) = false
      rw [(ht 0).1.1 d hd', decide_eq_false (fun hpre => (ht 0).2 (hd'.trans hpre)), Bool.or_false]
    obtain ⟨fx, e1, e2, e3, e4⟩ := saveObject_relative hE (hs o ho).1 ((hs o ho).2.trans hpt) (folder := path.join name) hfresh
      (by rw [join_name path hn]; exact hp) (by rw [join_name path hn]; simp)
    have hzip : ({ s with elements := s.elements.keys.zip (o :: l) } : ProjectScene (ops E)) = s := by
      have : s.elements.keys.zip (o :: l) = s.elements := by
        rw [← hv]
        unfold Dict.keys Dict.values
        rw [List.zip_map']
        simp
      rw [this]
    have hdirs : ∀ d, (runAll os (.makedirs (path.dir os ++ [name]) :: fx)).isDir d = true ↔
        os.isDir d = true ∨ d <+: path.dir os ++ [name] := fun d => by
      show (runAll (runAll os [.makedirs (path.dir os ++ [name])]) fx).isDir d = true ↔ _
      rw [e3]
      show (decide (d <+: path.dir os ++ [name]) || os.isDir d) = true ↔ _
      rw [Bool.or_eq_true, decide_eq_true_iff]
      exact or_comm
    have hdir : path.dir (runAll os (.makedirs (path.dir os ++ [name]) :: fx)) = path.dir os := dir_cwd path e4
    refine ⟨.makedirs (path.dir os ++ [name]) :: fx, ?_, e2, hdirs, ?_, ?_⟩
    · obtain ⟨doc, hdoc⟩ := hdoc (.node "elements" [] none [])
      unfold saveScene
      dsimp only
      rw [hfolder, if_neg (by rw [(blocked_iff _ _).2 hfree]; simp), hdoc]
      dsimp only
      rw [if_neg (by rw [hd]; simp), hv]
      unfold saveObjects
      rw [e1]
      dsimp only
      rw [hzip]
    · unfold loadScene
      dsimp only
      rw [read_file _ _ (fileName_ext hn.2 fileName_xml), dir_join _ _ hn, hdir]
      have : (runAll os (.makedirs (path.dir os ++ [name]) :: fx)).file (path.dir os ++ [name]) (name ++ ".xml") = none := by
        show (runAll (runAll os [.makedirs (path.dir os ++ [name])]) fx).file _ _ = none
        rw [e2]
        show os.file _ _ = none
        cases hfile : os.file (path.dir os ++ [name]) (name ++ ".xml") with
        | none => rfl
        | some b =>
          have := hsound _ _ _ hfile
          rw [hfree.1] at this
          cases this
      rw [this]
    · intro temps' s'
      unfold saveScene
      dsimp only
      rw [dir_join _ _ hn, hdir, if_pos]
      unfold blocked
      rw [(hdirs _).2 (Or.inr (List.prefix_refl _))]
      rfl

/-! ### Killing the process -/

theorem empty_folder {os : Os} (hs : Sound os) {d : Dir} (h : os.isDir d = false) (n : String) : os.file d n = none := by
  cases hf : os.file d n with
  | none => rfl
  | some b =>
    have := hs _ _ _ hf
    rw [h] at this
    cases this

/-- **C132.** Whatever the scene, and whenever the process that saves it to a free place is killed or gives up: loading from there
raises an `IOError` or a `ParseError`, unless everything was written.  A scene that was saved in part is never loaded. -/
theorem C132 (hcut : ∀ x k, k < (E.xmlWrite x).length → E.xmlParse ((E.xmlWrite x).take k) = none) (h h' : Heap) {os os' : Os}
    (hsound : Sound os) {temps : ℕ → Dir} {path : Path} {name : String} {s s' : ProjectScene (ops E)} {fx : List Effect}
    {r : Except PyErr Unit} (hn : FileName name) (hfree : os.isDir (path.dir os ++ [name]) = false)
    (ht : ∀ i, ¬ temps i <+: path.dir os ++ [name]) (hsave : saveScene E h os temps path name s = (s', fx, r))
    (hk : Killed os fx os') :
    loadScene E h' { os' with cwd := os.cwd } path name = .error .ioError ∨
    loadScene E h' { os' with cwd := os.cwd } path name = .error .parseError ∨
    r = .ok () ∧ os' = runAll os fx := by
  have hread : ((path.join name).join (name ++ ".xml")).read { os' with cwd := os.cwd } = os'.file (path.dir os ++ [name]) (name ++ ".xml") := by
    rw [read_file _ _ (fileName_ext hn.2 fileName_xml), dir_join _ _ hn]
    rfl
  have hnone : os'.file (path.dir os ++ [name]) (name ++ ".xml") = none → loadScene E h' { os' with cwd := os.cwd } path name = .error .ioError := by
    intro e
    unfold loadScene
    dsimp only
    rw [hread, e]
  have hstart : os.file (path.dir os ++ [name]) (name ++ ".xml") = none := empty_folder hsound hfree _
  have haside : ∀ {i : ℕ} {plain : Prop} {e : Effect}, OfObject (temps i) (path.dir os ++ [name]) plain e →
      ¬ Touches (path.dir os ++ [name]) (name ++ ".xml") e := by
    intro i plain e he htch
    cases e with
    | write d n b =>
      obtain ⟨rfl, rfl⟩ := htch
      rcases he with he | ⟨⟨m, hm⟩, -⟩
      · exact ht i (he ▸ List.prefix_refl _)
      · rcases hm with hm | hm
        · exact xml_ne (Or.inl rfl) hm
        · exact xml_ne (Or.inr rfl) hm
    | rmtree t =>
      have : t = temps i := he
      exact ht i (this ▸ htch)
    | mkdtemp | makedirs | chdir => exact htch
  rcases saveScene_of hn hsave with ⟨rfl, -⟩ | ⟨mid, hmid, hfx⟩
  · left
    refine hnone ?_
    rw [killed_file hk (by simp), hstart]
  · have hpre : ∀ e ∈ (.makedirs (path.dir os ++ [name]) :: mid : List Effect), ¬ Touches (path.dir os ++ [name]) (name ++ ".xml") e := by
      intro e he
      rcases List.mem_cons.1 he with rfl | he
      · exact id
      · obtain ⟨i, hi⟩ := hmid e he
        exact haside hi
    rcases hfx with ⟨rfl, -⟩ | ⟨doc, rfl, hr⟩
    · left
      refine hnone ?_
      rw [killed_file hk hpre, hstart]
    · have hmiddle := (killed_file (killed_all os _) hpre).trans hstart
      rcases killed_append hk with hk | hk
      · left
        refine hnone ?_
        rw [killed_file hk hpre, hstart]
      · cases hk with
        | before => exact Or.inl (hnone hmiddle)
        | within hp =>
          cases hp with
          | write d n b k =>
            by_cases hlen : k < (E.xmlWrite doc).length
            · right; left
              unfold loadScene
              dsimp only
              rw [hread, show (Os.write _ (path.dir os ++ [name]) (name ++ ".xml") ((E.xmlWrite doc).take k)).file (path.dir os ++ [name])
                (name ++ ".xml") = some ((E.xmlWrite doc).take k) from if_pos ⟨rfl, rfl⟩]
              dsimp only
              rw [hcut doc k hlen]
            · right; right
              refine ⟨hr, ?_⟩
              rw [List.take_of_length_le (not_lt.1 hlen), runAll_append]
              rfl
        | after hk =>
          right; right
          refine ⟨hr, ?_⟩
          cases hk
          rw [runAll_append]
          rfl

/-- **C132**, where a folder or file is in the way: saving raises an `IOError` and changes nothing. -/
theorem C132_taken (h : Heap) {os : Os} (temps : ℕ → Dir) {path : Path} {name : String} (s : ProjectScene (ops E)) (hn : FileName name)
    (hfree : ¬ Free os (path.dir os ++ [name])) : saveScene E h os temps path name s = (s, [], .error .ioError) := by
  unfold saveScene
  dsimp only
  rw [dir_join path os hn, if_pos]
  rw [← blocked_iff] at hfree
  simpa using hfree

/-! ### Other files -/

/-- **C133** (partial: for ids without a slash.)  Whatever the scene, and even if the process is killed, saving changes nothing outside the project folder
and the temporary folders. -/
theorem C133_partial (h : Heap) {os os' : Os} {temps : ℕ → Dir} {path : Path} {name : String} {s s' : ProjectScene (ops E)}
    {fx : List Effect} {r : Except PyErr Unit} (hn : FileName name) (hid : ∀ o ∈ s.elements.values, '/' ∉ o.id.toList)
    (hsave : saveScene E h os temps path name s = (s', fx, r)) (hk : Killed os fx os') :
    (∀ d n, d ≠ path.dir os ++ [name] → (∀ i, ¬ temps i <+: d) → os'.file d n = os.file d n) ∧
    (∀ d, ¬ d <+: path.dir os ++ [name] → (∀ i, ¬ temps i <+: d) → os'.isDir d = os.isDir d) := by
  have hw : ∀ {i : ℕ} {e : Effect}, OfObject (temps i) (path.dir os ++ [name]) (∀ o ∈ s.elements.values, '/' ∉ o.id.toList) e →
      (∀ d n, d ≠ path.dir os ++ [name] → (∀ i, ¬ temps i <+: d) → ¬ Touches d n e) ∧
      (∀ d, ¬ d <+: path.dir os ++ [name] → (∀ i, ¬ temps i <+: d) → ¬ TouchesDir d e) := by
    intro i e he
    refine ⟨fun d n hd hi htch => ?_, fun d hd hi htch => ?_⟩
    · cases e with
      | write d' n' b =>
        obtain ⟨rfl, rfl⟩ := htch
        rcases he with he | ⟨-, he⟩
        · exact hi i (he ▸ List.prefix_refl _)
        · exact (he hid).elim hd (hi i)
      | rmtree t =>
        have : t = temps i := he
        exact hi i (this ▸ htch)
      | mkdtemp | makedirs | chdir => exact htch
    · cases e with
      | mkdtemp t =>
        have : t = temps i := he
        subst this
        have htch : d = temps i := htch
        exact hi i (htch ▸ List.prefix_refl _)
      | rmtree t =>
        have : t = temps i := he
        exact hi i (this ▸ htch)
      | makedirs t => exact he
      | write | chdir => exact htch
  have hall : ∀ e ∈ fx, (∀ d n, d ≠ path.dir os ++ [name] → (∀ i, ¬ temps i <+: d) → ¬ Touches d n e) ∧
      (∀ d, ¬ d <+: path.dir os ++ [name] → (∀ i, ¬ temps i <+: d) → ¬ TouchesDir d e) := by
    have hmk : ∀ e, e = Effect.makedirs (path.dir os ++ [name]) →
        (∀ d n, d ≠ path.dir os ++ [name] → (∀ i, ¬ temps i <+: d) → ¬ Touches d n e) ∧
        (∀ d, ¬ d <+: path.dir os ++ [name] → (∀ i, ¬ temps i <+: d) → ¬ TouchesDir d e) := by
      rintro e rfl
      exact ⟨fun _ _ _ _ h => h, fun _ hd _ h => hd h⟩
    intro e he
    rcases saveScene_of hn hsave with ⟨rfl, -⟩ | ⟨mid, hmid, hfx⟩
    · simp at he
    · rcases hfx with ⟨rfl, -⟩ | ⟨doc, rfl, hr⟩
      · rcases List.mem_cons.1 he with he | he
        · exact hmk e he
        · obtain ⟨i, hi⟩ := hmid e he
          exact hw hi
      · rcases List.mem_append.1 he with he | he
        · rcases List.mem_cons.1 he with he | he
          · exact hmk e he
          · obtain ⟨i, hi⟩ := hmid e he
            exact hw hi
        · rw [List.mem_singleton] at he
          subst he
          exact ⟨fun d n hd _ h => hd h.1.symm, fun _ _ _ h => h⟩
  exact ⟨fun d n hd hi => killed_file hk (fun e he => (hall e he).1 d n hd hi),
    fun d hd hi => killed_dir hk (fun e he => (hall e he).2 d hd hi)⟩

/-- Voxels whose id is an absolute path. -/
def strayObject (E : Env) : ProjectObject (ops E) :=
  ⟨"/home/x", "voxels", none, some ⟨1 / 10, 0, [⟨0, 0, 0⟩, ⟨1, 2, 3⟩], 2, 3⟩, none, Pose3.identity, none,
    ProjectObject.noSymmetry, 1, true⟩

/-- A scene with them. -/
def strayScene (E : Env) : ProjectScene (ops E) := ⟨"voxels", 0, true, [("/home/x", strayObject E)]⟩

/-- A file system with a file `/home/x.h5`. -/
def strayOs : Os := { exOs with file := fun d n => if d = ["home"] ∧ n = "x.h5" then some [1, 2, 3] else none }

/-- Saving the scene as `/tmp/p`. -/
theorem stray_saved (E : Env) (temps : ℕ → Dir) : ∃ doc,
    saveScene E .start strayOs temps ⟨true, ["tmp"]⟩ "p" (strayScene E) = (strayScene E, [.makedirs ["tmp", "p"],
      .write ["home"] "x.h5" (E.h5Write ⟨[⟨0, 0, 0⟩, ⟨1, 2, 3⟩], 1 / 10, 0, 2, 3⟩), .write ["tmp", "p"] "p.xml" (E.xmlWrite doc)], .ok ()) := by
  obtain ⟨x, hx⟩ : ∃ x, (strayObject E).toXml E.T = .ok x := by
    obtain ⟨b, hb⟩ : ∃ b, (strayObject E).xmlBounds = .ok b := ⟨_, rfl⟩
    unfold ProjectObject.toXml
    rw [hb]
    exact ⟨_, rfl⟩
  have ho : ∀ os folder temp, os.isDir ["home"] = true → saveObject E os temp folder (strayObject E) =
      (strayObject E, [.write ["home"] "x.h5" (E.h5Write ⟨[⟨0, 0, 0⟩, ⟨1, 2, 3⟩], 1 / 10, 0, 2, 3⟩)], .ok x) := by
    intro os folder temp hdir
    unfold saveObject
    rw [hx]
    have hj : (folder.join ((strayObject E).id ++ ".h5")) = ⟨true, ["home", "x.h5"]⟩ := by
      unfold Path.join
      rw [if_pos (by show ("/home/x" ++ ".h5").toList.head? = _; decide)]
      show (⟨true, components ("/home/x" ++ ".h5")⟩ : Path) = _
      rw [show components ("/home/x" ++ ".h5") = ["home", "x.h5"] by decide +kernel]
    dsimp only
    rw [if_neg (by show ¬ ("voxels" = "meshes"); decide), if_pos (by show "voxels" = "voxels"; rfl)]
    rw [show (strayObject E).voxels = some ⟨1 / 10, 0, [⟨0, 0, 0⟩, ⟨1, 2, 3⟩], 2, 3⟩ from rfl]
    dsimp only
    rw [hj]
    show (if os.isDir ["home"] then _ else _) = _
    rw [if_pos hdir]
    rfl
  have hs := ho (runAll strayOs [.makedirs ["tmp", "p"]]) (Path.join ⟨true, ["tmp"]⟩ "p") (temps 0) (by decide)
  have hj : Path.join ⟨true, ["tmp"]⟩ "p" = ⟨true, ["tmp", "p"]⟩ := by
    unfold Path.join
    rw [if_neg (by decide), show components "p" = ["p"] by decide]
    rfl
  have hj2 : Path.join ⟨true, ["tmp", "p"]⟩ ("p" ++ ".xml") = ⟨true, ["tmp", "p", "p.xml"]⟩ := by
    unfold Path.join
    rw [if_neg (by decide), show components ("p" ++ ".xml") = ["p.xml"] by decide]
    rfl
  have hblocked : blocked strayOs ["tmp", "p"] = false := by decide
  unfold saveScene
  dsimp only
  rw [hj]
  rw [hj] at hs
  rw [if_neg (by show ¬ (blocked strayOs ["tmp", "p"] = true); rw [hblocked]; simp)]
  have hdoc : ∀ e, ∃ doc, ProjectScene.document (Heap.start.cells (strayScene E).settings) (strayScene E).projectType e = .ok doc := by
    intro e
    exact ⟨_, rfl⟩
  obtain ⟨d1, h1⟩ := hdoc (.node "elements" [] none [])
  obtain ⟨d2, h2⟩ := hdoc (.node "elements" [] none [x])
  have hsv : saveObjects E ⟨true, ["tmp", "p"]⟩ (runAll strayOs [.makedirs ["tmp", "p"]]) temps (strayScene E).elements.values =
      ([strayObject E], [.write ["home"] "x.h5" (E.h5Write ⟨[⟨0, 0, 0⟩, ⟨1, 2, 3⟩], 1 / 10, 0, 2, 3⟩)], .ok [x]) := by
    show saveObjects E _ _ _ [strayObject E] = _
    unfold saveObjects
    rw [hs]
    rfl
  rw [h1]
  dsimp only
  rw [if_neg (by show ¬ ((!true) = true); simp)]
  rw [show Path.dir strayOs ⟨true, ["tmp", "p"]⟩ = ["tmp", "p"] from rfl, hsv]
  dsimp only
  rw [h2]
  dsimp only
  rw [hj2, if_pos (by rfl)]
  exact ⟨d2, rfl⟩

/-- **C133** is false for ids that start with a slash: saving the project `/tmp/p` overwrites the file `/home/x.h5`, and writes
no file for the element to the project folder. -/
theorem C133_false (E : Env) (temps : ℕ → Dir) : ∃ fx b,
    saveScene E .start strayOs temps ⟨true, ["tmp"]⟩ "p" (strayScene E) = (strayScene E, fx, .ok ()) ∧
    strayOs.file ["home"] "x.h5" = some [1, 2, 3] ∧ b = E.h5Write ⟨[⟨0, 0, 0⟩, ⟨1, 2, 3⟩], 1 / 10, 0, 2, 3⟩ ∧
    (runAll strayOs fx).file ["home"] "x.h5" = some b ∧
    ∀ n, ((runAll strayOs fx).file ["tmp", "p"] n).isSome → n = "p.xml" := by
  obtain ⟨doc, h⟩ := stray_saved E temps
  refine ⟨_, _, h, rfl, rfl, rfl, fun n hn => ?_⟩
  by_contra hne
  simp [runAll, Effect.run, Os.write, strayOs, hne] at hn

/-! ### Non-vacuity -/

/-- A chair. -/
def exChair : ProjectObject (ops exEnv) :=
  ⟨"chair 1", "meshes", none, none, some Gltf.tinyModel, ⟨Rot3.identity, ⟨1, 2, 1 / 3⟩⟩, some "chair", ProjectObject.noSymmetry, 1 / 2, true⟩

/-- Some voxels. -/
def exVoxels : ProjectObject (ops exEnv) :=
  ⟨"v", "voxels", none, some ⟨1 / 10, 0, [⟨0, 0, 0⟩, ⟨1, 2, 3⟩], 2, 3⟩, none, Pose3.identity, none, ProjectObject.noSymmetry, 1, true⟩

/-- Two chairs. -/
def exMeshScene : ProjectScene (ops exEnv) :=
  ⟨"meshes", 0, true, [("chair 1", exChair), ("chair 2", { exChair with id := "chair 2" })]⟩

/-- Voxels. -/
def exVoxelScene : ProjectScene (ops exEnv) := ⟨"voxels", 0, true, [("v", exVoxels)]⟩

theorem exChair_whole (id : String) (h : Gltf.RootName id ∧ ∃ c ∈ id.toList, c ≠ '.') : Whole exEnv { exChair with id := id } :=
  ⟨⟨.none, .none, .none, rfl⟩, Or.inr (Or.inr ⟨rfl, rfl, h, _, _, rfl, Gltf.tinyModel_history _ _, Gltf.tinyModel_geometry, by
    intro m hm v hv
    have : ∀ m ∈ ([.inl Gltf.tinyTriangle, .inr Gltf.tinyTextured] : List AnyMesh), ∀ v ∈ (Gltf.geometryOf m).vertices,
        v.x.magnitude < 0x7F800000 ∧ v.y.magnitude < 0x7F800000 ∧ v.z.magnitude < 0x7F800000 := by decide
    exact this m hm v hv⟩)⟩

theorem exMeshScene_whole : ∀ o ∈ exMeshScene.elements.values, Whole exEnv o ∧ o.projectType = exMeshScene.projectType ∧ XmlText o.id ∧
    ∀ c, o.category = some c → XmlText c := by
  intro o ho
  simp only [exMeshScene, Dict.values, List.map_cons, List.map_nil, List.mem_cons, List.not_mem_nil, or_false] at ho
  rcases ho with rfl | rfl
  · exact ⟨exChair_whole "chair 1" (by unfold Gltf.RootName; decide), rfl, xmlText_of_decide (by decide),
      fun c h => by injection h with h; subst h; exact xmlText_of_decide (by decide)⟩
  · exact ⟨exChair_whole "chair 2" (by unfold Gltf.RootName; decide), rfl, xmlText_of_decide (by decide),
      fun c h => by injection h with h; subst h; exact xmlText_of_decide (by decide)⟩

theorem exVoxelScene_whole : ∀ o ∈ exVoxelScene.elements.values, Whole exEnv o ∧ o.projectType = exVoxelScene.projectType ∧ XmlText o.id ∧
    ∀ c, o.category = some c → XmlText c := by
  intro o ho
  simp only [exVoxelScene, Dict.values, List.map_cons, List.map_nil, List.mem_cons, List.not_mem_nil, or_false] at ho
  subst ho
  refine ⟨⟨⟨.none, .none, .none, rfl⟩, Or.inr (Or.inl ⟨rfl, rfl, by decide, _, rfl, by simp, ?_⟩)⟩, rfl, xmlText_of_decide (by decide),
    fun c h => by cases h⟩
  intro i hi
  simp only [List.mem_cons, List.not_mem_nil, or_false] at hi
  rcases hi with rfl | rfl <;> norm_num

theorem exSettings : ∀ k ∈ fileSettings, ∃ v, (Heap.start.cells 0).get? k = some v ∧ ∀ x, v = some x → XmlText x := by
  intro k hk
  simp only [fileSettings, List.mem_cons, List.not_mem_nil, or_false] at hk
  rcases hk with rfl | rfl | rfl <;>
    exact ⟨_, rfl, fun x hx => by injection hx with hx; subst hx; exact xmlText_of_decide (by decide)⟩

theorem exOs_free : Free exOs ["home", "p"] := ⟨by decide, fun _ _ _ => rfl⟩
theorem exOs_sound : Sound exOs := fun _ _ _ h => by cases h

/-- The folders `mkdtemp` makes. -/
def exTemps (i : ℕ) : Dir := ["tmp", "x" ++ toString i]

theorem exTemps_fresh (i : ℕ) : Fresh exOs (exTemps i) ∧ ¬ exTemps i <+: ["home", "p"] := by
  refine ⟨⟨fun d h => ?_, fun _ _ _ => rfl⟩, fun h => ?_⟩
  · rcases h with ⟨l, rfl⟩
    simp [exOs, exTemps]
  · have := List.IsPrefix.getElem h (i := 0) (by simp [exTemps])
    simp [exTemps] at this

/-- **C131** applies to scenes of meshes in an absolute path and of voxels in a relative one; and to the latter in full: they are
loaded again. -/
example : ∃ fx r, saveScene exEnv .start exOs exTemps ⟨true, ["home"]⟩ "p" exMeshScene = (exMeshScene, fx, r) ∧
    (r = .ok () ∨ r = .error .structError) := by
  obtain ⟨fx, r, h1, h2, -⟩ := C131_partial exEnv_faithful .start (os := exOs) (temps := exTemps) (path := ⟨true, ["home"]⟩) (name := "p")
    (s := exMeshScene) (by unfold FileName; decide) exOs_free exTemps_fresh (Or.inl rfl) (by decide) rfl
    ⟨by unfold Dict.NodupKeys; decide, by
      intro kv hkv
      simp only [exMeshScene, List.mem_cons, List.not_mem_nil, or_false] at hkv
      rcases hkv with rfl | rfl <;> rfl⟩ exMeshScene_whole exSettings
  exact ⟨fx, r, h1, h2.imp id (·.1)⟩

example : ∃ fx h' s', saveScene exEnv .start exOs exTemps ⟨false, []⟩ "p" exVoxelScene = (exVoxelScene, fx, .ok ()) ∧
    loadScene exEnv .start (runAll exOs fx) ⟨false, []⟩ "p" = .ok (h', s') ∧ s'.elements.keys = ["v"] := by
  obtain ⟨fx, r, h1, h2, -, -, -, h3⟩ := C131_partial exEnv_faithful .start (os := exOs) (temps := exTemps) (path := ⟨false, []⟩) (name := "p")
    (s := exVoxelScene) (by unfold FileName; decide) exOs_free exTemps_fresh (Or.inr (by decide)) (by decide) rfl
    ⟨by unfold Dict.NodupKeys; decide, by
      intro kv hkv
      simp only [exVoxelScene, List.mem_cons, List.not_mem_nil, or_false] at hkv
      subst hkv; rfl⟩ exVoxelScene_whole exSettings
  rcases h2 with rfl | ⟨-, h2⟩
  · obtain ⟨h', s', l1, -, -, -, l2⟩ := h3 rfl (fun e => absurd e (by decide))
    refine ⟨fx, h', s', h1, l1, ?_⟩
    have h : List.Forall₂ (fun a b => b = a) exVoxelScene.elements.keys s'.elements.keys :=
      List.forall₂_map_left_iff.2 (List.forall₂_map_right_iff.2 (l2.imp fun _ _ h => h.1))
    rw [List.forall₂_eq_eq_eq.le _ _ h.flip]
    rfl
  · exact absurd h2 (by decide)

/-- **C131_false** applies to the scene of meshes. -/
example : ∃ fx, saveScene exEnv .start exOs exTemps ⟨false, []⟩ "p" exMeshScene = (exMeshScene, fx, .error .ioError) := by
  obtain ⟨fx, h, -⟩ := C131_false exEnv_faithful .start exOs_sound (temps := exTemps) (path := ⟨false, []⟩) (name := "p")
    (s := exMeshScene) (by unfold FileName; decide) exOs_free exTemps_fresh rfl rfl (by simp [exMeshScene]) rfl
    (fun o ho => ⟨(exMeshScene_whole o ho).1, (exMeshScene_whole o ho).2.1⟩) (fun k hk => (exSettings k hk).imp fun _ h => h.1)
  exact ⟨fx, h⟩

/-- **C132** applies when the process is killed with one byte of the XML file written. -/
example : ∃ s fx os', saveScene exEnv .start strayOs exTemps ⟨true, ["tmp"]⟩ "p" (strayScene exEnv) = (s, fx, .ok ()) ∧ Killed strayOs fx os' ∧
    (os'.file ["tmp", "p"] "p.xml").isSome ∧ os'.file ["tmp", "p"] "p.xml" ≠ (runAll strayOs fx).file ["tmp", "p"] "p.xml" ∧
    Sound strayOs ∧ strayOs.isDir ["tmp", "p"] = false ∧ ∀ i, ¬ exTemps i <+: ["tmp", "p"] := by
  obtain ⟨doc, h⟩ := stray_saved exEnv exTemps
  refine ⟨_, _, _, h, .after (.after (.within (.write _ _ _ 1))), rfl, fun e => ?_, ?_, by decide, ?_⟩
  · have h1 : some (List.take 1 (exEnv.xmlWrite doc)) = some (exEnv.xmlWrite doc) := e
    have h2 := congrArg List.length (Option.some.inj h1)
    have h3 : 1 < (exEnv.xmlWrite doc).length := by
      cases doc
      show 1 < (Gltf.docText (xmlCode _)).length
      simp only [xmlCode, Gltf.docText, Gltf.natText, List.length_append, List.length_cons, List.length_nil]
      omega
    rw [List.length_take] at h2
    omega
  · intro d n b hb
    simp only [strayOs] at hb
    split_ifs at hb with hd
    rw [hd.1]
    decide
  · intro i h
    have := List.IsPrefix.getElem h (i := 1) (by simp [exTemps])
    simp [exTemps] at this
    have := congrArg String.toList this
    simp [String.toList_append] at this

/-- **C132_taken** applies where there is a folder. -/
example : ¬ Free exOs ["tmp"] := fun h => by cases h.1

/-- **C133** applies to the scene of voxels. -/
example : ∃ s fx r, saveScene exEnv .start exOs exTemps ⟨true, ["tmp"]⟩ "p" exVoxelScene = (s, fx, r) ∧ Killed exOs fx (runAll exOs fx) ∧
    ∀ o ∈ exVoxelScene.elements.values, '/' ∉ o.id.toList :=
  ⟨_, _, _, rfl, killed_all _ _, by decide⟩

end Project
end Sumo
