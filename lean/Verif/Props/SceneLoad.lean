import Verif.Props.Scene

/-! # Reading scene documents (C114) -/

namespace Sumo

variable (T : NumText) {G : MeshOps}

/-- The last child with a given tag. -/
def Xml.last (root : Xml) (tag : String) : Option Xml := (root.children.filter fun c => c.tag = tag).getLast?

theorem readHeader_type (cs : List Xml) :
    (ProjectScene.readHeader cs).2 = ((cs.filter fun c => c.tag = "project_type").getLast?).bind Xml.text := by
  unfold ProjectScene.readHeader
  induction cs using List.reverseRecOn with
  | nil => rfl
  | append_singleton cs c ih =>
    rw [List.foldl_append, List.filter_append, List.foldl_cons, List.foldl_nil]
    by_cases h1 : c.tag = "categories"
    · simp [h1, ih]
    by_cases h2 : c.tag = "project_type"
    · simp [h2]
    by_cases h3 : c.tag = "version"
    · simp [h3, ih]
    · simp [h1, h2, h3, ih]

theorem readHeader_version (cs : List Xml) :
    (ProjectScene.readHeader cs).1.get? "version" = ((cs.filter fun c => c.tag = "version").getLast?).map Xml.text := by
  have hcat : ∀ (l : List Xml) (st : Settings), (ProjectScene.readCategories st l).get? "version" = st.get? "version" := by
    intro l
    induction l with
    | nil => intro st; rfl
    | cons c l ih =>
      intro st
      unfold ProjectScene.readCategories at ih ⊢
      rw [List.foldl_cons, ih]
      split_ifs
      · exact Dict.get?_set_ne _ _ (by decide)
      · exact Dict.get?_set_ne _ _ (by decide)
      · rfl
  unfold ProjectScene.readHeader
  induction cs using List.reverseRecOn with
  | nil => rfl
  | append_singleton cs c ih =>
    rw [List.foldl_append, List.filter_append, List.foldl_cons, List.foldl_nil]
    by_cases h1 : c.tag = "categories"
    · simp [h1, ih, hcat]
    by_cases h2 : c.tag = "project_type"
    · simp [h2, ih]
    by_cases h3 : c.tag = "version"
    · simp [h3]
    · simp [h1, h2, h3, ih]

theorem readElements_last (pt : String) (dir : ProjectDir G) (cs : List Xml) (d : ObjectDict G)
    (h : ProjectScene.readElements T pt dir cs = .ok (some d)) :
    ∃ c, (cs.filter fun c => c.tag = "elements").getLast? = some c ∧ ObjectDict.load T pt c dir = .ok d := by
  unfold ProjectScene.readElements at h
  induction cs using List.reverseRecOn generalizing d with
  | nil => simp [pure, Except.pure] at h
  | append_singleton cs c ih =>
    rw [List.foldlM_append] at h
    simp only [List.foldlM_cons, List.foldlM_nil, bind, Except.bind, pure, Except.pure] at h
    split at h
    · simp at h
    · rename_i st hst
      by_cases hc : c.tag = "elements"
      · refine ⟨c, by rw [List.filter_append]; simp [hc], ?_⟩
        rw [if_pos hc] at h
        cases hl : ObjectDict.load T pt c dir with
        | error e => rw [hl] at h; simp at h
        | ok d' => rw [hl] at h; simpa using h
      · rw [if_neg hc] at h
        simp only [Except.ok.injEq] at h
        subst h
        obtain ⟨c', h1, h2⟩ := ih d hst
        exact ⟨c', by rw [List.filter_append]; simp [hc, h1], h2⟩

/-- **C114** What is refused, and how: no scene file gives `IOError`; a document that is not a `<scene>`, one without
`<project_type>` and one whose last `<project_type>` is empty give `ValueError`. -/
theorem C114_refused_partial (h : Heap) (fs : FileSystem G) (path name : String) :
    ((∀ dir, fs.get? (path, name) = some dir → dir.xml = none) → ProjectScene.load T h fs path name = .error .ioError) ∧
    ∀ dir root, fs.get? (path, name) = some dir → dir.xml = some root →
      (root.tag ≠ "scene" → ProjectScene.load T h fs path name = .error .valueError) ∧
      (root.last "project_type" = none → ProjectScene.load T h fs path name = .error .valueError) ∧
      (∀ c, root.last "project_type" = some c → c.text = none → ProjectScene.load T h fs path name = .error .valueError) := by
  constructor
  · intro hx
    unfold ProjectScene.load
    cases hd : fs.get? (path, name) with
    | none => rfl
    | some dir => rw [Option.bind_some, hx dir hd]; rfl
  · intro dir root hd hr
    have hb : (fs.get? (path, name)).bind (fun dir => dir.xml.map (fun x => (dir, x))) = some (dir, root) := by
      rw [hd, Option.bind_some, hr]; rfl
    unfold ProjectScene.load
    rw [hb]
    dsimp only
    refine ⟨fun ht => by rw [if_pos ht], fun hp => ?_, fun c hp hc => ?_⟩
    · split_ifs
      · rfl
      · unfold Xml.last at hp
        rw [readHeader_type, hp]
        rfl
    · split_ifs
      · rfl
      · unfold Xml.last at hp
        rw [readHeader_type, hp, Option.bind_some, hc]

/-- **C114** What is accepted, and with which content: a `<scene>` whose last `<project_type>` is one of the three types; the
elements are those of the last `<elements>`, the version is that of the last `<version>`. -/
theorem C114_accepted {h h' : Heap} {fs : FileSystem G} {path name : String} {s : ProjectScene G}
    (hl : ProjectScene.load T h fs path name = .ok (h', s)) :
    ∃ dir root cp ce, fs.get? (path, name) = some dir ∧ dir.xml = some root ∧ root.tag = "scene" ∧
      root.last "project_type" = some cp ∧ cp.text = some s.projectType ∧
      s.projectType ∈ ["bounding_box", "voxels", "meshes"] ∧
      root.last "elements" = some ce ∧ ObjectDict.load T s.projectType ce dir = .ok s.elements ∧ s.constrained = true ∧
      (h'.cells s.settings).get? "version" = (root.last "version").map Xml.text := by
  unfold ProjectScene.load at hl
  split at hl
  · simp at hl
  · rename_i dir root hb
    obtain ⟨dir', hd, hx⟩ := Option.bind_eq_some_iff.1 hb
    obtain ⟨root', hr, he⟩ := Option.map_eq_some_iff.1 hx
    obtain ⟨rfl, rfl⟩ := Prod.mk.inj he
    split_ifs at hl with ht
    split at hl
    · simp at hl
    · rename_i pt hpt
      simp only [bind, Except.bind] at hl
      split at hl
      · simp at hl
      · rename_i o ho
        split at hl
        · simp at hl
        · rename_i el
          obtain ⟨ce, hc1, hc2⟩ := readElements_last T pt dir' root'.children el ho
          split at hl
          · simp at hl
          · rename_i s' hs'
            simp only [Except.ok.injEq, Prod.mk.injEq] at hl
            obtain ⟨rfl, rfl⟩ := hl
            unfold ProjectScene.init at hs'
            split_ifs at hs' with hpt'
            simp only [Except.ok.injEq] at hs'
            subst hs'
            rw [readHeader_type] at hpt
            obtain ⟨cp, hp1, hp2⟩ := Option.bind_eq_some_iff.1 hpt
            refine ⟨dir', root', cp, ce, hd, hr, by simpa using ht, hp1, hp2, by simpa using hpt', hc1, hc2, rfl, ?_⟩
            show ((if h.next = h.next then (ProjectScene.readHeader root'.children).1 else h.cells _)).get? "version" = _
            rw [if_pos rfl, readHeader_version]
            rfl

/-- **C114** Tags the loader does not know are ignored: with or without them, the same scene is loaded. -/
theorem C114_unknown_tags (h : Heap) (path name : String) (dir : ProjectDir G) (tag : String) (attrs : List (String × String))
    (text : Option String) (before after : List Xml) (x : Xml)
    (hx : x.tag ∉ ["categories", "project_type", "version", "elements"]) :
    ProjectScene.load T h [((path, name), { dir with xml := some (.node tag attrs text (before ++ x :: after)) })] path name =
    ProjectScene.load T h [((path, name), { dir with xml := some (.node tag attrs text (before ++ after)) })] path name := by
  simp only [List.mem_cons, List.not_mem_nil, or_false, not_or] at hx
  obtain ⟨h1, h2, h3, h4⟩ := hx
  have hh : ProjectScene.readHeader (before ++ x :: after) = ProjectScene.readHeader (before ++ after) := by
    unfold ProjectScene.readHeader
    rw [List.foldl_append, List.foldl_append, List.foldl_cons]
    simp [h1, h2, h3]
  have hload : ∀ (pt : String) (c : Xml) (x1 x2 : Option Xml),
      ObjectDict.load T pt c { dir with xml := x1 } = ObjectDict.load T pt c { dir with xml := x2 } := fun _ _ _ _ => rfl
  have he : ∀ pt x1 x2, ProjectScene.readElements T pt { dir with xml := x1 } (before ++ x :: after) =
      ProjectScene.readElements T pt { dir with xml := x2 } (before ++ after) := by
    intro pt x1 x2
    unfold ProjectScene.readElements
    simp only [hload pt _ x1 x2]
    rw [List.foldlM_append, List.foldlM_append]
    congr 1
    funext st
    rw [List.foldlM_cons, if_neg h4]
    rfl
  have hg : ∀ d : ProjectDir G, Dict.get? [((path, name), d)] (path, name) = some d := fun d => by simp [Dict.get?]
  unfold ProjectScene.load
  rw [hg, hg, Option.bind_some, Option.bind_some, Option.map_some, Option.map_some]
  dsimp only
  by_cases ht : tag = "scene"
  · rw [if_neg (not_not.2 (show (Xml.node tag attrs text _).tag = "scene" from ht)),
      if_neg (not_not.2 (show (Xml.node tag attrs text _).tag = "scene" from ht))]
    show (match (ProjectScene.readHeader (before ++ x :: after)).2 with | none => _ | some _ => _) =
      (match (ProjectScene.readHeader (before ++ after)).2 with | none => _ | some _ => _)
    rw [hh]
    cases (ProjectScene.readHeader (before ++ after)).2 with
    | none => rfl
    | some pt =>
      dsimp only
      simp only [Xml.children, hh, he pt _ (some (.node tag attrs text (before ++ after)))]
  · rw [if_pos (show (Xml.node tag attrs text _).tag ≠ "scene" from ht),
      if_pos (show (Xml.node tag attrs text _).tag ≠ "scene" from ht)]

/-- **C114** is false of a scene document without `<elements>`: neither a scene nor one of the documented exceptions, but
`UnboundLocalError`. -/
theorem C114_false (h : Heap) (path name : String) (dir : ProjectDir G) :
    ProjectScene.load T h [((path, name), { dir with xml := some (.node "scene" [] none [.leaf "project_type" "meshes"]) })]
      path name = .error .unboundLocalError := by
  unfold ProjectScene.load
  simp only [Dict.get?, if_true, Option.bind_some, Option.map_some, Xml.tag]
  rfl

/-- A document with two project types, an unknown tag and no objects: the last type counts. -/
example (h : Heap) : ∃ h' s, ProjectScene.load (G := G) T h [(("p", "n"), ⟨[], [], some (.node "scene" [] none
    [.leaf "project_type" "meshes", .leaf "remark" "hi", .leaf "project_type" "voxels", .node "elements" [] none []])⟩)] "p" "n" =
      .ok (h', s) ∧ s.projectType = "voxels" ∧ s.elements = [] := by
  refine ⟨(h.alloc []).1, ⟨"voxels", (h.alloc []).2, true, []⟩, ?_, rfl, rfl⟩
  unfold ProjectScene.load
  simp only [Dict.get?, if_true, Option.bind_some, Option.map_some, Xml.tag]
  rfl

end Sumo
