import Verif.Lemmas.Scene
import Verif.Props.Geometry

/-! # Objects, dictionaries, scenes and conversion (C61–C65, C94–C96) -/

namespace Sumo

variable (T : NumText) {G : MeshOps}

/-! ### C61: objects survive save and load -/

/-- **C61.** A savable object saves, and loading what was saved gives the object back: same id, category, symmetry, score,
evaluated flag and shape, pose and bounds to within the eight decimals of the file.  No other file is touched. -/
theorem C61_round_trip_partial {o : ProjectObject G} (h : Savable o) (dir : ProjectDir G) :
    ∃ dir' x o', o.save T dir = (dir', .ok x) ∧ ProjectObject.load T o.projectType x dir' = .ok o' ∧ SameObject o o' ∧
      ∀ k, k ≠ o.id → dir'.h5.get? (k ++ ".h5") = dir.h5.get? (k ++ ".h5") ∧
        dir'.glb.get? (k ++ ".glb") = dir.glb.get? (k ++ ".glb") := by
  obtain ⟨b, hb, hob, hbb⟩ := xmlBounds_of_savable h
  obtain ⟨dir', h1, h2, h3⟩ := save_of_savable T h hb dir
  obtain ⟨o', h4, h5⟩ := load_element T h hob hbb h2
  exact ⟨dir', _, o', h1, h4, h5, h3⟩

/-- **C61 (through a file).** The same when the element goes through an XML file, for ids and categories that are not empty and
have no carriage return. -/
theorem C61_file_round_trip_partial {o : ProjectObject G} (h : Savable o) (hid : XmlText o.id)
    (hc : ∀ c, o.category = some c → XmlText c) (dir : ProjectDir G) :
    ∃ dir' x o', o.save T dir = (dir', .ok x) ∧ ProjectObject.load T o.projectType x.reread dir' = .ok o' ∧
      SameObject o o' := by
  obtain ⟨b, hb, hob, hbb⟩ := xmlBounds_of_savable h
  obtain ⟨dir', h1, h2, h3⟩ := save_of_savable T h hb dir
  obtain ⟨o', h4, h5⟩ := load_element T h hob hbb h2
  exact ⟨dir', _, o', h1, by rw [reread_element T o b hid hc]; exact h4, h5⟩

/-- **C61 (through a file)** needs the id not to be empty: an empty id comes back as `None` and is refused. -/
theorem C61_empty_id_false (o : ProjectObject G) (hid : o.id = "") (b : Box3d ℚ)
    (hs : ∃ x y z, ObjectSymmetry.mk? (some x) (some y) (some z) = .ok o.symmetry)
    (hc : ∀ c, o.category = some c → XmlText c) (pt : String) (dir : ProjectDir G) :
    ProjectObject.load T pt (elementXml T o b).reread dir = .error .valueError := by
  obtain ⟨x, y, z, hs⟩ := hs
  have hsym := C60_round_trip x y z _ hs
  have he : (elementXml T o b).reread = .node "element" [] none
    [.node "id" [] none [], .node "category" [] o.category [], (Box3d.toXml T b).withTag "bounds",
     Pose3.toXml T o.pose, o.symmetry.toXml, .leaf "detectionScore" (T.strFloat o.score),
     .leaf "evaluated" (ProjectObject.strBool o.evaluated)] := by
    unfold elementXml
    simp only [Xml.reread, rereadList_eq_map, List.map_cons, List.map_nil, optText_reread hc, reread_box,
      reread_pose, reread_symmetry, reread_leaf (T.strFloat_text _), reread_leaf (strBool_text _), Option.bind_none, hid]
    rfl
  have h1 : ∀ st, ProjectObject.Parsed.step T st (.node "id" [] none []) = .ok { st with id := some none } := fun _ => rfl
  have h2 : ∀ st s, ProjectObject.Parsed.step T st (.node "category" [] s []) = .ok { st with category := s } :=
    fun _ _ => rfl
  have h3 : ∀ st, ProjectObject.Parsed.step T st ((Box3d.toXml T b).withTag "bounds") =
      .ok { st with bounds := some (Box3d.mk' (printedVec b.minCorner) (printedVec b.maxCorner)) } := by
    intro st
    unfold ProjectObject.Parsed.step
    rw [box_withTag, box3d_fromXml_toXml]; rfl
  have h4 : ∀ st, ProjectObject.Parsed.step T st (Pose3.toXml T o.pose) = .ok { st with pose :=
      ⟨Mat3.ofColumns (printedVec o.pose.R.col0) (printedVec o.pose.R.col1) (printedVec o.pose.R.col2),
       printedVec o.pose.t⟩ } := by
    intro st
    unfold ProjectObject.Parsed.step
    rw [pose3_fromXml_toXml]; rfl
  have h5 : ∀ st, ProjectObject.Parsed.step T st o.symmetry.toXml = .ok { st with symmetry := some o.symmetry } := by
    intro st
    unfold ProjectObject.Parsed.step
    rw [hsym]; rfl
  have h6 : ∀ st, ProjectObject.Parsed.step T st (.leaf "detectionScore" (T.strFloat o.score)) =
      .ok { st with score := o.score } := by
    intro st
    unfold ProjectObject.Parsed.step Xml.leaf Xml.text Xml.tag
    simp only [T.parseFloat_strFloat]; rfl
  have h7 : ∀ st, ProjectObject.Parsed.step T st (.leaf "evaluated" (ProjectObject.strBool o.evaluated)) =
      .ok { st with evaluated := o.evaluated } := by
    intro st
    unfold ProjectObject.Parsed.step
    cases o.evaluated <;> rfl
  unfold ProjectObject.load ProjectObject.parseXml
  rw [he]
  simp only [Xml.tag, Xml.children, List.foldlM_cons, List.foldlM_nil, h1, h2, h3, h4, h5, h6, h7, ne_eq,
    not_true_eq_false, if_false, bind, Except.bind, pure, Except.pure]

/-- The `id` variable after the loop. -/
theorem parsed_id (l : List Xml) (st st' : ProjectObject.Parsed)
    (h : l.foldlM (ProjectObject.Parsed.step T) st = .ok st') (hn : ∀ c ∈ l, c.tag ≠ "id") : st'.id = st.id := by
  induction l generalizing st with
  | nil => simp [pure, Except.pure] at h; rw [h]
  | cons c l ih =>
    rw [List.foldlM_cons] at h
    cases hs : ProjectObject.Parsed.step T st c with
    | error e => rw [hs] at h; simp [bind, Except.bind] at h
    | ok s1 =>
      rw [hs] at h
      rw [ih s1 h (fun c hc => hn c (List.mem_cons_of_mem _ hc))]
      have hc := hn c (by simp)
      unfold ProjectObject.Parsed.step at hs
      rw [if_neg hc] at hs
      split_ifs at hs
      · cases h1 : Pose3.fromXml T c <;> rw [h1] at hs <;> simp only [bind, Except.bind] at hs <;> cases hs; rfl
      · cases hs; rfl
      · cases h1 : Box3d.fromXml T (c.withTag "box3d") <;> rw [h1] at hs <;>
          simp only [bind, Except.bind] at hs <;> cases hs; rfl
      · cases h1 : ObjectSymmetry.fromXml c <;> rw [h1] at hs <;> simp only [bind, Except.bind] at hs <;> cases hs; rfl
      · split at hs
        · cases hs
        · rename_i s hs'
          cases h1 : T.parseFloat s <;> rw [h1] at hs <;> simp only [bind, Except.bind] at hs <;> cases hs; rfl
      · cases hs; rfl
      · cases hs; rfl

/-- **C61 (missing id).** A document whose root is not `<element>` is a `ValueError`; one without `<id>` is never loaded, and when
the rest of it is readable the exception is an `UnboundLocalError`. -/
theorem C61_missing_id_partial (pt : String) (e : Xml) (dir : ProjectDir G) :
    (e.tag ≠ "element" → ProjectObject.load T pt e dir = .error .valueError) ∧
    ((∀ c ∈ e.children, c.tag ≠ "id") → ∃ err, ProjectObject.load T pt e dir = .error err) ∧
    (e.tag = "element" → (∀ c ∈ e.children, c.tag ≠ "id") →
      (∃ st, e.children.foldlM (ProjectObject.Parsed.step T) ProjectObject.Parsed.start = .ok st) →
      ProjectObject.load T pt e dir = .error .unboundLocalError) := by
  have key : e.tag = "element" → (∀ c ∈ e.children, c.tag ≠ "id") →
      (∃ st, e.children.foldlM (ProjectObject.Parsed.step T) ProjectObject.Parsed.start = .ok st) →
      ProjectObject.load T pt e dir = .error .unboundLocalError := by
    intro ht hn ⟨st, hst⟩
    have hid := parsed_id T _ _ _ hst hn
    unfold ProjectObject.load ProjectObject.parseXml
    simp only [ht, ne_eq, not_true_eq_false, if_false, hst, bind, Except.bind, hid]
    rfl
  refine ⟨?_, ?_, key⟩
  · intro h
    unfold ProjectObject.load ProjectObject.parseXml
    rw [if_pos h]; rfl
  · intro hn
    by_cases ht : e.tag = "element"
    · cases hst : e.children.foldlM (ProjectObject.Parsed.step T) ProjectObject.Parsed.start with
      | ok st => exact ⟨_, key ht hn ⟨st, hst⟩⟩
      | error err =>
        refine ⟨err, ?_⟩
        unfold ProjectObject.load ProjectObject.parseXml
        simp only [ht, ne_eq, not_true_eq_false, if_false, hst, bind, Except.bind]
    · refine ⟨.valueError, ?_⟩
      unfold ProjectObject.load ProjectObject.parseXml
      rw [if_pos ht]; rfl

/-- **C61 (missing id)** as worded is false: an `<element>` without `<id>` gives an `UnboundLocalError`, not the documented
`ValueError`. -/
theorem C61_false (pt : String) (dir : ProjectDir G) :
    ProjectObject.load T pt (.node "element" [] none [.leaf "category" "chair"]) dir = .error .unboundLocalError :=
  (C61_missing_id_partial T pt _ dir).2.2 rfl (by simp [Xml.children, Xml.leaf, Xml.tag]) ⟨_, rfl⟩

/-- **C61 (defaults).** An element with nothing but an id and bounds loads with the documented defaults. -/
theorem C61_defaults (id : String) (b : Box3d ℚ) (dir : ProjectDir G) :
    ∃ b', ProjectObject.load T "bounding_box" (.node "element" [] none
      [.leaf "id" id, (Box3d.toXml T b).withTag "bounds"]) dir =
      .ok ⟨id, "bounding_box", some b', none, none, Pose3.identity, some "unknown", ⟨.none, .none, .none⟩, -1, true⟩ := by
  refine ⟨Box3d.mk' (printedVec b.minCorner) (printedVec b.maxCorner), ?_⟩
  have h3 : ∀ st, ProjectObject.Parsed.step T st ((Box3d.toXml T b).withTag "bounds") =
      .ok { st with bounds := some (Box3d.mk' (printedVec b.minCorner) (printedVec b.maxCorner)) } := by
    intro st
    unfold ProjectObject.Parsed.step
    rw [box_withTag, box3d_fromXml_toXml]; rfl
  have h1 : ∀ st s, ProjectObject.Parsed.step T st (.leaf "id" s) = .ok { st with id := some (some s) } := fun _ _ => rfl
  unfold ProjectObject.load ProjectObject.parseXml
  simp only [Xml.tag, Xml.children, List.foldlM_cons, List.foldlM_nil, h1, h3, ne_eq, not_true_eq_false, if_false, bind,
    Except.bind, pure, Except.pure]
  rfl

/-! ### C62: object dictionaries survive save and load -/

/-- **C62.** A dictionary of savable objects of one project type, keyed by their ids, saves, and loading what was saved gives
the same keys in the same order with the same objects. -/
theorem C62_round_trip {d : ObjectDict G} (hk : KeyedById d) (pt : String)
    (hs : ∀ o ∈ d.values, Savable o ∧ o.projectType = pt) (dir : ProjectDir G) :
    ∃ dir' x d', ObjectDict.save T d dir = (dir', .ok x) ∧ ObjectDict.load T pt x dir' = .ok d' ∧ SameDict d d' := by
  have hn : (d.values.map (·.id)).Nodup := by rw [← keyedById_ids hk]; exact hk.1
  obtain ⟨dir', xs, h1, h2, h3, -⟩ := saveAll_of_savable T d.values (fun o ho => (hs o ho).1) hn dir
  have h4 : List.Forall₂ (fun o x => x.tag = "element" ∧ ∃ o', ProjectObject.load T pt x dir' = .ok o' ∧
      SameObject o o') d.values xs := by
    have := (List.forall₂_and_left _ _).2 ⟨fun o ho => (⟨(hs o ho).1, (hs o ho).2, h3 o ho⟩ :
      Savable o ∧ o.projectType = pt ∧ Stored o dir'), h2⟩
    refine this.imp ?_
    rintro o x ⟨⟨a1, a2, a3⟩, b, -, b2, b3, rfl⟩
    obtain ⟨o', c1, c2⟩ := load_element T a1 b2 b3 a3
    exact ⟨rfl, o', by rw [← a2]; exact c1, c2⟩
  obtain ⟨os', i1, i2⟩ := loadAll T pt dir' _ _ h4 hn [] (by simp [Dict.keys])
  refine ⟨dir', .node "elements" [] none xs, os'.map (fun o => (o.id, o)), ?_, ?_, ?_⟩
  · unfold ObjectDict.save; rw [h1]
  · unfold ObjectDict.load; exact i1
  · unfold SameDict
    rw [List.forall₂_map_right_iff]
    have i3 : List.Forall₂ (fun (kv : String × ProjectObject G) o' => SameObject kv.2 o') d os' := by
      unfold Dict.values at i2; exact List.forall₂_map_left_iff.1 i2
    have := (List.forall₂_and_left _ _).2 ⟨fun kv hkv => hk.2 kv hkv, i3⟩
    refine this.imp ?_
    rintro kv o' ⟨e, hsame⟩
    exact ⟨by rw [hsame.id, e], hsame⟩

/-- **C62** needs the keys to be the ids: of two objects with the same id under different keys, one is lost. -/
theorem C62_duplicate_ids (o : ProjectObject G) (b : Box3d ℚ) (ho : o.projectType = "bounding_box")
    (hb : o.bounds = some b) (hs : ∃ x y z, ObjectSymmetry.mk? (some x) (some y) (some z) = .ok o.symmetry)
    (dir : ProjectDir G) : ∃ dir' x d', ObjectDict.save T [("a", o), ("b", o)] dir = (dir', .ok x) ∧
      ObjectDict.load T "bounding_box" x dir' = .ok d' ∧ d'.keys = [o.id] := by
  have hx : o.toXml T = .ok (elementXml T o b) := by
    unfold ProjectObject.toXml ProjectObject.xmlBounds; rw [ho, hb]; rfl
  have hsv : ∀ dir : ProjectDir G, o.save T dir = (dir, .ok (elementXml T o b)) := by
    intro dir; unfold ProjectObject.save; rw [hx, ho]; rfl
  have hp := parseXml_element T o b hs
  have hld : ∃ o' : ProjectObject G, ProjectObject.load T "bounding_box" (elementXml T o b) dir = .ok o' ∧
      o'.id = o.id := by
    refine ⟨⟨o.id, "bounding_box", some (Box3d.mk' (printedVec b.minCorner) (printedVec b.maxCorner)), none, none,
      ⟨Mat3.ofColumns (printedVec o.pose.R.col0) (printedVec o.pose.R.col1) (printedVec o.pose.R.col2),
       printedVec o.pose.t⟩, o.category, o.symmetry, o.score, o.evaluated⟩,
      by unfold ProjectObject.load; rw [hp]; rfl, rfl⟩
  obtain ⟨o', h1, h2⟩ := hld
  refine ⟨dir, .node "elements" [] none [elementXml T o b, elementXml T o b], [(o.id, o')], ?_, ?_, rfl⟩
  · unfold ObjectDict.save Dict.values
    simp only [List.map_cons, List.map_nil, ObjectDict.saveAll, hsv]
  · unfold ObjectDict.load
    have ht : (elementXml T o b).tag = "element" := rfl
    simp only [Xml.children, List.foldlM_cons, List.foldlM_nil, ht, if_true, h1, bind, Except.bind, pure, Except.pure,
      Dict.set, h2]

/-! ### C63: scenes survive save and load -/

theorem readElements_four (pt : String) (dir : ProjectDir G) {a b c e : Xml} {d : ObjectDict G}
    (ha : a.tag ≠ "elements") (hb : b.tag ≠ "elements") (hc : c.tag ≠ "elements") (he : e.tag = "elements")
    (hd : ObjectDict.load T pt e dir = .ok d) : ProjectScene.readElements T pt dir [a, b, c, e] = .ok (some d) := by
  unfold ProjectScene.readElements
  simp only [List.foldlM_cons, List.foldlM_nil, if_neg ha, if_neg hb, if_neg hc, if_pos he, hd, bind, Except.bind, pure,
    Except.pure]

/-- **C63.** A scene whose elements are a `ProjectObjectDict` of savable objects keyed by their ids, and whose settings have the
three entries of a scene file, saves to a new location and loads back: same project type, same three settings, same elements.
Nothing else in the file system changes. -/
theorem C63_round_trip_partial (h : Heap) (fs : FileSystem G) (path name : String) (s : ProjectScene G)
    (hfree : fs.has (path, name) = false) (hpt : s.projectType ∈ ["bounding_box", "voxels", "meshes"])
    (hd : s.constrained = true) (hk : KeyedById s.elements)
    (hs : ∀ o ∈ s.elements.values, Savable o ∧ o.projectType = s.projectType ∧ XmlText o.id ∧
      ∀ c, o.category = some c → XmlText c)
    (hset : ∀ k ∈ fileSettings, ∃ v, (h.cells s.settings).get? k = some v ∧ ∀ x, v = some x → XmlText x) :
    ∃ fs' h' s', ProjectScene.save T h fs path name s = (fs', .ok ()) ∧
      ProjectScene.load T h fs' path name = .ok (h', s') ∧
      s'.projectType = s.projectType ∧ s'.constrained = true ∧
      (∀ k ∈ fileSettings, (h'.cells s'.settings).get? k = (h.cells s.settings).get? k) ∧
      SameDict s.elements s'.elements ∧
      ∀ p, p ≠ (path, name) → fs'.get? p = fs.get? p := by
  have hn : (s.elements.values.map (·.id)).Nodup := by rw [← keyedById_ids hk]; exact hk.1
  obtain ⟨ver, hv1, hv2⟩ := hset "version" (by simp [fileSettings])
  obtain ⟨cid, hc1, hc2⟩ := hset "categories_id" (by simp [fileSettings])
  obtain ⟨url, hu1, hu2⟩ := hset "categories_url" (by simp [fileSettings])
  obtain ⟨dir', xs, h1, h2, h3, -⟩ :=
    saveAll_of_savable T s.elements.values (fun o ho => (hs o ho).1) hn (⟨[], [], none⟩ : ProjectDir G)
  have hrr : xs.map Xml.reread = xs := by
    have : List.Forall₂ (fun o x => x.reread = x) s.elements.values xs := by
      have := (List.forall₂_and_left _ _).2 ⟨fun o ho => (hs o ho).2.2, h2⟩
      refine this.imp ?_
      rintro o x ⟨⟨a1, a2⟩, b, -, -, -, rfl⟩
      exact reread_element T o b a1 a2
    clear h1 h2 h3
    generalize s.elements.values = os at this
    induction this with
    | nil => rfl
    | cons hx _ ih => simp [hx, ih]
  have hptx : XmlText s.projectType := by
    simp only [List.mem_cons, List.not_mem_nil, or_false] at hpt
    rcases hpt with e | e | e <;> rw [e] <;> exact xmlText_of_decide (by decide)
  -- loading the elements from the saved directory
  let dir2 : ProjectDir G := { dir' with xml := some (.node "scene" [("xmlns:sumo", "https://www.sumochallenge.org")] none
    [.node "version" [] ver [], .node "categories" [] none [.node "id" [] cid [], .node "url" [] url []],
     .leaf "project_type" s.projectType, .node "elements" [] none xs]) }
  have h4 : List.Forall₂ (fun o x => x.tag = "element" ∧ ∃ o', ProjectObject.load T s.projectType x dir2 = .ok o' ∧
      SameObject o o') s.elements.values xs := by
    have := (List.forall₂_and_left _ _).2 ⟨fun o ho => (⟨(hs o ho).1, (hs o ho).2.1, h3 o ho⟩ :
      Savable o ∧ o.projectType = s.projectType ∧ Stored o dir'), h2⟩
    refine this.imp ?_
    rintro o x ⟨⟨a1, a2, a3⟩, b, -, b2, b3, rfl⟩
    obtain ⟨o', c1, c2⟩ := load_element T a1 b2 b3 (dir := dir2) a3
    exact ⟨rfl, o', by rw [← a2]; exact c1, c2⟩
  obtain ⟨os', i1, i2⟩ := loadAll T s.projectType dir2 _ _ h4 hn [] (by simp [Dict.keys])
  have hdoc : ∀ e, ProjectScene.document (h.cells s.settings) s.projectType e =
      .ok (.node "scene" [("xmlns:sumo", "https://www.sumochallenge.org")] none
        [.node "version" [] ver [], .node "categories" [] none [.node "id" [] cid [], .node "url" [] url []],
         .leaf "project_type" s.projectType, e]) := by
    intro e
    unfold ProjectScene.document Dict.get
    rw [hv1, hc1, hu1]; rfl
  refine ⟨fs.set (path, name) dir2, (h.alloc [("version", ver), ("categories_id", cid), ("categories_url", url)]).1,
    ⟨s.projectType, h.next, true, os'.map (fun o => (o.id, o))⟩, ?_, ?_, rfl, rfl, ?_, ?_, ?_⟩
  · unfold ProjectScene.save
    simp only [hfree, Bool.false_eq_true, if_false, hdoc, hd, Bool.not_true, ObjectDict.save, h1]
    simp only [Xml.reread, rereadList_eq_map, List.map_cons, List.map_nil, Option.bind_none, optText_reread hv2,
      optText_reread hc2, optText_reread hu2, reread_leaf hptx, hrr]
    rfl
  · unfold ProjectScene.load
    rw [Dict.get?_set_self]
    simp only [Option.bind_some, Option.map_some, dir2, Xml.tag, ne_eq, not_true_eq_false, if_false, Xml.children]
    have hh : ProjectScene.readHeader
        [Xml.node "version" [] ver [], Xml.node "categories" [] none [.node "id" [] cid [], .node "url" [] url []],
         Xml.leaf "project_type" s.projectType, Xml.node "elements" [] none xs] =
        ([("version", ver), ("categories_id", cid), ("categories_url", url)], some s.projectType) := rfl
    rw [hh]
    simp only
    have hre : ProjectScene.readElements T s.projectType dir2
        [Xml.node "version" [] ver [], Xml.node "categories" [] none [.node "id" [] cid [], .node "url" [] url []],
         Xml.leaf "project_type" s.projectType, Xml.node "elements" [] none xs] =
        .ok (some (os'.map (fun o => (o.id, o)))) := by
      have hol : ObjectDict.load T s.projectType (Xml.node "elements" [] none xs) dir2 =
          .ok (os'.map (fun o => (o.id, o))) := i1
      exact readElements_four T _ _ (by show "version" ≠ "elements"; decide) (by show "categories" ≠ "elements"; decide)
        (by show "project_type" ≠ "elements"; decide) rfl hol
    simp only [dir2] at hre
    rw [hre]
    simp only [bind, Except.bind, ProjectScene.init, if_neg (show ¬ (s.projectType ∉ ["bounding_box", "voxels", "meshes"]) from
      not_not.2 hpt)]
    rfl
  · intro k hk'
    simp only [fileSettings, List.mem_cons, List.not_mem_nil, or_false] at hk'
    have : ∀ a, ((h.alloc a).1).cells h.next = a := by intro a; simp [Heap.alloc]
    rw [this]
    rcases hk' with rfl | rfl | rfl
    · rw [hv1]; rfl
    · rw [hc1]; rfl
    · rw [hu1]; rfl
  · unfold SameDict
    rw [List.forall₂_map_right_iff]
    have i3 : List.Forall₂ (fun (kv : String × ProjectObject G) o' => SameObject kv.2 o') s.elements os' := by
      unfold Dict.values at i2; exact List.forall₂_map_left_iff.1 i2
    have := (List.forall₂_and_left _ _).2 ⟨fun kv hkv => hk.2 kv hkv, i3⟩
    refine this.imp ?_
    rintro kv o' ⟨e, hsame⟩
    exact ⟨by rw [hsame.id, e], hsame⟩
  · intro p hp
    exact Dict.get?_set_ne _ _ (Ne.symm hp)

/-- **C63 / C94.** Saving where the project directory exists changes nothing and raises `OSError` (documented: `RuntimeError`). -/
theorem C63_existing (h : Heap) (fs : FileSystem G) (path name : String) (s : ProjectScene G)
    (hex : fs.has (path, name) = true) : ProjectScene.save T h fs path name s = (fs, .error .ioError) := by
  unfold ProjectScene.save
  rw [if_pos hex]

/-- **C63** is false for scenes made by `transform_pose`: their elements are a plain `dict`, which has no `save`. -/
theorem C63_false (h : Heap) (fs : FileSystem G) (path name : String) (s s' : ProjectScene G) (p : Pose3 ℚ)
    (ht : s.transformPose p = .ok s') (hfree : fs.has (path, name) = false)
    (hset : ∀ k ∈ fileSettings, ∃ v, (h.cells 0).get? k = some v) :
    (ProjectScene.save T h fs path name s').2 = .error .attributeError := by
  obtain ⟨v1, h1⟩ := hset "version" (by simp [fileSettings])
  obtain ⟨v2, h2⟩ := hset "categories_id" (by simp [fileSettings])
  obtain ⟨v3, h3⟩ := hset "categories_url" (by simp [fileSettings])
  unfold ProjectScene.transformPose at ht
  cases hm : s.elements.mapM (ProjectScene.transformItem p) with
  | error e => rw [hm] at ht; cases ht
  | ok items =>
    rw [hm] at ht
    simp only [bind, Except.bind, ProjectScene.init] at ht
    split_ifs at ht
    injection ht with ht
    subst ht
    unfold ProjectScene.save
    simp only [hfree, Bool.false_eq_true, if_false]
    have : ∀ e, ∃ d, ProjectScene.document (h.cells 0) s.projectType e = .ok d := by
      intro e
      unfold ProjectScene.document Dict.get
      rw [h1, h2, h3]; exact ⟨_, rfl⟩
    obtain ⟨d, hd⟩ := this (.node "elements" [] none [])
    simp only [Option.getD_none, Option.getD_some, hd]
    rfl

theorem readCategories_keys (cs : List Xml) : ∀ st : Settings, (∀ k, k ∉ fileSettings → st.get? k = none) →
    ∀ k, k ∉ fileSettings → (ProjectScene.readCategories st cs).get? k = none := by
  unfold ProjectScene.readCategories
  induction cs with
  | nil => intro st h; exact h
  | cons c cs ih =>
    intro st h
    rw [List.foldl_cons]
    apply ih
    intro k hk
    have hk' := hk
    simp only [fileSettings, List.mem_cons, List.not_mem_nil, or_false, not_or] at hk'
    split_ifs
    · rw [Dict.get?_set_ne _ _ (Ne.symm hk'.2.1)]; exact h k hk
    · rw [Dict.get?_set_ne _ _ (Ne.symm hk'.2.2)]; exact h k hk
    · exact h k hk

theorem readHeader_keys (cs : List Xml) (k : String) (hk : k ∉ fileSettings) :
    (ProjectScene.readHeader cs).1.get? k = none := by
  have key : ∀ (cs : List Xml) (st : Settings × Option String), (∀ k, k ∉ fileSettings → st.1.get? k = none) →
      ∀ k, k ∉ fileSettings → (cs.foldl (fun (st : Settings × Option String) (c : Xml) =>
        if c.tag = "categories" then (ProjectScene.readCategories st.1 c.children, st.2)
        else if c.tag = "project_type" then (st.1, c.text)
        else if c.tag = "version" then (st.1.set "version" c.text, st.2)
        else st) st).1.get? k = none := by
    intro cs
    induction cs with
    | nil => intro st h; exact h
    | cons c cs ih =>
      intro st h
      rw [List.foldl_cons]
      apply ih
      intro k hk
      split_ifs
      · exact readCategories_keys _ _ h k hk
      · exact h k hk
      · have hk' := hk
        simp only [fileSettings, List.mem_cons, List.not_mem_nil, or_false, not_or] at hk'
        rw [Dict.get?_set_ne _ _ (Ne.symm hk'.1)]; exact h k hk
      · exact h k hk
  exact key cs ([], none) (fun _ _ => rfl) k hk

/-- **C63** is false for settings other than the three of the file: a loaded scene never has them. -/
theorem C63_extra_settings_false {h h' : Heap} {fs : FileSystem G} {path name : String} {s' : ProjectScene G}
    (hl : ProjectScene.load T h fs path name = .ok (h', s')) (k : String) (hk : k ∉ fileSettings) :
    (h'.cells s'.settings).get? k = none := by
  unfold ProjectScene.load at hl
  split at hl
  · cases hl
  · rename_i dir root _
    split_ifs at hl
    split at hl
    · cases hl
    · rename_i pt _
      cases hre : ProjectScene.readElements T pt dir root.children with
      | error e => simp only [hre, bind, Except.bind] at hl; cases hl
      | ok el =>
        cases el with
        | none => simp only [hre, bind, Except.bind] at hl; cases hl
        | some el =>
          simp only [hre, bind, Except.bind, ProjectScene.init] at hl
          split_ifs at hl
          injection hl with hl
          injection hl with h1 h2
          subst h1 h2
          simp only [Option.getD_some, Heap.alloc, if_true]
          exact readHeader_keys _ k hk

/-! ### C64: `transform_pose` acts on scenes -/

theorem transformPose_constructed {o : ProjectObject G} (h : Constructed o) (p : Pose3 ℚ) :
    o.transformPose p = .ok { o with pose := p.compose o.pose } ∧ Constructed { o with pose := p.compose o.pose } := by
  have key : ∀ q : Pose3 ℚ, ProjectObject.init o.id o.projectType o.bounds o.voxels o.meshes (some q) o.category
      (some o.symmetry) o.score o.evaluated = .ok { o with pose := q } := by
    intro q
    obtain ⟨id, pt, b, v, m, p', c, s, sc, ev, h⟩ := h
    unfold ProjectObject.init at h ⊢
    split_ifs at h with h1 h2 h3
    · injection h with h; subst h; simp [h1]
    · injection h with h; subst h; simp [h2]
    · injection h with h; subst h; simp [h3]
  exact ⟨key _, _, _, _, _, _, _, _, _, _, _, key _⟩

/-- The elements after the transformation. -/
theorem transformItems {l : ObjectDict G} (h : ∀ o ∈ l.values, Constructed o) (p : Pose3 ℚ) :
    l.mapM (ProjectScene.transformItem p) =
      .ok (l.map fun kv => (kv.1, { kv.2 with pose := p.compose kv.2.pose })) := by
  induction l with
  | nil => rfl
  | cons kv l ih =>
    have h1 := (transformPose_constructed (h kv.2 (by simp [Dict.values])) p).1
    have h2 := ih (fun o ho => h o (by simp only [Dict.values, List.map_cons, List.mem_cons]; exact Or.inr ho))
    have h3 : ProjectScene.transformItem p kv = .ok (kv.1, { kv.2 with pose := p.compose kv.2.pose }) := by
      unfold ProjectScene.transformItem; rw [h1]
    rw [List.mapM_cons, h3, h2]; rfl

theorem transformPose_scene {s : ProjectScene G} (hp : s.projectType ∈ ["bounding_box", "voxels", "meshes"])
    (h : ∀ o ∈ s.elements.values, Constructed o) (p : Pose3 ℚ) :
    s.transformPose p = .ok ⟨s.projectType, 0, false,
      s.elements.map fun kv => (kv.1, { kv.2 with pose := p.compose kv.2.pose })⟩ ∧
    ∀ o ∈ (Dict.values (s.elements.map fun kv => (kv.1, { kv.2 with pose := p.compose kv.2.pose })) :
      List (ProjectObject G)), Constructed o := by
  constructor
  · unfold ProjectScene.transformPose
    rw [transformItems h]
    simp only [bind, Except.bind, ProjectScene.init, if_neg (not_not.2 hp)]
    rfl
  · intro o ho
    simp only [Dict.values, List.map_map, List.mem_map, Function.comp_def] at ho
    obtain ⟨kv, hkv, rfl⟩ := ho
    exact (transformPose_constructed (h kv.2 (List.mem_map.2 ⟨kv, hkv, rfl⟩)) p).2

/-- **C64.** `transform_pose` on a scene of constructed objects succeeds; it is an action (`p` then `q` is `q p`), the identity
leaves the elements as they are, a rigid pose is undone by its inverse; keys, order and everything but the poses stay. -/
theorem C64_action_partial (s : ProjectScene G) (hp : s.projectType ∈ ["bounding_box", "voxels", "meshes"])
    (h : ∀ o ∈ s.elements.values, Constructed o) (p q : Pose3 ℚ) :
    ∃ s1, s.transformPose p = .ok s1 ∧ s1.projectType = s.projectType ∧
      List.Forall₂ (fun kv kv' => kv'.1 = kv.1 ∧ SameExceptPose kv.2 kv'.2 ∧ kv'.2.pose = p.compose kv.2.pose)
        s.elements s1.elements ∧
      (∃ s2, s1.transformPose q = .ok s2 ∧ s.transformPose (q.compose p) = .ok s2) ∧
      (p = Pose3.identity → s1.elements = s.elements) ∧
      (IsOrthogonal p.R → ∃ s2, s1.transformPose p.inverse = .ok s2 ∧ s2.projectType = s.projectType ∧
        s2.elements = s.elements) := by
  obtain ⟨h1, h1'⟩ := transformPose_scene hp h p
  have h2 := fun q => (transformPose_scene (s := ⟨s.projectType, 0, false,
      s.elements.map fun kv => (kv.1, { kv.2 with pose := p.compose kv.2.pose })⟩) hp h1' q).1
  refine ⟨_, h1, rfl, ?_, ⟨_, h2 q, ?_⟩, ?_, ?_⟩
  · rw [List.forall₂_map_right_iff]
    exact List.forall₂_same.2 fun kv _ => ⟨rfl, rfl, rfl⟩
  · rw [(transformPose_scene hp h (q.compose p)).1]
    simp only [List.map_map, Function.comp_def, (C35_pose_group q p _).1]
  · rintro rfl
    simp only [(C35_pose_group _ Pose3.identity Pose3.identity).2.1]
    exact List.map_id _
  · intro ho
    refine ⟨_, h2 p.inverse, rfl, ?_⟩
    simp only [List.map_map, Function.comp_def, ← (C35_pose_group p.inverse p _).1,
      ((C35_pose_group p p p).2.2.2 ho).2.1, (C35_pose_group _ Pose3.identity Pose3.identity).2.1]
    exact List.map_id _

/-- **C64** is false for the settings: they are replaced by the default ones. -/
theorem C64_false : ∃ (h : Heap) (s s' : ProjectScene G), s.transformPose Pose3.identity = .ok s' ∧
    (h.cells s.settings).get? "version" = some (some "3.0") ∧
    (h.cells s'.settings).get? "version" = some (some "2.0") :=
  ⟨(Heap.start.alloc (defaultSettings.set "version" (some "3.0"))).1, ⟨"voxels", 1, true, []⟩, ⟨"voxels", 0, false, []⟩,
    rfl, rfl, rfl⟩

/-! ### C65: conversion -/

/-- **C65 (refusals).** Only meshes to voxels, meshes to bounding boxes and voxels to bounding boxes are possible. -/
theorem C65_refuses (h : Heap) (s : ProjectScene G) (target : String)
    (hn : ¬ ((s.projectType = "meshes" ∧ target = "voxels") ∨ (s.projectType = "meshes" ∧ target = "bounding_box") ∨
      (s.projectType = "voxels" ∧ target = "bounding_box"))) :
    ProjectConverter.run h s target = .error .valueError := by
  unfold ProjectConverter.run
  rw [if_pos]
  intro hm
  apply hn
  simpa [ProjectConverter.allowedConversions] using hm

theorem convertElement_ok {o o' : ProjectObject G} {target : String}
    (h : ProjectConverter.convertElement o target = .ok o') : ConvertedTo target o o' := by
  unfold ProjectConverter.convertElement at h
  split_ifs at h with h1 h2 h3
  · -- bounding boxes
    subst h2
    cases hb : ProjectConverter.boundsOf o with
    | error e => rw [hb] at h; cases h
    | ok b =>
      rw [hb] at h
      have hown : OwnBounds o b := by
        unfold ProjectConverter.boundsOf at hb
        split_ifs at hb with h4 h5
        · cases hv : o.voxels with
          | none => rw [hv] at hb; cases hb
          | some v => rw [hv] at hb; exact Or.inr (Or.inl ⟨h4, v, hv, hb⟩)
        · cases hm : o.meshes with
          | none => rw [hm] at hb; cases hb
          | some m =>
            rw [hm] at hb
            cases hvs : G.vertices m with
            | error e => simp only [hvs] at hb; cases hb
            | ok vs => simp only [hvs] at hb; cases hb; exact Or.inr (Or.inr ⟨h5, m, vs, hm, hvs, rfl⟩)
      simp only [bind, Except.bind] at h
      injection h with h; subst h
      exact ⟨rfl, rfl, rfl, rfl, rfl, rfl, rfl, fun _ => ⟨rfl, rfl, b, hown, rfl⟩, fun e => absurd e (by decide)⟩
  · subst h3
    cases hm : o.meshes with
    | none => rw [hm] at h; cases h
    | some m =>
      rw [hm] at h
      cases hps : G.samples m with
      | error e => simp only [hps] at h; cases h
      | ok ps =>
        simp only [hps, bind, Except.bind] at h
        cases hv : voxelizerRun (1 / 10) ps with
        | error e => rw [hv] at h; cases h
        | ok v =>
          rw [hv] at h
          dsimp only at h
          cases hb : v.bounds with
          | error e => rw [hb] at h; cases h
          | ok b =>
            rw [hb] at h
            injection h with h; subst h
            exact ⟨rfl, rfl, rfl, rfl, rfl, rfl, rfl, fun e => absurd e (by decide),
              fun _ => ⟨rfl, m, ps, v, b, hm, hps, hv, hb, rfl, rfl⟩⟩

/-- One turn of the loop of `run`. -/
theorem convertAll {target : String} : ∀ (os : List (ProjectObject G)) (d d' : ObjectDict G),
    (os.map (·.id)).Nodup → (∀ o ∈ os, o.id ∉ d.keys) →
    os.foldlM (ProjectConverter.convertStep target) d = (.ok d' : Except PyErr (ObjectDict G)) →
    ∃ os', d' = d ++ os'.map (fun o => (o.id, o)) ∧ List.Forall₂ (ConvertedTo target) os os' := by
  intro os
  induction os with
  | nil =>
    intro d d' _ _ h
    simp only [List.foldlM_nil, pure, Except.pure] at h
    injection h with h
    exact ⟨[], by simp [h], .nil⟩
  | cons o os ih =>
    intro d d' hn hd h
    rw [List.foldlM_cons] at h
    cases hc : ProjectConverter.convertElement o target with
    | error e => simp only [ProjectConverter.convertStep, hc, bind, Except.bind] at h; cases h
    | ok o' =>
      simp only [ProjectConverter.convertStep, hc, bind, Except.bind] at h
      have hconv := convertElement_ok hc
      simp only [List.map_cons, List.nodup_cons] at hn
      have hid : o'.id ∉ d.keys := by rw [hconv.id]; exact hd o (by simp)
      obtain ⟨os', e1, e2⟩ := ih (d.set o'.id o') d' hn.2 (by
        intro p hp
        rw [Dict.set_of_not_mem hid]
        simp only [Dict.keys, List.map_append, List.map_cons, List.map_nil, List.mem_append, List.mem_singleton, not_or]
        refine ⟨hd p (List.mem_cons_of_mem _ hp), ?_⟩
        intro e
        rw [hconv.id] at e
        exact hn.1 (e ▸ List.mem_map.2 ⟨p, hp, rfl⟩)) h
      refine ⟨o' :: os', ?_, .cons hconv e2⟩
      rw [e1, Dict.set_of_not_mem hid]; simp

/-- **C65.** A conversion that succeeds gives a scene of the target type with the same keys in the same order, every element
converted (`ConvertedTo`: same id, pose, category, symmetry, score, evaluated flag; the box of the element, or the voxels of its
samples), and with equal but separate settings: writing to one does not change the other. -/
theorem C65_converts {h h' : Heap} {s s' : ProjectScene G} {target : String} (hk : KeyedById s.elements)
    (hs : s.settings < h.next) (hr : ProjectConverter.run h s target = .ok (h', s')) :
    s'.projectType = target ∧ s'.constrained = true ∧
    List.Forall₂ (fun kv kv' => kv'.1 = kv.1 ∧ ConvertedTo target kv.2 kv'.2) s.elements s'.elements ∧
    h'.cells s'.settings = h.cells s.settings ∧ h'.cells s.settings = h.cells s.settings ∧
    (∀ k v, (h'.write s'.settings k v).cells s.settings = h.cells s.settings) ∧
    (∀ k v, (h'.write s.settings k v).cells s'.settings = h.cells s.settings) := by
  unfold ProjectConverter.run at hr
  split_ifs at hr with hall
  have hn : (s.elements.values.map (·.id)).Nodup := by rw [← keyedById_ids hk]; exact hk.1
  cases hf : s.elements.values.foldlM (ProjectConverter.convertStep target) ([] : ObjectDict G) with
  | error e => simp only [hf, bind, Except.bind] at hr; cases hr
  | ok d =>
    simp only [hf, bind, Except.bind] at hr
    obtain ⟨os', e1, e2⟩ := convertAll _ _ _ hn (by simp [Dict.keys]) hf
    unfold ProjectScene.init at hr
    split_ifs at hr with ht
    injection hr with hr
    injection hr with hr1 hr2
    subst hr1 hr2
    have hne : s.settings ≠ h.next := Nat.ne_of_lt hs
    refine ⟨rfl, rfl, ?_, ?_, ?_, ?_, ?_⟩
    · simp only [Option.getD_some, e1, List.nil_append]
      rw [List.forall₂_map_right_iff]
      have i3 : List.Forall₂ (fun (kv : String × ProjectObject G) o' => ConvertedTo target kv.2 o') s.elements os' := by
        unfold Dict.values at e2; exact List.forall₂_map_left_iff.1 e2
      have := (List.forall₂_and_left _ _).2 ⟨fun kv hkv => hk.2 kv hkv, i3⟩
      refine this.imp ?_
      rintro kv o' ⟨e, hsame⟩
      exact ⟨by rw [hsame.id, e], hsame⟩
    · simp [Heap.alloc]
    · simp [Heap.alloc, hne]
    · intro k v; simp [Heap.alloc, Heap.write, hne]
    · intro k v; simp [Heap.alloc, Heap.write, Ne.symm hne]

/-- **C65 (success).** A scene of savable meshes or voxels converts to bounding boxes; a scene of meshes with samples converts
to voxels. -/
theorem C65_succeeds (h : Heap) (s : ProjectScene G) (target : String)
    (hp : (s.projectType = "meshes" ∧ target = "voxels") ∨ (s.projectType = "meshes" ∧ target = "bounding_box") ∨
      (s.projectType = "voxels" ∧ target = "bounding_box"))
    (hs : ∀ o ∈ s.elements.values, Savable o ∧ o.projectType = s.projectType)
    (hsam : target = "voxels" → ∀ o ∈ s.elements.values, ∀ m, o.meshes = some m →
      ∃ ps v b, G.samples m = .ok ps ∧ voxelizerRun (1 / 10) ps = .ok v ∧ v.bounds = .ok b) :
    ∃ r, ProjectConverter.run h s target = .ok r := by
  have hall : ∀ pt, pt = s.projectType → (pt, target) ∈ ProjectConverter.allowedConversions := by
    rintro pt rfl
    simpa [ProjectConverter.allowedConversions] using hp
  have hel : ∀ o ∈ s.elements.values, ∃ o', ProjectConverter.convertElement o target = .ok o' := by
    intro o ho
    obtain ⟨h1, h2⟩ := hs o ho
    unfold ProjectConverter.convertElement
    rw [if_neg (not_not.2 (hall _ h2))]
    by_cases ht : target = "voxels"
    · rw [if_neg (by rw [ht]; decide), if_pos ht]
      have hm : o.projectType = "meshes" := by
        rcases hp with ⟨e, -⟩ | ⟨-, e⟩ | ⟨-, e⟩
        · rw [h2, e]
        · rw [ht] at e; exact absurd e (by decide)
        · rw [ht] at e; exact absurd e (by decide)
      rcases h1.shape with ⟨e, -⟩ | ⟨e, -⟩ | ⟨e, -, -, m, vs, f, m', e2, -⟩
      · rw [hm] at e; exact absurd e (by decide)
      · rw [hm] at e; exact absurd e (by decide)
      · obtain ⟨ps, v, b, hps, hv, hb⟩ := hsam ht o ho m e2
        rw [e2]
        simp only [hps, hv, hb, bind, Except.bind]
        exact ⟨_, rfl⟩
    · have ht2 : target = "bounding_box" := by
        rcases hp with ⟨-, e⟩ | ⟨-, e⟩ | ⟨-, e⟩
        · exact absurd e ht
        · exact e
        · exact e
      rw [if_pos ht2]
      obtain ⟨b, hb, -⟩ := xmlBounds_of_savable h1
      rcases h1.shape with ⟨e, -⟩ | ⟨e, -, -, v, hv, -⟩ | ⟨e, -, -, m, vs, f, m', hm, hvs, -⟩
      · rw [h2] at e
        rcases hp with ⟨e', -⟩ | ⟨e', -⟩ | ⟨e', -⟩ <;> rw [e] at e' <;> exact absurd e' (by decide)
      · unfold ProjectObject.xmlBounds at hb
        rw [e, hv] at hb
        have hb' : ProjectConverter.boundsOf o = .ok b := by
          unfold ProjectConverter.boundsOf
          rw [if_pos e, hv]; exact hb
        simp only [hb', bind, Except.bind]
        exact ⟨_, rfl⟩
      · have hb' : ProjectConverter.boundsOf o = .ok (bboxOfMeshes vs) := by
          unfold ProjectConverter.boundsOf
          rw [if_neg (by rw [e]; decide), if_pos e, hm]
          simp only [hvs]
          rfl
        simp only [hb', bind, Except.bind]
        exact ⟨_, rfl⟩
  have hfold : ∀ (os : List (ProjectObject G)) (d : ObjectDict G), (∀ o ∈ os, ∃ o',
      ProjectConverter.convertElement o target = .ok o') → ∃ d',
      os.foldlM (ProjectConverter.convertStep target) d = (.ok d' : Except PyErr (ObjectDict G)) := by
    intro os
    induction os with
    | nil => intro d _; exact ⟨d, rfl⟩
    | cons o os ih =>
      intro d ho
      obtain ⟨o', h1⟩ := ho o (by simp)
      obtain ⟨d', h2⟩ := ih (d.set o'.id o') (fun p hp => ho p (List.mem_cons_of_mem _ hp))
      exact ⟨d', by rw [List.foldlM_cons]; simp only [ProjectConverter.convertStep, h1, bind, Except.bind]; exact h2⟩
  obtain ⟨d, hd⟩ := hfold s.elements.values [] hel
  unfold ProjectConverter.run
  rw [if_neg (not_not.2 (hall _ rfl))]
  have ht : target ∈ ["bounding_box", "voxels", "meshes"] := by
    rcases hp with ⟨-, e⟩ | ⟨-, e⟩ | ⟨-, e⟩ <;> rw [e] <;> decide
  simp only [hd, bind, Except.bind, ProjectScene.init, if_neg (not_not.2 ht)]
  exact ⟨_, rfl⟩

/-! ### C94: what a failed save leaves behind -/

/-- **C94.** Whatever happens, saving touches at most the one project directory; it never overwrites an existing one; and if it
succeeds the directory has a scene file. -/
theorem C94_save_effects_partial (h : Heap) (fs : FileSystem G) (path name : String) (s : ProjectScene G) :
    (∀ p, p ≠ (path, name) → (ProjectScene.save T h fs path name s).1.get? p = fs.get? p) ∧
    (fs.has (path, name) = true → (ProjectScene.save T h fs path name s).1 = fs) ∧
    ((ProjectScene.save T h fs path name s).2 = .ok () →
      ∃ dir x, (ProjectScene.save T h fs path name s).1.get? (path, name) = some dir ∧ dir.xml = some x) := by
  refine ⟨?_, fun hex => by rw [C63_existing T h fs path name s hex], ?_⟩
  · intro p hp
    unfold ProjectScene.save
    split
    · rfl
    · dsimp only
      split
      · exact Dict.get?_set_ne _ _ (Ne.symm hp)
      · split
        · exact Dict.get?_set_ne _ _ (Ne.symm hp)
        · split
          · exact Dict.get?_set_ne _ _ (Ne.symm hp)
          · split <;> exact Dict.get?_set_ne _ _ (Ne.symm hp)
  · intro hok
    unfold ProjectScene.save at hok ⊢
    split at hok
    · cases hok
    · rename_i hex
      rw [if_neg hex]
      dsimp only at hok ⊢
      split at hok
      · cases hok
      · rename_i d hd
        split at hok
        · cases hok
        · rename_i hc
          rw [if_neg hc]
          split at hok
          · cases hok
          · rename_i dir elements hds
            split at hok
            · cases hok
            · rename_i doc hdoc
              exact ⟨_, _, Dict.get?_set_self _ _ _, rfl⟩

/-- **C94** as worded is false: a save that fails leaves the directory behind, so that saving a good scene there fails too. -/
theorem C94_false : ∃ (s good : ProjectScene G) (e : PyErr) (fs1 fs2 : FileSystem G),
    ProjectScene.save T Heap.start [] "d" "n" s = (fs1, .error e) ∧
    ProjectScene.save T Heap.start [] "d" "n" good = (fs2, .ok ()) ∧
    ProjectScene.save T Heap.start fs1 "d" "n" good = (fs1, .error .ioError) :=
  ⟨⟨"voxels", 0, false, []⟩, ⟨"voxels", 0, true, []⟩, .attributeError, _, _, rfl, rfl, rfl⟩

/-! ### C95: `almost_equal` -/

theorem isClose_of_close8 {a b : ℚ} (h : Close8 a b) : ProjectObject.isClose a b = true := by
  unfold ProjectObject.isClose
  rw [decide_eq_true_eq]
  unfold Close8 at h
  rw [abs_sub_comm] at h
  have hb : |a| ≤ |b| + |a - b| := by
    have := abs_sub_abs_le_abs_sub a b
    linarith
  have hb0 := abs_nonneg b
  rcases le_total |a| 1 with h1 | h1
  · rw [max_eq_left h1] at h
    norm_num at h ⊢
    linarith
  · rw [max_eq_right h1] at h
    norm_num at h ⊢
    linarith

theorem isClose_self (a : ℚ) : ProjectObject.isClose a a = true := by
  unfold ProjectObject.isClose
  rw [decide_eq_true_eq, sub_self, abs_zero]
  positivity

theorem poseAlmostEqual_of_close {p q : Pose3 ℚ} (h : PoseClose p q) : ProjectObject.poseAlmostEqual p q = true := by
  obtain ⟨⟨⟨a1, a2, a3⟩, ⟨b1, b2, b3⟩, ⟨c1, c2, c3⟩⟩, ⟨d1, d2, d3⟩⟩ := h
  unfold ProjectObject.poseAlmostEqual Pose3.matrix34
  simp only [List.flatten_cons, List.flatten_nil, List.cons_append, List.nil_append, List.append_nil,
    List.zipWith_cons_cons, List.zipWith_nil_left, List.all_cons, List.all_nil, Bool.and_true, Bool.and_eq_true]
  exact ⟨isClose_of_close8 a1, isClose_of_close8 b1, isClose_of_close8 c1, isClose_of_close8 d1,
    isClose_of_close8 a2, isClose_of_close8 b2, isClose_of_close8 c2, isClose_of_close8 d2,
    isClose_of_close8 a3, isClose_of_close8 b3, isClose_of_close8 c3, isClose_of_close8 d3⟩

theorem almostEqual_of_same {o o' : ProjectObject G} (h : SameObject o o')
    (hsz : ∀ m f m', o.meshes = some m → G.saveGlb o.id m = .ok f → G.loadGlb f = .ok m' → G.sameSize m m' = .ok true) :
    o.almostEqual o' = .ok true := by
  have hrest : (o.id == o'.id && ProjectObject.poseAlmostEqual o.pose o'.pose && o.category == o'.category &&
      o.symmetry.eq o'.symmetry && ProjectObject.isClose o.score o'.score && o.evaluated == o'.evaluated) = true := by
    rw [h.id, h.category, h.symmetry, h.score, h.evaluated, poseAlmostEqual_of_close h.pose, isClose_self,
      (C59_eq_iff _ _).2 rfl]
    simp
  unfold ProjectObject.almostEqual
  dsimp only
  rw [hrest]
  rcases h.meshes with ⟨e1, e2⟩ | ⟨m, f, m', e1, e2, e3, e4⟩
  · rw [e1]
  · rw [e1, e4]
    simp only [hsz m f m' e1 e2 e3]
    rfl

/-- **C95.** A dictionary loaded from what was saved is `almost_equal` to the one saved, provided GLB files keep the size of
mesh models. -/
theorem C95_reloaded {d : ObjectDict G} (hk : KeyedById d) (pt : String)
    (hs : ∀ o ∈ d.values, Savable o ∧ o.projectType = pt)
    (hsz : ∀ o ∈ d.values, ∀ m f m', o.meshes = some m → G.saveGlb o.id m = .ok f → G.loadGlb f = .ok m' →
      G.sameSize m m' = .ok true) (dir : ProjectDir G) :
    ∃ dir' x d', ObjectDict.save T d dir = (dir', .ok x) ∧ ObjectDict.load T pt x dir' = .ok d' ∧
      d.almostEqual d' = .ok true := by
  obtain ⟨dir', x, d', h1, h2, h3⟩ := C62_round_trip T hk pt hs dir
  refine ⟨dir', x, d', h1, h2, ?_⟩
  unfold ObjectDict.almostEqual
  rw [if_neg (not_not.2 h3.length_eq)]
  have hkeys : d'.keys = d.keys := by
    unfold Dict.keys
    clear h1 h2
    unfold SameDict at h3
    clear hk hs hsz
    induction h3 with
    | nil => rfl
    | cons h _ ih => simp [h.1, ih]
  have hnd : d'.NodupKeys := by unfold Dict.NodupKeys; rw [hkeys]; exact hk.1
  have hget : ∀ kv' ∈ d', d'.get? kv'.1 = some kv'.2 := fun kv' hm => Dict.get?_of_mem hnd hm
  have key : ∀ (l l' : ObjectDict G), List.Forall₂ (fun kv kv' => kv'.1 = kv.1 ∧ SameObject kv.2 kv'.2) l l' →
      (∀ kv ∈ l, kv.2 ∈ d.values) → (∀ kv' ∈ l', d'.get? kv'.1 = some kv'.2) → ObjectDict.almostEqualFrom d' l = .ok true := by
    intro l l' hl
    induction hl with
    | nil => intro _ _; rfl
    | @cons a b l l' hab _ ih =>
      intro hd hg
      unfold ObjectDict.almostEqualFrom
      rw [← hab.1, hg b (by simp)]
      simp only [almostEqual_of_same hab.2 (hsz _ (hd a List.mem_cons_self))]
      exact ih (fun kv hkv => hd kv (List.mem_cons_of_mem _ hkv)) (fun kv hkv => hg kv (List.mem_cons_of_mem _ hkv))
  exact key d d' h3 (fun kv hkv => List.mem_map_of_mem hkv) hget

/-- **C95 (what is compared).** Without meshes, `almost_equal` is exactly: same id, category, symmetry and flag, pose and score
within the tolerance `10⁻⁸ + 10⁻⁵ |·|`. Bounds, voxels and project type are not looked at. -/
theorem C95_compares {a b : ProjectObject G} (hm : a.meshes = none) :
    a.almostEqual b = .ok true ↔ a.id = b.id ∧ a.category = b.category ∧ a.symmetry = b.symmetry ∧
      a.evaluated = b.evaluated ∧ |a.score - b.score| ≤ 1 / 10 ^ 8 + 1 / 10 ^ 5 * |b.score| ∧
      ∀ xy ∈ List.zip a.pose.matrix34.flatten b.pose.matrix34.flatten,
        |xy.1 - xy.2| ≤ 1 / 10 ^ 8 + 1 / 10 ^ 5 * |xy.2| := by
  have hp : ProjectObject.poseAlmostEqual a.pose b.pose = true ↔
      ∀ xy ∈ List.zip a.pose.matrix34.flatten b.pose.matrix34.flatten,
        |xy.1 - xy.2| ≤ 1 / 10 ^ 8 + 1 / 10 ^ 5 * |xy.2| := by
    unfold ProjectObject.poseAlmostEqual
    rw [← List.map_uncurry_zip_eq_zipWith, List.all_map, List.all_eq_true]
    simp [ProjectObject.isClose]
  unfold ProjectObject.almostEqual
  rw [hm]
  simp only [Except.ok.injEq, Bool.and_eq_true, beq_iff_eq, hp, C59_eq_iff, ProjectObject.isClose, decide_eq_true_eq]
  tauto

/-- **C95 (symmetry)** is false: an object without meshes compared with one that has them answers, the other way round raises
`AttributeError`. -/
theorem C95_false (m : G.M) : ∃ a b : ProjectObject G, Constructed a ∧ Constructed b ∧ a.almostEqual b = .ok true ∧
    b.almostEqual a = .error .attributeError := by
  refine ⟨⟨"1", "bounding_box", none, none, none, Pose3.identity, none, ProjectObject.noSymmetry, 1, true⟩,
    ⟨"1", "meshes", none, none, some m, Pose3.identity, none, ProjectObject.noSymmetry, 1, true⟩,
    ⟨"1", "bounding_box", none, none, none, none, none, none, 1, true, rfl⟩,
    ⟨"1", "meshes", none, none, some m, none, none, none, 1, true, rfl⟩, ?_, rfl⟩
  rw [C95_compares rfl]
  refine ⟨rfl, rfl, rfl, rfl, by norm_num, ?_⟩
  intro xy hxy
  have : xy.1 = xy.2 := by
    have hz : ∀ (l : List ℚ), ∀ p ∈ List.zip l l, p.1 = p.2 := by
      intro l
      induction l with
      | nil => simp
      | cons a l ih =>
        intro p hp
        rw [List.zip_cons_cons, List.mem_cons] at hp
        rcases hp with rfl | hp
        · rfl
        · exact ih p hp
    exact hz _ xy hxy
  rw [this, sub_self, abs_zero]
  positivity

/-! ### C96: settings of different scenes -/

/-- **C96.** The settings of a loaded scene are a new dictionary: no scene made before is affected by writing to them, nor
by the loading itself. -/
theorem C96_loaded_partial {h h' : Heap} {fs : FileSystem G} {path name : String} {s' : ProjectScene G}
    (hl : ProjectScene.load T h fs path name = .ok (h', s')) (a : ℕ) (ha : a < h.next) (k : String) (v : Option String) :
    h'.cells a = h.cells a ∧ (h'.write s'.settings k v).cells a = h.cells a := by
  unfold ProjectScene.load at hl
  split at hl
  · cases hl
  · rename_i dir root _
    split_ifs at hl
    split at hl
    · cases hl
    · rename_i pt _
      cases hre : ProjectScene.readElements T pt dir root.children with
      | error e => simp only [hre, bind, Except.bind] at hl; cases hl
      | ok el =>
        cases el with
        | none => simp only [hre, bind, Except.bind] at hl; cases hl
        | some el =>
          simp only [hre, bind, Except.bind, ProjectScene.init] at hl
          split_ifs at hl
          injection hl with hl
          injection hl with h1 h2
          subst h1 h2
          have hne := Nat.ne_of_lt ha
          simp [Heap.alloc, Heap.write, hne]

/-- **C96** is false for scenes made without settings: writing to the settings of one changes those of every other one, of
those made by `transform_pose`, and of all made later. -/
theorem C96_false (h : Heap) (p1 p2 : String) (e1 e2 : Option (Bool × ObjectDict G)) (s1 s2 : ProjectScene G)
    (h1 : ProjectScene.init p1 e1 none = .ok s1) (h2 : ProjectScene.init p2 e2 none = .ok s2) (k : String)
    (v : Option String) : ((h.write s1.settings k v).cells s2.settings).get? k = some v := by
  unfold ProjectScene.init at h1 h2
  split_ifs at h1 h2
  injection h1 with h1
  injection h2 with h2
  subst h1 h2
  simp [Heap.write]

/-! ### Non-vacuity -/

/-- Mesh models that are lists of vertices, stored in their files as they are. -/
def pointMeshes : MeshOps :=
  ⟨List (List (Vec3 ℚ)), List (List (Vec3 ℚ)), .ok, fun m => .ok m.flatten, fun _ => .ok, .ok,
    fun a b => .ok (a.map List.length == b.map List.length)⟩

/-- A chair with meshes. -/
def sampleMeshes : ProjectObject pointMeshes :=
  ⟨"a1", "meshes", none, none, some [[⟨0, 0, 0⟩, ⟨1, 1, 1⟩, ⟨0, 2, 1 / 3⟩]], ⟨Rot3.identity, ⟨1, 2, 1 / 3⟩⟩, some "chair",
    ProjectObject.noSymmetry, 1 / 2, true⟩

/-- A box. -/
def sampleBox : ProjectObject pointMeshes :=
  ⟨"b 2", "bounding_box", some (Box3d.mk' ⟨1, 0, 0⟩ ⟨0, 1, 1 / 7⟩), none, none, Pose3.identity, some "unknown",
    ProjectObject.noSymmetry, -1, false⟩

/-- Voxels. -/
def sampleVoxels : ProjectObject pointMeshes :=
  ⟨"v", "voxels", none, some ⟨1 / 10, 0, [⟨0, 0, 0⟩, ⟨1, 2, 3⟩], 2, 3⟩, none, Pose3.identity, none,
    ProjectObject.noSymmetry, 1, true⟩

theorem sampleMeshes_savable : Savable sampleMeshes :=
  ⟨⟨.none, .none, .none, rfl⟩, Or.inr (Or.inr ⟨rfl, rfl, by decide, _, _, _, _, rfl, rfl, rfl, rfl⟩)⟩
theorem sampleBox_savable : Savable sampleBox :=
  ⟨⟨.none, .none, .none, rfl⟩, Or.inl ⟨rfl, rfl, rfl, _, _, rfl⟩⟩
theorem sampleVoxels_savable : Savable sampleVoxels :=
  ⟨⟨.none, .none, .none, rfl⟩, Or.inr (Or.inl ⟨rfl, rfl, by decide, _, rfl, by simp, by
    intro i hi
    simp only [List.mem_cons, List.not_mem_nil, or_false] at hi
    rcases hi with rfl | rfl <;> norm_num⟩)⟩

/-- C61 and its file version apply to all three kinds of objects. -/
example : Savable sampleMeshes ∧ Savable sampleBox ∧ Savable sampleVoxels ∧ XmlText sampleBox.id ∧
    (∀ c, sampleBox.category = some c → XmlText c) :=
  ⟨sampleMeshes_savable, sampleBox_savable, sampleVoxels_savable, xmlText_of_decide (by decide),
    fun c h => by injection h with h; subst h; exact xmlText_of_decide (by decide)⟩

/-- C61 (missing id): the hypotheses of the third part. -/
example : ∃ st, (Xml.node "element" [] none [.leaf "category" "chair"]).children.foldlM
    (ProjectObject.Parsed.step NumText.unary) ProjectObject.Parsed.start = .ok st := ⟨_, rfl⟩

/-- A scene with two boxes. -/
def sampleScene : ProjectScene pointMeshes :=
  ⟨"bounding_box", 0, true, [("b 2", sampleBox), ("c", { sampleBox with id := "c" })]⟩

/-- C62, C63 and C95 apply to it. -/
example : KeyedById sampleScene.elements ∧ (∀ o ∈ sampleScene.elements.values, Savable o ∧
      o.projectType = sampleScene.projectType ∧ XmlText o.id ∧ ∀ c, o.category = some c → XmlText c) ∧
    (∀ k ∈ fileSettings, ∃ v, (Heap.start.cells sampleScene.settings).get? k = some v ∧ ∀ x, v = some x → XmlText x) ∧
    (∀ n m f m', pointMeshes.saveGlb n m = .ok f → pointMeshes.loadGlb f = .ok m' → pointMeshes.sameSize m m' = .ok true) := by
  refine ⟨⟨by unfold Dict.NodupKeys; decide, ?_⟩, ?_, ?_, ?_⟩
  · intro kv hkv
    simp only [sampleScene, List.mem_cons, List.not_mem_nil, or_false] at hkv
    rcases hkv with rfl | rfl <;> rfl
  · intro o ho
    simp only [sampleScene, Dict.values, List.map_cons, List.map_nil, List.mem_cons, List.not_mem_nil, or_false] at ho
    rcases ho with rfl | rfl
    · exact ⟨sampleBox_savable, rfl, xmlText_of_decide (by decide),
        fun c h => by injection h with h; subst h; exact xmlText_of_decide (by decide)⟩
    · exact ⟨⟨⟨.none, .none, .none, rfl⟩, Or.inl ⟨rfl, rfl, rfl, _, _, rfl⟩⟩, rfl, xmlText_of_decide (by decide),
        fun c h => by injection h with h; subst h; exact xmlText_of_decide (by decide)⟩
  · intro k hk
    simp only [fileSettings, List.mem_cons, List.not_mem_nil, or_false] at hk
    rcases hk with rfl | rfl | rfl
    · exact ⟨_, rfl, fun x h => by injection h with h; subst h; exact xmlText_of_decide (by decide)⟩
    · exact ⟨_, rfl, fun x h => by injection h with h; subst h; exact xmlText_of_decide (by decide)⟩
    · exact ⟨_, rfl, fun x h => by injection h with h; subst h; exact xmlText_of_decide (by decide)⟩
  · intro n m f m' h1 h2
    injection h1 with h1
    injection h2 with h2
    subst h1 h2
    simp [pointMeshes]

/-- C64 applies to it, with a rigid pose that is not the identity. -/
example : (∀ o ∈ sampleScene.elements.values, Constructed o) ∧
    IsOrthogonal examplePose.R := by
  refine ⟨?_, examplePose_rot.1⟩
  intro o ho
  simp only [sampleScene, Dict.values, List.map_cons, List.map_nil, List.mem_cons, List.not_mem_nil, or_false] at ho
  rcases ho with rfl | rfl
  · exact ⟨"b 2", "bounding_box", _, none, none, none, _, none, _, _, rfl⟩
  · exact ⟨"c", "bounding_box", _, none, none, none, _, none, _, _, rfl⟩

/-- C65 applies to a scene of meshes. -/
example : ∃ r, ProjectConverter.run Heap.start ⟨"meshes", 0, true, [("a1", sampleMeshes)]⟩ "bounding_box" = .ok r ∧
    (0 : ℕ) < Heap.start.next := by
  obtain ⟨r, hr⟩ := C65_succeeds Heap.start ⟨"meshes", 0, true, [("a1", sampleMeshes)]⟩ "bounding_box"
    (Or.inr (Or.inl ⟨rfl, rfl⟩)) (by
      intro o ho
      simp only [Dict.values, List.map_cons, List.map_nil, List.mem_cons, List.not_mem_nil, or_false] at ho
      subst ho; exact ⟨sampleMeshes_savable, rfl⟩) (fun h => absurd h (by decide))
  exact ⟨r, hr, by decide⟩

/-- C96: a loaded scene. -/
example : ∃ (fs' : FileSystem pointMeshes) (h' : Heap) (s' : ProjectScene pointMeshes),
    ProjectScene.load NumText.unary Heap.start fs' "d" "n" = .ok (h', s') := by
  obtain ⟨fs', h', s', -, h2, -⟩ := C63_round_trip_partial NumText.unary Heap.start ([] : FileSystem pointMeshes) "d" "n"
    ⟨"voxels", 0, true, []⟩ rfl (by decide) rfl ⟨by unfold Dict.NodupKeys; decide, by simp⟩ (by simp [Dict.values]) (by
    intro k hk
    simp only [fileSettings, List.mem_cons, List.not_mem_nil, or_false] at hk
    rcases hk with rfl | rfl | rfl
    · exact ⟨_, rfl, fun x h => by injection h with h; subst h; exact xmlText_of_decide (by decide)⟩
    · exact ⟨_, rfl, fun x h => by injection h with h; subst h; exact xmlText_of_decide (by decide)⟩
    · exact ⟨_, rfl, fun x h => by injection h with h; subst h; exact xmlText_of_decide (by decide)⟩)
  exact ⟨fs', h', s', h2⟩

end Sumo
