import Mathlib.Data.List.TakeWhile
import Verif.Spec.Scene
import Verif.Lemmas.Xml
import Verif.Lemmas.Dict
import Verif.Props.Xml
import Verif.Props.Symmetry
import Verif.Props.Voxel

/-! # Helper lemmas: objects and scenes -/

namespace Sumo

variable (T : NumText) {G : MeshOps}

/-! ### Files -/

theorem xmlNewlines_of {l : List Char} (h : '\r' ∉ l) : xmlNewlines l = l := by
  induction l with
  | nil => rfl
  | cons c l ih =>
    simp only [List.mem_cons, not_or] at h
    unfold xmlNewlines
    split
    · simp_all
    · rename_i heq; injection heq with h1 h2; exact absurd h1.symm h.1
    · rename_i heq; injection heq with h1 h2; exact absurd h1.symm h.1
    · rename_i heq; injection heq with h1 h2; subst h1 h2; rw [ih h.2]

theorem rereadText_of {s : String} (h : XmlText s) : rereadText s = some s := by
  unfold rereadText
  rw [if_neg h.1, xmlNewlines_of h.2, String.ofList_toList]

theorem xmlText_of_decide {s : String} (h : decide (s ≠ "" ∧ '\r' ∉ s.toList) = true) : XmlText s :=
  (of_decide_eq_true h : s ≠ "" ∧ '\r' ∉ s.toList)

theorem rereadList_eq_map (l : List Xml) : Xml.rereadList l = l.map Xml.reread := by
  induction l with
  | nil => rfl
  | cons a l ih => simp [Xml.rereadList, ih]

theorem reread_leaf {t s : String} (h : XmlText s) : (Xml.leaf t s).reread = Xml.leaf t s := by
  unfold Xml.leaf
  simp [Xml.reread, Xml.rereadList, rereadText_of h]

theorem optText_reread {s : Option String} (h : ∀ x, s = some x → XmlText x) : s.bind rereadText = s := by
  cases s with
  | none => rfl
  | some s => exact rereadText_of (h s rfl)

theorem reread_optLeaf {t : String} {s : Option String} (h : ∀ x, s = some x → XmlText x) :
    (Xml.node t [] s []).reread = Xml.node t [] s [] := by
  cases s with
  | none => simp [Xml.reread, Xml.rereadList]
  | some s => simp [Xml.reread, Xml.rereadList, rereadText_of (h s rfl)]

theorem vecText_text (v : Vec3 ℚ) : XmlText (vecText T v) := T.array2string_text v

theorem reread_box (b : Box3d ℚ) (t : String) :
    ((Box3d.toXml T b).withTag t).reread = (Box3d.toXml T b).withTag t := by
  unfold Box3d.toXml Xml.withTag
  simp only [Xml.reread, rereadList_eq_map, List.map_cons, List.map_nil, reread_leaf (vecText_text T _), Option.bind_none]

theorem reread_rot (R : Rot3 ℚ) : (Rot3.toXml T R).reread = Rot3.toXml T R := by
  unfold Rot3.toXml
  simp only [Xml.reread, rereadList_eq_map, List.map_cons, List.map_nil, reread_leaf (vecText_text T _), Option.bind_none]

theorem reread_pose (p : Pose3 ℚ) : (Pose3.toXml T p).reread = Pose3.toXml T p := by
  unfold Pose3.toXml
  simp only [Xml.reread, rereadList_eq_map, List.map_cons, List.map_nil, reread_leaf (vecText_text T _), reread_rot,
    Option.bind_none]

theorem toText_text (s : SymmetryType) : XmlText s.toText := by
  cases s <;> exact xmlText_of_decide (by decide)

theorem reread_symmetry (s : ObjectSymmetry) : s.toXml.reread = s.toXml := by
  unfold ObjectSymmetry.toXml
  simp only [Xml.reread, rereadList_eq_map, List.map_cons, List.map_nil, reread_leaf (toText_text _), Option.bind_none]

theorem strBool_text (b : Bool) : XmlText (ProjectObject.strBool b) := by
  cases b <;> exact xmlText_of_decide (by decide)

theorem append_right_inj' {a b c : String} : a ++ c = b ++ c ↔ a = b := by
  constructor
  · intro h
    have := congrArg String.toList h
    simp only [String.toList_append, List.append_cancel_right_eq] at this
    exact String.toList_inj.1 this
  · rintro rfl; rfl

/-! ### Objects -/

/-- The element written for an object with bounds `b`. -/
def elementXml (o : ProjectObject G) (b : Box3d ℚ) : Xml :=
  .node "element" [] none
    [.leaf "id" o.id, .node "category" [] o.category [], (Box3d.toXml T b).withTag "bounds",
     Pose3.toXml T o.pose, o.symmetry.toXml, .leaf "detectionScore" (T.strFloat o.score),
     .leaf "evaluated" (ProjectObject.strBool o.evaluated)]

theorem reread_element (o : ProjectObject G) (b : Box3d ℚ) (hid : XmlText o.id)
    (hc : ∀ c, o.category = some c → XmlText c) : (elementXml T o b).reread = elementXml T o b := by
  unfold elementXml
  simp only [Xml.reread, rereadList_eq_map, List.map_cons, List.map_nil, reread_leaf hid, optText_reread hc, reread_box,
    reread_pose, reread_symmetry, reread_leaf (T.strFloat_text _), reread_leaf (strBool_text _), Option.bind_none]

theorem box_withTag (b : Box3d ℚ) : ((Box3d.toXml T b).withTag "bounds").withTag "box3d" = Box3d.toXml T b := rfl

theorem parseXml_element (o : ProjectObject G) (b : Box3d ℚ)
    (hs : ∃ x y z, ObjectSymmetry.mk? (some x) (some y) (some z) = .ok o.symmetry) :
    ProjectObject.parseXml T (elementXml T o b) =
      .ok (o.id, Box3d.mk' (printedVec b.minCorner) (printedVec b.maxCorner),
        ⟨some (some o.id),
         ⟨Mat3.ofColumns (printedVec o.pose.R.col0) (printedVec o.pose.R.col1) (printedVec o.pose.R.col2),
          printedVec o.pose.t⟩,
         o.category, some (Box3d.mk' (printedVec b.minCorner) (printedVec b.maxCorner)), some o.symmetry, o.score,
         o.evaluated⟩) := by
  obtain ⟨x, y, z, hs⟩ := hs
  have hsym := C60_round_trip x y z _ hs
  have h1 : ∀ st s, ProjectObject.Parsed.step T st (.leaf "id" s) = .ok { st with id := some (some s) } := fun _ _ => rfl
  have h2 : ∀ st s, ProjectObject.Parsed.step T st (.node "category" [] s []) = .ok { st with category := s } :=
    fun _ _ => rfl
  have h3 : ∀ st, ProjectObject.Parsed.step T st ((Box3d.toXml T b).withTag "bounds") =
      .ok { st with bounds := some (Box3d.mk' (printedVec b.minCorner) (printedVec b.maxCorner)) } := by
    intro st
    unfold ProjectObject.Parsed.step
    rw [box_withTag, box3d_fromXml_toXml]; rfl
  have h4 : ∀ st, ProjectObject.Parsed.step T st (Pose3.toXml T o.pose) = .ok { st with pose :=
      ⟨Mat3.ofColumns (printedVec o.pose.R.col0) (printedVec o.pose.R.col1) (printedVec o.pose.R.col2),
       printedVec o.pose.t⟩ } := by
    intro st
    unfold ProjectObject.Parsed.step
    rw [pose3_fromXml_toXml]; rfl
  have h5 : ∀ st, ProjectObject.Parsed.step T st o.symmetry.toXml = .ok { st with symmetry := some o.symmetry } := by
    intro st
    unfold ProjectObject.Parsed.step
    rw [hsym]; rfl
  have h6 : ∀ st, ProjectObject.Parsed.step T st (.leaf "detectionScore" (T.strFloat o.score)) =
      .ok { st with score := o.score } := by
    intro st
    unfold ProjectObject.Parsed.step Xml.leaf Xml.text Xml.tag
    simp only [T.parseFloat_strFloat]; rfl
  have h7 : ∀ st, ProjectObject.Parsed.step T st (.leaf "evaluated" (ProjectObject.strBool o.evaluated)) =
      .ok { st with evaluated := o.evaluated } := by
    intro st
    unfold ProjectObject.Parsed.step
    cases o.evaluated <;> rfl
  unfold ProjectObject.parseXml elementXml
  simp only [Xml.tag, Xml.children, List.foldlM_cons, List.foldlM_nil, h1, h2, h3, h4, h5, h6, h7, ne_eq,
    not_true_eq_false, if_false, bind, Except.bind, pure, Except.pure]

/-- The file of the object is in the directory. -/
def Stored (o : ProjectObject G) (dir : ProjectDir G) : Prop :=
  (o.projectType = "voxels" → VoxelGrid.load dir.h5 (o.id ++ ".h5") = match o.voxels with
    | some v => .ok v
    | none => .error .attributeError) ∧
  (o.projectType = "meshes" → ∃ m f, o.meshes = some m ∧ G.saveGlb o.id m = .ok f ∧ dir.glb.get? (o.id ++ ".glb") = some f)

theorem mk'_closed {b : Box3d ℚ} (h : ∃ c1 c2, b = Box3d.mk' c1 c2) :
    BoxClose b (Box3d.mk' (printedVec b.minCorner) (printedVec b.maxCorner)) := by
  obtain ⟨c1, c2, rfl⟩ := h
  obtain ⟨b', h1, h2⟩ := C42_round_trip_partial NumText.unary c1 c2
  rw [box3d_fromXml_toXml] at h1
  injection h1 with h1
  rw [h1]; exact h2

theorem merge_built (l : List (Box3d ℚ)) : ∃ c1 c2, Box3d.merge l = Box3d.mk' c1 c2 := by
  cases l with
  | nil => exact ⟨0, 0, rfl⟩
  | cons b l => exact ⟨_, _, rfl⟩

theorem bounds_built {v : VoxelGrid ℚ} {b : Box3d ℚ} (h : v.bounds = .ok b) : ∃ c1 c2, b = Box3d.mk' c1 c2 := by
  unfold VoxelGrid.bounds at h
  split at h
  · cases h
  · injection h with h; exact ⟨_, _, h.symm⟩

/-- The bounds written for a savable object. -/
theorem xmlBounds_of_savable {o : ProjectObject G} (h : Savable o) :
    ∃ b, o.xmlBounds = .ok b ∧ OwnBounds o b ∧ ∃ c1 c2, b = Box3d.mk' c1 c2 := by
  unfold ProjectObject.xmlBounds OwnBounds
  rcases h.shape with ⟨ht, -, -, c1, c2, hb⟩ | ⟨ht, -, -, v, hv, hne, -⟩ | ⟨ht, -, -, m, vs, f, m', hm, hvs, -, -⟩
  · exact ⟨Box3d.mk' c1 c2, by rw [ht, hb]; rfl, Or.inl ⟨ht, hb⟩, c1, c2, rfl⟩
  · have : ∃ b, v.bounds = .ok b := by
      unfold VoxelGrid.bounds VoxelGrid.voxelCenters
      cases hl : v.voxels with
      | nil => exact absurd hl hne
      | cons a l => exact ⟨_, rfl⟩
    obtain ⟨b, hb⟩ := this
    refine ⟨b, by rw [ht, hv]; exact hb, Or.inr (Or.inl ⟨ht, v, hv, hb⟩), bounds_built hb⟩
  · exact ⟨bboxOfMeshes vs, by rw [ht, hm]; simp only [hvs]; rfl, Or.inr (Or.inr ⟨ht, m, vs, hm, hvs, rfl⟩), merge_built _⟩

/-- Saving a savable object succeeds, writes its element, stores its file and leaves the other files alone. -/
theorem save_of_savable {o : ProjectObject G} (h : Savable o) {b : Box3d ℚ} (hb : o.xmlBounds = .ok b)
    (dir : ProjectDir G) :
    ∃ dir', o.save T dir = (dir', .ok (elementXml T o b)) ∧ Stored o dir' ∧
      (∀ k, k ≠ o.id → dir'.h5.get? (k ++ ".h5") = dir.h5.get? (k ++ ".h5") ∧
        dir'.glb.get? (k ++ ".glb") = dir.glb.get? (k ++ ".glb")) := by
  have hx : o.toXml T = .ok (elementXml T o b) := by
    unfold ProjectObject.toXml; rw [hb]; rfl
  rcases h.shape with ⟨ht, -, -, -⟩ | ⟨ht, -, hid, v, hv, hne, h32⟩ | ⟨ht, -, ⟨hid, hdot⟩, m, vs, f, m', hm, -, hf, hl⟩
  · refine ⟨dir, ?_, ?_, fun k _ => ⟨rfl, rfl⟩⟩
    · unfold ProjectObject.save; rw [hx, ht]; rfl
    · unfold Stored; rw [ht]; exact ⟨fun h => absurd h (by decide), fun h => absurd h (by decide)⟩
  · obtain ⟨h5, h1, h2, h3⟩ := C49_save_load dir.h5 (o.id ++ ".h5") v h32
    have hok : fileNameOk o.id = true := by unfold fileNameOk; simpa using hid
    refine ⟨{ dir with h5 := h5 }, ?_, ?_, ?_⟩
    · unfold ProjectObject.save; rw [hx, ht, hv, hok]
      simp only [if_neg (show ¬ ("voxels" = "meshes") by decide), if_true, h1]
    · unfold Stored; rw [ht, hv]; exact ⟨fun _ => h2, fun h => absurd h (by decide)⟩
    · intro k hk
      exact ⟨h3 _ (fun e => hk (append_right_inj'.1 e)), rfl⟩
  · have hok : fileNameOk o.id = true := by unfold fileNameOk; simpa using hid
    have hstem : glbNameOk o.id = true := by
      unfold glbNameOk
      rw [List.takeWhile_eq_self_iff.2 (fun c hc => by
        simp only [bne_iff_ne, ne_eq]; rintro rfl; exact hid (List.mem_reverse.1 hc)), List.any_eq_true]
      obtain ⟨c, hc, h⟩ := hdot
      exact ⟨c, List.mem_reverse.2 hc, by simpa using h⟩
    refine ⟨{ dir with glb := dir.glb.set (o.id ++ ".glb") f }, ?_, ?_, ?_⟩
    · unfold ProjectObject.save; rw [hx, ht, hm]
      simp only [if_true, hf, hok, hstem, Bool.true_eq_false, if_false]
    · unfold Stored; rw [ht]
      exact ⟨fun h => absurd h (by decide), fun _ => ⟨m, f, hm, hf, Dict.get?_set_self _ _ _⟩⟩
    · intro k hk
      exact ⟨rfl, Dict.get?_set_ne _ _ (fun e => hk (append_right_inj'.1 e).symm)⟩

/-- Loading the element of a savable object from a directory that holds its file. -/
theorem load_element {o : ProjectObject G} (h : Savable o) {b : Box3d ℚ} (hb : OwnBounds o b)
    (hbuilt : ∃ c1 c2, b = Box3d.mk' c1 c2) {dir : ProjectDir G} (hst : Stored o dir) :
    ∃ o', ProjectObject.load T o.projectType (elementXml T o b) dir = .ok o' ∧ SameObject o o' := by
  have hp := parseXml_element T o b h.symmetry
  have hpose : PoseClose o.pose ⟨Mat3.ofColumns (printedVec o.pose.R.col0) (printedVec o.pose.R.col1)
      (printedVec o.pose.R.col2), printedVec o.pose.t⟩ := ⟨matClose_of _, printedVec_close _⟩
  have hexact : ShortPose o.pose → (⟨Mat3.ofColumns (printedVec o.pose.R.col0) (printedVec o.pose.R.col1)
      (printedVec o.pose.R.col2), printedVec o.pose.t⟩ : Pose3 ℚ) = o.pose := by
    intro hsh
    rw [printedVec_short hsh.1, printedVec_short hsh.2.1, printedVec_short hsh.2.2.1, printedVec_short hsh.2.2.2]
    rfl
  have hbc := mk'_closed hbuilt
  rcases h.shape with ⟨ht, hv, hm, -⟩ | ⟨ht, hm, -, v, hv, -, -⟩ | ⟨ht, hv, -, m, vs, f, m', hm, -, hf, hl⟩
  · refine ⟨_, by unfold ProjectObject.load; rw [hp, ht]; rfl, ?_⟩
    exact ⟨rfl, ht.symm, rfl, rfl, rfl, rfl, hpose, hexact, ⟨b, _, hb, rfl, hbc⟩, hv.symm, Or.inl ⟨hm, rfl⟩⟩
  · have h1 := hst.1 ht
    rw [hv] at h1
    refine ⟨_, by
      unfold ProjectObject.load; rw [hp, ht]
      simp only [bind, Except.bind, if_neg (show ¬ ("voxels" = "bounding_box") by decide), if_true, h1]
      rfl, ?_⟩
    exact ⟨rfl, ht.symm, rfl, rfl, rfl, rfl, hpose, hexact, ⟨b, _, hb, rfl, hbc⟩, hv.symm, Or.inl ⟨hm, rfl⟩⟩
  · obtain ⟨m2, f2, e1, e2, e3⟩ := hst.2 ht
    rw [hm] at e1; injection e1 with e1; subst e1
    rw [hf] at e2; injection e2 with e2; subst e2
    refine ⟨_, by
      unfold ProjectObject.load; rw [hp, ht]
      simp only [bind, Except.bind, if_neg (show ¬ ("meshes" = "bounding_box") by decide),
        if_neg (show ¬ ("meshes" = "voxels") by decide), if_true, e3, hl]
      rfl, ?_⟩
    exact ⟨rfl, ht.symm, rfl, rfl, rfl, rfl, hpose, hexact, ⟨b, _, hb, rfl, hbc⟩, hv.symm,
      Or.inr ⟨m, f, m', hm, hf, hl, rfl⟩⟩

/-- Saving a list of savable objects with different ids. -/
theorem saveAll_of_savable : ∀ (os : List (ProjectObject G)), (∀ o ∈ os, Savable o) → (os.map (·.id)).Nodup →
    ∀ dir : ProjectDir G, ∃ dir' xs, ObjectDict.saveAll T os dir = (dir', .ok xs) ∧
      List.Forall₂ (fun o x => ∃ b, o.xmlBounds = .ok b ∧ OwnBounds o b ∧ (∃ c1 c2, b = Box3d.mk' c1 c2) ∧
        x = elementXml T o b) os xs ∧
      (∀ o ∈ os, Stored o dir') ∧
      (∀ k, k ∉ os.map (·.id) → dir'.h5.get? (k ++ ".h5") = dir.h5.get? (k ++ ".h5") ∧
        dir'.glb.get? (k ++ ".glb") = dir.glb.get? (k ++ ".glb")) := by
  intro os
  induction os with
  | nil => intro _ _ dir; exact ⟨dir, [], rfl, .nil, by simp, fun _ _ => ⟨rfl, rfl⟩⟩
  | cons o os ih =>
    intro hs hn dir
    simp only [List.map_cons, List.nodup_cons] at hn
    obtain ⟨b, hb, hob, hbb⟩ := xmlBounds_of_savable (hs o (by simp))
    obtain ⟨d1, h1, h2, h3⟩ := save_of_savable T (hs o (by simp)) hb dir
    obtain ⟨d2, xs, i1, i2, i3, i4⟩ := ih (fun p hp => hs p (List.mem_cons_of_mem _ hp)) hn.2 d1
    refine ⟨d2, elementXml T o b :: xs, ?_, .cons ⟨b, hb, hob, hbb, rfl⟩ i2, ?_, ?_⟩
    · unfold ObjectDict.saveAll
      simp only [h1, i1]
    · intro p hp
      rcases List.mem_cons.1 hp with rfl | hp
      · obtain ⟨j1, j2⟩ := i4 p.id hn.1
        refine ⟨fun ht => ?_, fun ht => ?_⟩
        · have := h2.1 ht
          unfold VoxelGrid.load at this ⊢
          rw [j1]; exact this
        · obtain ⟨m, f, e1, e2, e3⟩ := h2.2 ht
          exact ⟨m, f, e1, e2, by rw [j2]; exact e3⟩
      · exact i3 p hp
    · intro k hk
      simp only [List.map_cons, List.mem_cons, not_or] at hk
      obtain ⟨j1, j2⟩ := i4 k hk.2
      obtain ⟨k1, k2⟩ := h3 k hk.1
      exact ⟨j1.trans k1, j2.trans k2⟩

/-- Loading the elements of objects with different ids. -/
theorem loadAll (pt : String) (dir : ProjectDir G) : ∀ (os : List (ProjectObject G)) (xs : List Xml),
    List.Forall₂ (fun o x => x.tag = "element" ∧ ∃ o', ProjectObject.load T pt x dir = .ok o' ∧ SameObject o o') os xs →
    (os.map (·.id)).Nodup → ∀ d : ObjectDict G, (∀ o ∈ os, o.id ∉ d.keys) →
    ∃ os', xs.foldlM (fun (d : ObjectDict G) (c : Xml) =>
      if c.tag = "element" then
        match ProjectObject.load T pt c dir with
        | .error err => .error err
        | .ok po => .ok (d.set po.id po)
      else .ok d) d = (.ok (d ++ os'.map (fun o => (o.id, o))) : Except PyErr (ObjectDict G)) ∧
      List.Forall₂ SameObject os os' := by
  intro os xs h
  induction h with
  | nil => intro _ d _; exact ⟨[], by simp [pure, Except.pure], .nil⟩
  | @cons o x os xs hx _ ih =>
    intro hn d hd
    obtain ⟨ht, o', hl, hsame⟩ := hx
    simp only [List.map_cons, List.nodup_cons] at hn
    have hid : o'.id ∉ d.keys := by rw [hsame.id]; exact hd o (by simp)
    obtain ⟨os', i1, i2⟩ := ih hn.2 (d.set o'.id o') (by
      intro p hp
      rw [Dict.set_of_not_mem hid]
      simp only [Dict.keys, List.map_append, List.map_cons, List.map_nil, List.mem_append, List.mem_singleton, not_or]
      refine ⟨hd p (List.mem_cons_of_mem _ hp), ?_⟩
      intro e
      rw [hsame.id] at e
      exact hn.1 (e ▸ List.mem_map.2 ⟨p, hp, rfl⟩))
    refine ⟨o' :: os', ?_, .cons hsame i2⟩
    rw [List.foldlM_cons]
    simp only [ht, if_true, hl, bind, Except.bind]
    rw [i1, Dict.set_of_not_mem hid]
    simp

theorem keyedById_ids {d : ObjectDict G} (h : KeyedById d) : d.keys = d.values.map (·.id) := by
  unfold Dict.keys Dict.values
  rw [List.map_map]
  apply List.map_congr_left
  intro kv hkv
  exact h.2 kv hkv

end Sumo
