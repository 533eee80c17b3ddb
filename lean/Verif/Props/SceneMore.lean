import Verif.Props.Scene

/-! # More about objects, dictionaries and scenes (C61, C95, C96) -/

namespace Sumo

variable (T : NumText) {G : MeshOps}

/-! ### C61: carriage returns -/

/-- **C61 (through a file)** is false for ids with a carriage return: it comes back as a newline, so the id is another one. -/
theorem C61_return_false {o : ProjectObject G} (h : Savable o) (hbox : o.projectType = "bounding_box") (a b : String)
    (ha : '\r' ∉ a.toList) (hb : '\r' ∉ b.toList) (hb' : ∀ s, b.toList ≠ '\n' :: s) (hid : o.id = a ++ "\r" ++ b)
    (hc : ∀ c, o.category = some c → XmlText c) (dir : ProjectDir G) :
    ∃ dir' x o', o.save T dir = (dir', .ok x) ∧ ProjectObject.load T o.projectType x.reread dir' = .ok o' ∧
      o'.id = a ++ "\n" ++ b ∧ o'.id ≠ o.id := by
  obtain ⟨bb, hbb, hob, hbuilt⟩ := xmlBounds_of_savable h
  obtain ⟨dir', h1, h2, h3⟩ := save_of_savable T h hbb dir
  have hnl : ∀ l m : List Char, '\r' ∉ l → xmlNewlines (l ++ m) = l ++ xmlNewlines m := by
    intro l m
    induction l with
    | nil => intro _; rfl
    | cons c l ih =>
      intro hl
      simp only [List.mem_cons, not_or] at hl
      have := ih hl.2
      rw [List.cons_append, List.cons_append, ← this]
      have hcr : c ≠ '\r' := fun e => hl.1 e.symm
      rw [xmlNewlines]
      · exact fun l' e _ => hcr e
      · exact fun e => hcr e
  have hrd : rereadText o.id = some (a ++ "\n" ++ b) := by
    unfold rereadText
    rw [hid, if_neg (fun e => by have := congrArg String.toList e; simp at this)]
    congr 1
    apply String.toList_injective
    have e : (a ++ "\r" ++ b).toList = a.toList ++ ('\r' :: b.toList) := by simp
    rw [String.toList_ofList, e, hnl _ _ ha]
    have : xmlNewlines ('\r' :: b.toList) = '\n' :: b.toList := by
      rw [xmlNewlines]
      · rw [xmlNewlines_of hb]
      · exact fun l e => hb' l e
    rw [this]
    simp
  let o2 : ProjectObject G := { o with id := a ++ "\n" ++ b }
  have hre : (elementXml T o bb).reread = elementXml T o2 bb := by
    unfold elementXml
    have hi : (Xml.leaf "id" o.id).reread = Xml.leaf "id" o2.id := by
      simp only [Xml.leaf, Xml.reread, Option.bind_some, hrd, rereadList_eq_map, List.map_nil, o2]
    simp only [Xml.reread, rereadList_eq_map, List.map_cons, List.map_nil, hi, optText_reread hc, reread_box,
      reread_pose, reread_symmetry, reread_leaf (T.strFloat_text _), reread_leaf (strBool_text _), Option.bind_none]
    rfl
  have hs2 : Savable o2 := by
    refine ⟨h.symmetry, ?_⟩
    rcases h.shape with hx | ⟨ht, _⟩ | ⟨ht, _⟩
    · exact Or.inl hx
    · rw [hbox] at ht; exact absurd ht (by decide)
    · rw [hbox] at ht; exact absurd ht (by decide)
  have hob2 : OwnBounds o2 bb := hob
  have hst : Stored o2 dir' := by
    rcases h.shape with ⟨_, hv, hm, _⟩ | ⟨ht, _⟩ | ⟨ht, _⟩
    · unfold Stored at h2 ⊢
      simp only [o2] at h2 ⊢
      simp_all
    · rw [hbox] at ht; exact absurd ht (by decide)
    · rw [hbox] at ht; exact absurd ht (by decide)
  obtain ⟨o', h4, h5⟩ := load_element T hs2 hob2 hbuilt hst
  refine ⟨dir', _, o', h1, by rw [hre]; exact h4, h5.id, ?_⟩
  rw [h5.id, hid]
  intro e
  have := congrArg String.toList e
  simp [o2] at this

/-- A concrete case. -/
example : ∃ dir' x o', ProjectObject.save NumText.unary ({ sampleBox with id := "a\rb" } : ProjectObject pointMeshes) ⟨[], [], none⟩ = (dir', .ok x) ∧
    ProjectObject.load NumText.unary "bounding_box" x.reread dir' = .ok o' ∧ o'.id = "a\nb" := by
  obtain ⟨dir', x, o', h1, h2, h3, -⟩ := C61_return_false NumText.unary (o := ({ sampleBox with id := "a\rb" } : ProjectObject pointMeshes))
    ⟨sampleBox_savable.symmetry, Or.inl ⟨rfl, rfl, rfl, _, _, rfl⟩⟩ rfl "a" "b" (by decide) (by decide)
    (by intro s e; have := congrArg List.head? e; simp at this) rfl (by
      intro c hc; injection hc with hc; subst hc; exact xmlText_of_decide (by decide)) ⟨[], [], none⟩
  exact ⟨dir', x, o', h1, h2, h3⟩

/-! ### C95: dictionaries -/

/-- **C95 (what is compared).** Two dictionaries are almost equal exactly if they have the same keys and the objects under each key
are almost equal. -/
theorem C95_dict {d d' : ObjectDict G} (hd : d.NodupKeys) (hd' : d'.NodupKeys) :
    d.almostEqual d' = .ok true ↔ (∀ k, d.has k = d'.has k) ∧
      ∀ k o o', d.get? k = some o → d'.get? k = some o' → o.almostEqual o' = .ok true := by
  have loop : ∀ l : ObjectDict G, ObjectDict.almostEqualFrom d' l = .ok true ↔
      ∀ kv ∈ l, ∃ o', d'.get? kv.1 = some o' ∧ kv.2.almostEqual o' = .ok true := by
    intro l
    induction l with
    | nil => simp [ObjectDict.almostEqualFrom]
    | cons kv l ih =>
      obtain ⟨k, o⟩ := kv
      unfold ObjectDict.almostEqualFrom
      rw [List.forall_mem_cons, ← ih]
      cases hg : d'.get? k with
      | none => simp
      | some o' =>
        cases ho : o.almostEqual o' with
        | error e => simp [ho]
        | ok b => cases b <;> simp [ho]
  unfold ObjectDict.almostEqual
  have hmem : ∀ (x : ObjectDict G) k, x.has k = true ↔ k ∈ x.keys := fun x k => Dict.has_iff_mem_keys x k
  split_ifs with hlen
  · simp only [Except.ok.injEq, Bool.false_eq_true, false_iff, not_and]
    intro hk
    exfalso
    apply hlen
    have hp : d.keys.Perm d'.keys := (List.perm_ext_iff_of_nodup hd hd').2 fun k => by rw [← hmem, ← hmem, hk]
    have := hp.length_eq
    simpa [Dict.keys] using this
  · rw [not_not] at hlen
    rw [loop]
    constructor
    · intro h
      have hsub : d.keys ⊆ d'.keys := by
        intro k hk
        obtain ⟨v, hv⟩ := Dict.mem_keys.1 hk
        obtain ⟨o', ho, _⟩ := h _ hv
        exact Dict.mem_keys.2 ⟨o', Dict.mem_of_get? ho⟩
      have hp : d.keys.Perm d'.keys := (List.subperm_of_subset hd hsub).perm_of_length_le (by simp [Dict.keys, hlen])
      refine ⟨fun k => ?_, fun k o o' ho ho' => ?_⟩
      · rw [Bool.eq_iff_iff, hmem, hmem]; exact hp.mem_iff
      · obtain ⟨o'', h1, h2⟩ := h _ (Dict.mem_of_get? ho)
        dsimp only at h1 h2
        rw [ho'] at h1
        injection h1 with h1
        rw [h1]; exact h2
    · rintro ⟨hk, ho⟩ ⟨k, o⟩ hkv
      have hg := Dict.get?_of_mem hd hkv
      obtain ⟨o', ho'⟩ := (Dict.has_iff d' k).1 (by rw [← hk]; exact (Dict.has_iff d k).2 ⟨o, hg⟩)
      exact ⟨o', ho', ho k o o' hg ho'⟩

/-! ### C96: scenes loaded one after the other -/

/-- **C96.** Two scenes loaded one after the other, with anything written to the first one's settings in between, have settings of
their own: writing to those of one does not change those of the other. -/
theorem C96_two_loads_partial {h h1 h2 : Heap} {fs fs' : FileSystem G} {path name path' name' : String} {s1 s2 : ProjectScene G}
    (hl : ProjectScene.load T h fs path name = .ok (h1, s1)) (writes : List (String × Option String))
    (hl' : ProjectScene.load T (writes.foldl (fun x w => x.write s1.settings w.1 w.2) h1) fs' path' name' = .ok (h2, s2))
    (k : String) (v : Option String) :
    (h2.write s2.settings k v).cells s1.settings = h2.cells s1.settings ∧
    (h2.write s1.settings k v).cells s2.settings = h2.cells s2.settings := by
  have key : ∀ {x y : Heap} {fs : FileSystem G} {path name : String} {s : ProjectScene G},
      ProjectScene.load T x fs path name = .ok (y, s) → s.settings = x.next ∧ y.next = x.next + 1 := by
    intro x y fs path name s hl
    unfold ProjectScene.load at hl
    split at hl
    · cases hl
    · rename_i dir root _
      split_ifs at hl
      split at hl
      · cases hl
      · rename_i pt _
        cases hre : ProjectScene.readElements T pt dir root.children with
        | error e => simp only [hre, bind, Except.bind] at hl; cases hl
        | ok el =>
          cases el with
          | none => simp only [hre, bind, Except.bind] at hl; cases hl
          | some el =>
            simp only [hre, bind, Except.bind, ProjectScene.init] at hl
            split_ifs at hl
            injection hl with hl
            injection hl with h1 h2
            subst h1 h2
            exact ⟨rfl, rfl⟩
  obtain ⟨e1, e2⟩ := key hl
  obtain ⟨e3, -⟩ := key hl'
  have hw : ∀ (ws : List (String × Option String)) (x : Heap), (ws.foldl (fun x w => x.write s1.settings w.1 w.2) x).next = x.next := by
    intro ws
    induction ws with
    | nil => intro x; rfl
    | cons w ws ih => intro x; rw [List.foldl_cons, ih]; rfl
  rw [hw] at e3
  have hne : s1.settings ≠ s2.settings := by omega
  simp [Heap.write, hne, hne.symm]

end Sumo
