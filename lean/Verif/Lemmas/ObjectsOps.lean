import Verif.Lemmas.Objects

/-! Helper lemmas for `Verif/Props/Objects.lean`: every operation keeps the invariant and agrees with the world. -/

namespace Sumo.Objects

variable {K I G : Type}

/-- Every C++ object that is allocated belongs to a Python object that will free it. -/
def Own (s : State K I G) : Prop :=
  ∀ (a : ℕ) (x : Value K I G), s.heap[a]? = some (some x) →
    ∃ (i : ℕ) (o : Obj), s.objs[i]? = some o ∧ o.collected = false ∧ o.ptr = some a

/-- `Rel`, and for tidy programs (`c`) `Own`. -/
structure Inv (b c : Prop) (s : State K I G) (w : World K I G) : Prop where
  rel : Rel b s w
  own : c → Own s
  noq : c → ∀ (i : ℕ) (o : Obj), s.objs[i]? = some o → o.cls = .quaternion → o.ptr = none

variable {b c d : Prop} {s : State K I G} {w : World K I G}

theorem Inv.wrap (h : Inv b c s w) (k : Cls) (x : Value K I G) (hx : x.cls = some k) (hq : c → k ≠ .quaternion) :
    Inv b c (s.wrap k x) (w.push k (some x)) where
  rel := h.rel.wrap k x hx
  own := fun hc a y hy => by
    rcases getElem?_concat hy with hy | ⟨ha, -⟩
    · obtain ⟨i, o, ho, h1, h2⟩ := h.own hc a y hy
      exact ⟨i, o, getElem?_append_some ho, h1, h2⟩
    · exact ⟨s.objs.length, ⟨k, some s.heap.length, false⟩, List.getElem?_concat_length .., rfl, by rw [ha]⟩
  noq := fun hc i o ho hk => by
    rcases getElem?_concat ho with ho | ⟨-, ho⟩
    · exact h.noq hc i o ho hk
    · subst ho; exact absurd hk (hq hc)

theorem Inv.fresh (h : Inv b c s w) (k : Cls) (x : Value K I G) (hx : x.cls = some k) (hq : c → k ≠ .quaternion) :
    Inv b c ((s.wrap k x).bindVar s.objs.length) (w.fresh k (some x)) where
  rel := h.rel.fresh k x hx
  own := (h.wrap k x hx hq).own
  noq := (h.wrap k x hx hq).noq

theorem Inv.bindVar (h : Inv b c s w) {i : ℕ} {o : Obj} (ho : s.objs[i]? = some o) (hc : o.collected = false)
    (hb : b → o.ptr ≠ none) : Inv b c (s.bindVar i) (w.bindVar i) where
  rel := h.rel.bindVar ho hc hb
  own := h.own
  noq := h.noq

theorem Inv.set (h : Inv b c s w) {i : ℕ} {o : Obj} {a : ℕ} {y : Value K I G} (ho : s.objs[i]? = some o)
    (hc : o.collected = false) (hp : o.ptr = some a) (hy : y.cls = some o.cls) :
    Inv b c { s with heap := s.heap.set a (some y) } (w.setVal i o.cls y) where
  rel := h.rel.set ho hc hp hy
  own := fun hcc a' x hx => by
    change (s.heap.set a _)[a']? = _ at hx
    by_cases haa : a = a'
    · subst haa; exact ⟨i, o, ho, hc, hp⟩
    · rw [List.getElem?_set_ne haa] at hx
      exact h.own hcc a' x hx
  noq := h.noq

theorem Inv.pushNull (h : Inv b c s w) (k : Cls) : Inv b c (s.push ⟨k, none, false⟩) (w.push k none) where
  rel := h.rel.push k none none rfl (by simp)
  own := fun hc a x hx => by
    obtain ⟨i, o, ho, h1, h2⟩ := h.own hc a x hx
    exact ⟨i, o, getElem?_append_some ho, h1, h2⟩
  noq := fun hc i o ho hk => by
    rcases getElem?_concat ho with ho | ⟨-, ho⟩
    · exact h.noq hc i o ho hk
    · subst ho; rfl

/-! ### Arguments -/

/-- An argument found in both. -/
def FoundArg (b : Prop) (s : State K I G) (ok : Cls → Bool) : Option Obj → Option (Value K I G) → Prop
  | none, x => ¬ b ∧ x = none
  | some o, x => Val s o x ∧ ok o.cls = true ∧ (b → o.ptr ≠ none) ∧ o.collected = false ∧ ∃ i : ℕ, s.objs[i]? = some o

theorem argument_ref (h : Rel b s w) (u : Option ℕ) (ok : Cls → Bool) (l : List Cls) (hl : ∀ k, ok k = true ↔ k ∈ l)
    (hb : b → u ≠ none) : Ref b d (FoundArg b s ok) (s.argument ok u) (w.argument l u) := by
  cases u with
  | none => exact ⟨none, rfl, fun hbb => hb hbb rfl, rfl⟩
  | some v =>
    unfold State.argument World.argument
    refine (lookup_ref h v).bind ?_
    rintro ⟨i, o⟩ ⟨j, k, x⟩ ⟨rfl, hk, ho, hc, hv, hb'⟩
    dsimp only at hk ho hc hv hb' ⊢
    subst hk
    by_cases hok : ok o.cls = true
    · rw [if_pos hok, if_pos ((hl _).mp hok)]
      exact Ref.pure ⟨hv, hok, hb', hc, _, ho⟩
    · rw [if_neg hok, if_neg (fun hm => hok ((hl _).mpr hm))]
      rfl

theorem pointerArg_cases {ok : Cls → Bool} {p : Option Obj} {x : Option (Value K I G)} (h : FoundArg b s ok p x) :
    (¬ b ∧ pointer? p = .error (.crash .null) ∧ x = none) ∨
    ∃ a y k, pointer? p = .ok a ∧ s.heap[a]? = some (some y) ∧ x = some y ∧ y.cls = some k ∧ ok k = true := by
  cases p with
  | none => exact Or.inl ⟨h.1, rfl, h.2⟩
  | some o =>
    obtain ⟨hv, hok, hb, -, -⟩ := h
    rcases pointer_cases hv with ⟨hn, hp, hx⟩ | ⟨a, y, -, hp, hy, hx, hc⟩
    · exact Or.inl ⟨fun hbb => hb hbb hn, hp, hx⟩
    · exact Or.inr ⟨a, y, o.cls, hp, hy, hx, hc, hok⟩

/-- A call of `replace_geometry` on a mesh with itself: the two variables refer to the same object. -/
def SelfReplace (w : World K I G) (v : ℕ) (u : Option ℕ) : Prop :=
  ∃ v2 i, u = some v2 ∧ w.vars[v]? = some (some i) ∧ w.vars[v2]? = some (some i)

theorem lookup_no_crash {v : ℕ} {k : Crash} : s.lookup v ≠ .error (.crash k) := by
  unfold State.lookup
  split
  · split <;> simp
  · simp

theorem lookup_var {v i : ℕ} {o : Obj} (hl : s.lookup v = .ok (i, o)) : s.vars[v]? = some (some i) := by
  unfold State.lookup at hl
  split at hl
  · rename_i j hj
    split at hl
    · cases hl; exact hj
    · cases hl
  · cases hl

/-- `lookup_ref`, with the variable. -/
theorem lookup_ref' (h : Rel b s w) (v : ℕ) :
    Ref b d (fun p q => Found b s p q ∧ w.vars[v]? = some (some p.1)) (s.lookup v) (w.lookup v) := by
  have hR := lookup_ref (d := d) h v
  rcases hl : s.lookup v with e | ⟨i, o⟩
  · rw [hl] at hR
    cases e <;> exact hR
  · rw [hl] at hR
    obtain ⟨r, h1, h2⟩ := hR
    exact ⟨r, h1, h2, by rw [← h.vars]; exact lookup_var hl⟩

/-- `argument_ref`, with the variable. -/
theorem argument_ref' (h : Rel b s w) (u : Option ℕ) (ok : Cls → Bool) (l : List Cls) (hl' : ∀ k, ok k = true ↔ k ∈ l)
    (hb : b → u ≠ none) :
    Ref b d (fun p x => FoundArg b s ok p x ∧
        ∀ q, p = some q → ∃ i2 v2, s.objs[i2]? = some q ∧ u = some v2 ∧ w.vars[v2]? = some (some i2))
        (s.argument ok u) (w.argument l u) := by
  have hA := argument_ref (d := d) h u ok l hl' hb
  rcases hsa : s.argument ok u with e | p
  · rw [hsa] at hA
    cases e with
    | raise e => exact hA
    | crash k => exact hA
  · rw [hsa] at hA
    obtain ⟨r, hr, hf⟩ := hA
    refine ⟨r, hr, hf, ?_⟩
    rintro q rfl
    cases u with
    | none => simp [State.argument] at hsa
    | some v2 =>
      simp only [State.argument] at hsa
      rcases hl2 : s.lookup v2 with e | ⟨i2, o2⟩
      · rw [hl2] at hsa; cases hsa
      · rw [hl2] at hsa
        simp only [bind, Except.bind] at hsa
        split at hsa
        · cases hsa
          unfold State.lookup at hl2
          split at hl2
          · rename_i j2 hj2
            split at hl2
            · rename_i o3 ho3
              cases hl2
              exact ⟨_, v2, ho3, rfl, by rw [← h.vars]; exact hj2⟩
            · cases hl2
          · cases hl2
        · cases hsa

theorem pointerArg_ptr {p : Option Obj} {a : ℕ} (hq : pointer? p = .ok a) : ∃ q, p = some q ∧ q.ptr = some a := by
  cases p with
  | none => simp [pointer?] at hq
  | some q =>
    refine ⟨q, rfl, ?_⟩
    simp only [pointer?, pointer] at hq
    cases hqq : q.ptr with
    | none => rw [hqq] at hq; cases hq
    | some z => rw [hqq] at hq; cases hq; rfl

/-- Two C++ objects at the same address: the variables are of the same object. -/
theorem same_object {v i a : ℕ} {u : Option ℕ} {o : Obj} {p : Option Obj} {ok : Cls → Bool} {y : Option (Value K I G)}
    (h : Rel b s w) (ho : s.objs[i]? = some o) (hc : o.collected = false) (hpa : o.ptr = some a)
    (hv : w.vars[v]? = some (some i)) (hq : pointer? p = .ok a) (hp : FoundArg b s ok p y)
    (hpv : ∀ q, p = some q → ∃ i2 v2, s.objs[i2]? = some q ∧ u = some v2 ∧ w.vars[v2]? = some (some i2)) :
    SelfReplace w v u := by
  obtain ⟨q, rfl, hqp⟩ := pointerArg_ptr hq
  obtain ⟨i2, v2, h1, h2, h3⟩ := hpv q rfl
  have := h.inj _ _ _ _ _ ho h1 hc hp.2.2.2.1 hpa hqp
  subst this
  exact ⟨v2, i, h2, hv, h3⟩

theorem Ref.null {α β : Type} {P : α → β → Prop} {n : Except PyErr β} (h : ¬ b)
    (hn : d → n = .error .undefined) : Ref b d P (.error (.crash .null)) n := ⟨by simp, by simp, fun hb => absurd hb h, hn⟩

theorem Ref.crash {α β : Type} {P : α → β → Prop} {n : Except PyErr β} {k : Crash} (h1 : k ≠ .freed) (h2 : k ≠ .badCast)
    (h3 : k ≠ .null) (hn : d → n = .error .undefined) : Ref b d P (.error (.crash k)) n := ⟨h1, h2, fun _ => h3, hn⟩

theorem cls_mesh {y : Value K I G} (h : y.cls = some .mesh) : ∃ m, y = .mesh m := by
  cases y <;> simp_all [Value.cls]
theorem cls_textured {y : Value K I G} (h : y.cls = some .textured) : ∃ m, y = .textured m := by
  cases y <;> simp_all [Value.cls]
theorem cls_cloud {y : Value K I G} (h : y.cls = some .cloud) : ∃ m, y = .cloud m := by
  cases y <;> simp_all [Value.cls]
theorem cls_gltf {y : Value K I G} (h : y.cls = some .gltf) : ∃ m, y = .gltf m := by
  cases y <;> simp_all [Value.cls]

/-! ### Meshes -/

theorem mesh_or_textured (k : Cls) :
    ((k == .mesh || k == .textured) = true) ↔ k ∈ ([.mesh, .textured] : List Cls) := by
  cases k <;> decide

theorem only_textured (k : Cls) : ((k == .textured) = true) ↔ k ∈ ([.textured] : List Cls) := by
  cases k <;> decide

theorem only_cloud (k : Cls) : ((k == .cloud) = true) ↔ k ∈ ([.cloud] : List Cls) := by
  cases k <;> decide

theorem merge_ref (h : Inv b c s w) (v : ℕ) (u : Option ℕ) (n : ℕ) (hb : b → u ≠ none)
    (hs' : d → ¬ SelfReplace w v u) :
    Ref b d (Inv b c) (merge s v u n) (w.merge v u n) := by
  unfold merge World.merge
  refine (lookup_ref' h.rel v).bind ?_
  rintro ⟨i, o⟩ ⟨j, k, x⟩ ⟨⟨rfl, hk, ho, hc, hv, hb'⟩, hvv⟩
  dsimp only at hk ho hc hv hb' hvv ⊢
  subst hk
  cases hcls : o.cls <;> simp only
  · refine (argument_ref' h.rel u _ _ mesh_or_textured hb).bind ?_
    rintro p y ⟨hp, hpv⟩
    rcases pointer_cases hv with ⟨hn, hpt, rfl⟩ | ⟨a, xv, hpa, hpt, hx, rfl, hxc⟩
    · rw [hpt]; exact Ref.null (fun hbb => hb' hbb hn) (fun _ => rfl)
    · rcases pointerArg_cases hp with ⟨hnb, hq, rfl⟩ | ⟨a2, yv, k2, hq, hy, rfl, hyc, hok⟩
      · simp only [hpt, hq, bind, Except.bind]; exact Ref.null hnb (fun _ => by cases xv <;> rfl)
      · rw [hcls] at hxc
        obtain ⟨m, rfl⟩ := cls_mesh hxc
        simp only [hpt, hq, bind, Except.bind, meshMergeAt, load_ok hx, load_ok hy]
        have hs := fun (y : Mesh K) => h.set (y := .mesh y) ho hc hpa (by rw [hcls]; rfl)
        rw [hcls] at hs
        cases yv with
        | mesh m2 =>
          simp only
          split
          · rename_i hov
            obtain ⟨rfl, -⟩ := hov
            exact Ref.crash (by simp) (by simp) (by simp) (fun hd => absurd (same_object h.rel ho hc hpa hvv hq hp hpv) (hs' hd))
          · rw [store_ok _ hx]
            exact Ref.ok (hs _)
        | textured m2 =>
          simp only
          rw [store_ok _ hx]
          exact Ref.ok (hs _)
        | _ => simp only [Value.cls] at hyc; cases hyc <;> simp at hok
  · refine (argument_ref' h.rel u _ _ only_textured hb).bind ?_
    rintro p y ⟨hp, hpv⟩
    rcases pointer_cases hv with ⟨hn, hpt, rfl⟩ | ⟨a, xv, hpa, hpt, hx, rfl, hxc⟩
    · rw [hpt]; exact Ref.null (fun hbb => hb' hbb hn) (fun _ => rfl)
    · rcases pointerArg_cases hp with ⟨hnb, hq, rfl⟩ | ⟨a2, yv, k2, hq, hy, rfl, hyc, hok⟩
      · simp only [hpt, hq, bind, Except.bind]; exact Ref.null hnb (fun _ => by cases xv <;> rfl)
      · rw [hcls] at hxc
        obtain ⟨m, rfl⟩ := cls_textured hxc
        have hk2 : k2 = .textured := by simpa using hok
        subst hk2
        obtain ⟨m2, rfl⟩ := cls_textured hyc
        simp only [hpt, hq, bind, Except.bind, texturedMergeAt, load_ok hx, load_ok hy]
        have hs := fun (y : TexturedMesh K I) => h.set (y := .textured y) ho hc hpa (by rw [hcls]; rfl)
        rw [hcls] at hs
        split
        · rename_i hov
          obtain ⟨rfl, -⟩ := hov
          exact Ref.crash (by simp) (by simp) (by simp) (fun hd => absurd (same_object h.rel ho hc hpa hvv hq hp hpv) (hs' hd))
        · cases m.merge m2 n with
          | none => exact Ref.crash (by simp) (by simp) (by simp) (fun _ => rfl)
          | some r =>
            simp only
            rw [store_ok _ hx]
            exact Ref.ok (hs _)
  all_goals rfl

theorem cleared_merge (m m2 : Mesh K) : m.cleared.merge m2 0 = World.geometry m m2 := by
  unfold Mesh.merge Mesh.cleared World.geometry
  cases hv : m2.vertices with
  | nil => simp
  | cons a l => simp

theorem textured_cleared_merge (m m2 : TexturedMesh K I) :
    m.cleared.merge m2 0 = some { m with
      toMesh := World.geometry m.toMesh m2.toMesh, uvCoords := if m2.vertices.length > 0 then m2.uvCoords else [] } := by
  have hb : m.cleared.toMesh.merge m2.toMesh 0 = World.geometry m.toMesh m2.toMesh := cleared_merge m.toMesh m2.toMesh
  unfold TexturedMesh.merge
  simp only [hb]
  by_cases hv : m2.vertices.length > 0
  · simp [hv, TexturedMesh.cleared]
  · simp [hv, TexturedMesh.cleared]

theorem replace_mesh {a a2 : ℕ} {m : Mesh K} {y : Value K I G} (hx : s.heap[a]? = some (some (.mesh m)))
    (hy : s.heap[a2]? = some (some y)) (hne : a ≠ a2) (m2 : Mesh K)
    (hm : y = .mesh m2 ∨ ∃ t : TexturedMesh K I, y = .textured t ∧ t.toMesh = m2) :
    (s.store a (.mesh m.cleared) >>= fun s => meshMergeAt s a a2 0) =
      .ok { s with heap := s.heap.set a (some (.mesh (World.geometry m m2))) } := by
  rw [store_ok _ hx]
  simp only [bind, Except.bind]
  have hlt := getElem?_some_lt hx
  have h1 : (s.heap.set a (some (.mesh m.cleared)))[a]? = some (some (Value.mesh m.cleared)) :=
    List.getElem?_set_self hlt
  have h2 : (s.heap.set a (some (.mesh m.cleared)))[a2]? = some (some y) := by
    rw [List.getElem?_set_ne hne, hy]
  simp only [meshMergeAt, State.load, h1, h2, bind, Except.bind]
  rcases hm with rfl | ⟨t, rfl, rfl⟩
  · simp only [hne, false_and, if_false, State.store, h1, List.set_set, cleared_merge]
  · simp only [State.store, h1, List.set_set, cleared_merge]

theorem replace_ref (h : Inv b c s w) (v : ℕ) (u : Option ℕ) (hb : b → u ≠ none) (hs : ¬ SelfReplace w v u) :
    Ref b d (Inv b c) (replaceGeometry s v u) (w.replaceGeometry v u) := by
  unfold replaceGeometry World.replaceGeometry
  refine (lookup_ref' h.rel v).bind ?_
  rintro ⟨i, o⟩ ⟨j, k, x⟩ ⟨⟨rfl, hk, ho, hc, hv, hb'⟩, hvv⟩
  dsimp only at hk ho hc hv hb' hvv ⊢
  subst hk
  cases hcls : o.cls <;> simp only
  · refine (argument_ref' h.rel u _ _ mesh_or_textured hb).bind ?_
    rintro p y ⟨hp, hpv⟩
    rcases pointer_cases hv with ⟨hn, hpt, rfl⟩ | ⟨a, xv, hpa, hpt, hx, rfl, hxc⟩
    · rw [hpt]; exact Ref.null (fun hbb => hb' hbb hn) (fun _ => rfl)
    · rcases pointerArg_cases hp with ⟨hnb, hq, rfl⟩ | ⟨a2, yv, k2, hq, hy, rfl, hyc, hok⟩
      · simp only [hpt, hq, bind, Except.bind]; exact Ref.null hnb (fun _ => by cases xv <;> rfl)
      · rw [hcls] at hxc
        obtain ⟨m, rfl⟩ := cls_mesh hxc
        have haa : a ≠ a2 := by
          rintro rfl
          exact hs (same_object h.rel ho hc hpa hvv hq hp hpv)
        have hs := fun (y : Mesh K) => h.set (y := .mesh y) ho hc hpa (by rw [hcls]; rfl)
        rw [hcls] at hs
        simp only [hpt, hq, load_ok hx, bind, Except.bind]
        cases yv with
        | mesh m2 =>
          have := replace_mesh hx hy haa m2 (Or.inl rfl)
          simp only [bind, Except.bind] at this
          rw [this]
          exact Ref.ok (hs _)
        | textured m2 =>
          have := replace_mesh hx hy haa m2.toMesh (Or.inr ⟨m2, rfl, rfl⟩)
          simp only [bind, Except.bind] at this
          rw [this]
          exact Ref.ok (hs _)
        | _ => simp only [Value.cls] at hyc; cases hyc <;> simp at hok
  · refine (argument_ref' h.rel u _ _ only_textured hb).bind ?_
    rintro p y ⟨hp, hpv⟩
    rcases pointer_cases hv with ⟨hn, hpt, rfl⟩ | ⟨a, xv, hpa, hpt, hx, rfl, hxc⟩
    · rw [hpt]; exact Ref.null (fun hbb => hb' hbb hn) (fun _ => rfl)
    · rcases pointerArg_cases hp with ⟨hnb, hq, rfl⟩ | ⟨a2, yv, k2, hq, hy, rfl, hyc, hok⟩
      · simp only [hpt, hq, bind, Except.bind]; exact Ref.null hnb (fun _ => by cases xv <;> rfl)
      · rw [hcls] at hxc
        obtain ⟨m, rfl⟩ := cls_textured hxc
        have hk2 : k2 = .textured := by simpa using hok
        subst hk2
        obtain ⟨m2, rfl⟩ := cls_textured hyc
        have haa : a ≠ a2 := by
          rintro rfl
          exact hs (same_object h.rel ho hc hpa hvv hq hp hpv)
        have hs := fun (y : TexturedMesh K I) => h.set (y := .textured y) ho hc hpa (by rw [hcls]; rfl)
        rw [hcls] at hs
        have hlt := getElem?_some_lt hx
        have h1 : (s.heap.set a (some (.textured m.cleared)))[a]? = some (some (Value.textured m.cleared)) :=
          List.getElem?_set_self hlt
        have h2 : (s.heap.set a (some (.textured m.cleared)))[a2]? = some (some (.textured m2)) := by
          rw [List.getElem?_set_ne haa, hy]
        simp only [hpt, hq, hx, texturedMergeAt, State.load, h1, h2, bind, Except.bind, haa,
          false_and, if_false, textured_cleared_merge, State.store, List.set_set]
        exact Ref.ok (hs _)
  all_goals rfl

end Sumo.Objects
