import Verif.Lemmas.ObjectsStep

/-! Helper lemmas for `Verif/Props/Objects.lean`: extraction, TIFF files, and whole programs. -/

namespace Sumo.Objects

variable {K I G : Type} {b c d : Prop} {s : State K I G} {w : World K I G}

/-! ### Extraction of meshes -/

theorem allocMeshes_eq (ms : List (Mesh K ⊕ TexturedMesh K I)) (s : State K I G) :
    allocMeshes s ms = { s with heap := s.heap ++ ms.map fun m => some (meshValue m) } := by
  induction ms generalizing s with
  | nil => simp [allocMeshes]
  | cons m ms ih => simp [allocMeshes, ih, State.alloc]

theorem Rel.allocMeshes (h : Rel b s w) (ms : List (Mesh K ⊕ TexturedMesh K I)) : Rel b (allocMeshes s ms) w := by
  induction ms generalizing s with
  | nil => exact h
  | cons m ms ih => exact ih (h.alloc _)

/-- The class and the value of an extracted mesh. -/
def entry (m : Mesh K ⊕ TexturedMesh K I) : Cls × Option (Value K I G) :=
  match m with
  | .inl m => (.mesh, some (.mesh m))
  | .inr m => (.textured, some (.textured m))

/-- The Python object of an extracted mesh at an address. -/
def usurped (m : Mesh K ⊕ TexturedMesh K I) (a : ℕ) : Obj :=
  match m with
  | .inl _ => ⟨.mesh, some a, false⟩
  | .inr _ => ⟨.textured, some a, false⟩

theorem usurp_rel (ms : List (Mesh K ⊕ TexturedMesh K I)) : ∀ (s : State K I G) (w : World K I G) (n : ℕ), Rel b s w →
    (∀ (i : ℕ) (m : Mesh K ⊕ TexturedMesh K I), ms[i]? = some m → s.heap[n + i]? = some (some (meshValue m))) →
    (∀ (i : ℕ) (o : Obj) (a : ℕ), s.objs[i]? = some o → o.collected = false → o.ptr = some a → a < n) →
    ∃ t, usurpMeshes s (List.range' n ms.length) = .ok t ∧ Rel b t ⟨w.vals ++ ms.map entry, w.vars⟩ ∧
      t.heap = s.heap ∧ t.vars = s.vars ∧ t.objs.length = s.objs.length + ms.length ∧
      (∀ (i : ℕ) (o : Obj), s.objs[i]? = some o → t.objs[i]? = some o) ∧
      (∀ (i : ℕ) (o : Obj), t.objs[i]? = some o → s.objs.length ≤ i → o.cls ≠ .quaternion ∧ o.ptr ≠ none) ∧
      ∀ (i : ℕ) (m : Mesh K ⊕ TexturedMesh K I), ms[i]? = some m →
        t.objs[s.objs.length + i]? = some (usurped m (n + i)) := by
  induction ms with
  | nil =>
    intro s w n h _ _
    refine ⟨s, rfl, by simpa using h, rfl, rfl, rfl, fun _ _ h => h, ?_, by simp⟩
    intro i o ho hi
    have := getElem?_some_lt ho
    omega
  | cons m ms ih =>
    intro s w n h hh hp
    have h0 := hh 0 m rfl
    simp only [Nat.add_zero] at h0
    have hpush : Rel b (s.push (usurped m n)) (w.push (entry (G := G) m).1 (entry m).2) := by
      cases m with
      | inl m =>
        refine h.push .mesh (some n) (some (.mesh m)) ⟨_, h0, rfl, rfl⟩ ?_
        intro a ha i o ho hc hpa
        cases ha
        have := hp i o n ho hc hpa
        omega
      | inr m =>
        refine h.push .textured (some n) (some (.textured m)) ⟨_, h0, rfl, rfl⟩ ?_
        intro a ha i o ho hc hpa
        cases ha
        have := hp i o n ho hc hpa
        omega
    obtain ⟨t, ht, hr, h1, h2, h3, h4, h5, h6⟩ := ih (s.push (usurped m n)) (w.push (entry (G := G) m).1 (entry m).2) (n + 1)
      hpush (by
        intro i m' hm'
        have := hh (i + 1) m' hm'
        show s.heap[n + 1 + i]? = _
        rw [show n + 1 + i = n + (i + 1) by omega]; exact this) (by
        intro i o a ho hc hpa
        rcases getElem?_concat ho with ho | ⟨-, rfl⟩
        · have := hp i o a ho hc hpa; omega
        · cases m <;> (simp only [usurped, Option.some.injEq] at hpa; omega))
    refine ⟨t, ?_, ?_, h1, h2, ?_, fun i o ho => h4 i o (getElem?_append_some ho), ?_, ?_⟩
    · simp only [List.length_cons, List.range'_succ, usurpMeshes, load_ok h0, bind, Except.bind]
      cases m with
      | inl m => exact ht
      | inr m => exact ht
    · have he : w.vals ++ (m :: ms).map entry = (w.push (entry (G := G) m).1 (entry m).2).vals ++ ms.map entry := by
        simp [World.push]
      rw [he]; exact hr
    · rw [h3]; simp [State.push]; omega
    · intro i o ho hi
      by_cases hi' : i = s.objs.length
      · subst hi'
        have := h4 s.objs.length (usurped m n) (List.getElem?_concat_length ..)
        rw [this] at ho
        cases ho
        cases m <;> simp [usurped]
      · refine h5 i o ho ?_
        simp only [State.push, List.length_append, List.length_singleton]
        omega
    · intro i m' hm'
      cases i with
      | zero =>
        simp only [List.getElem?_cons_zero, Option.some.injEq] at hm'
        subst hm'
        exact h4 _ _ (List.getElem?_concat_length ..)
      | succ i =>
        have := h6 i m' hm'
        simp only [State.push, List.length_append, List.length_singleton] at this
        rw [show s.objs.length + (i + 1) = s.objs.length + 1 + i by omega,
          show n + (i + 1) = n + 1 + i by omega]
        exact this

theorem extract_inv (h : Inv b c s w) (ms : List (Mesh K ⊕ TexturedMesh K I)) :
    ∃ t, usurpMeshes (allocMeshes s ms) (List.range' s.heap.length ms.length) = .ok t ∧
      Inv b c t ⟨w.vals ++ ms.map entry, w.vars⟩ ∧
      ∀ i < ms.length, ∃ o, t.objs[s.objs.length + i]? = some o ∧ o.collected = false ∧ o.ptr ≠ none := by
  have he := allocMeshes_eq ms s
  obtain ⟨t, ht, hr, h1, h2, h3, h4, h5, h6⟩ := usurp_rel ms (allocMeshes s ms) w s.heap.length (h.rel.allocMeshes ms) (by
      intro i m hm
      rw [he]
      show (s.heap ++ _)[_]? = _
      rw [List.getElem?_append_right (by omega)]
      simp [hm]) (by
      intro i o a ho hc hp
      rw [he] at ho
      exact h.rel.lt ho hc hp)
  have hobjs : (allocMeshes s ms).objs = s.objs := by rw [he]
  have hheap : t.heap = s.heap ++ ms.map fun m => some (meshValue m) := by rw [h1, he]
  rw [hobjs] at h3 h4 h5 h6
  refine ⟨t, ht, ⟨hr, ?_, ?_⟩, ?_⟩
  · intro hc a x hx
    rw [hheap] at hx
    by_cases hlt : a < s.heap.length
    · rw [List.getElem?_append_left hlt] at hx
      obtain ⟨i, o, ho, hco, hp⟩ := h.own hc a x hx
      exact ⟨i, o, h4 i o ho, hco, hp⟩
    · have hlt2 := getElem?_some_lt hx
      simp only [List.length_append, List.length_map] at hlt2
      obtain ⟨m, hm⟩ : ∃ m, ms[a - s.heap.length]? = some m := ⟨ms[a - s.heap.length], by
        rw [List.getElem?_eq_getElem]⟩
      have := h6 _ m hm
      rw [show s.heap.length + (a - s.heap.length) = a by omega] at this
      exact ⟨_, _, this, by cases m <;> rfl, by cases m <;> rfl⟩
  · intro hc i o ho hk
    by_cases hi : i < s.objs.length
    · have : s.objs[i]? = some s.objs[i] := List.getElem?_eq_getElem hi
      have h' := h4 i _ this
      rw [h'] at ho
      cases ho
      exact h.noq hc i _ this hk
    · exact absurd hk (h5 i o ho (by omega)).1
  · intro i hi
    obtain ⟨m, hm⟩ : ∃ m, ms[i]? = some m := ⟨ms[i], by rw [List.getElem?_eq_getElem]⟩
    exact ⟨_, h6 i m hm, by cases m <;> rfl, by cases m <;> simp [usurped]⟩

theorem bindAll_inv (is : List ℕ) : ∀ {s : State K I G} {w : World K I G} (_ : Inv b c s w)
    (_ : ∀ i ∈ is, ∃ o : Obj, s.objs[i]? = some o ∧ o.collected = false ∧ o.ptr ≠ none),
    Inv b c (bindAll s is) ⟨w.vals, w.vars ++ is.map some⟩ := by
  induction is with
  | nil => intro s w h _; simpa [bindAll] using h
  | cons i is ih =>
    intro s w h hi
    obtain ⟨o, ho, hc, hp⟩ := hi i (by simp)
    have h1 := h.bindVar ho hc (fun _ => hp)
    have := ih h1 (fun j hj => hi j (by simp [hj]))
    simpa [bindAll, World.bindVar] using this

/-- One call agrees with the world: also for calls that change the state and raise. -/
def StepOk (b c d : Prop) (w : World K I G) (r : Except Stop (State K I G × Option PyErr))
    (n : Except PyErr (World K I G × Option PyErr)) : Prop :=
  match r with
  | .ok (t, e) => Inv b c t (match n with | .ok q => q.1 | .error _ => w) ∧
      e = (match n with | .ok q => q.2 | .error e => some e)
  | .error (.raise e) => (match n with | .ok q => q | .error e => (w, some e)) = (w, some e)
  | .error (.crash k) => k ≠ .freed ∧ k ≠ .badCast ∧ (b → k ≠ .null) ∧ (d → n = .error .undefined)

theorem Ref.stepOk {r : Except Stop (State K I G × Option PyErr)} {n : Except PyErr (World K I G × Option PyErr)}
    (h : Ref b d (fun r q => Inv b c r.1 q.1 ∧ r.2 = q.2) r n) : StepOk b c d w r n := by
  match r, h with
  | .ok (t, e), ⟨q, hq, h1, h2⟩ => subst hq; exact ⟨h1, h2⟩
  | .error (.raise e), h => simp only [Ref] at h; subst h; rfl
  | .error (.crash k), h => exact h

theorem Ref.withNone {r : Except Stop (State K I G)} {n : Except PyErr (World K I G)} (h : Ref b d (Inv b c) r n) :
    StepOk b c d w (r >>= fun t => Pure.pure (t, none)) (n >>= fun q => Pure.pure (q, none)) :=
  Ref.stepOk (h.bind fun _ _ hi => Ref.pure ⟨hi, rfl⟩)

theorem extractMeshes_ok (lib : Lib K I G) (h : Inv b c s w) (v : ℕ) (hl : c → ∀ g, (lib.meshes g).2 = none)
    {f : State K I G × Except PyErr (List ℕ) → Except Stop (State K I G × Option PyErr)}
    {g : List (Mesh K ⊕ TexturedMesh K I) → Except PyErr (World K I G × Option PyErr)}
    (hf : ∀ t e, f (t, .error e) = .ok (t, some e))
    (hg : ∀ t ms, Inv b c t ⟨w.vals ++ ms.map entry, w.vars⟩ →
      (∀ i < ms.length, ∃ o : Obj, t.objs[s.objs.length + i]? = some o ∧ o.collected = false ∧ o.ptr ≠ none) →
      StepOk b c d w (f (t, .ok (List.range' s.objs.length ms.length))) (g ms)) :
    StepOk b c d w (extractMeshes lib s v >>= f) (do
      let (_, k, x) ← w.lookup v
      if k = .gltf then
        match x with
        | some (.gltf gg) =>
          match (lib.meshes gg).2 with
          | some e => .error e
          | none => g (lib.meshes gg).1
        | _ => .error .undefined
      else .error .attributeError) := by
  have hL := lookup_ref (d := d) h.rel v
  unfold extractMeshes
  rcases hl' : s.lookup v with e | ⟨i, o⟩
  · rw [hl'] at hL
    cases e with
    | raise e => simp only [Ref] at hL; rw [hL]; rfl
    | crash k => exact absurd hl' lookup_no_crash
  · rw [hl'] at hL
    obtain ⟨⟨i', k, x⟩, hw, rfl, hk, ho, hc, hv, hb'⟩ := hL
    dsimp only at hk ho hc hv hb'
    subst hk
    rw [hw]
    simp only [bind, Except.bind]
    by_cases hcls : o.cls = .gltf
    · rw [if_pos hcls, if_pos hcls]
      rcases pointer_cases hv with ⟨hn, hpt, rfl⟩ | ⟨a, xv, hpa, hpt, hx, rfl, hxc⟩
      · rw [hpt]; exact ⟨by simp, by simp, fun hbb => absurd hn (hb' hbb), fun _ => rfl⟩
      · rw [hcls] at hxc
        obtain ⟨gg, rfl⟩ := cls_gltf hxc
        simp only [hpt, load_ok hx]
        cases hm : (lib.meshes gg).2 with
        | some e =>
          simp only [pure, Except.pure, hf]
          refine ⟨⟨h.rel.allocMeshes _, fun hcc => ?_, fun hcc => ?_⟩, rfl⟩
          · rw [hl hcc gg] at hm; cases hm
          · rw [hl hcc gg] at hm; cases hm
        | none =>
          obtain ⟨t, ht, hi, ho'⟩ := extract_inv h (lib.meshes gg).1
          simp only [ht, pure, Except.pure]
          exact hg t _ hi ho'
    · rw [if_neg hcls, if_neg hcls]; rfl

/-! ### TIFF files -/

theorem loadLoop_ok (l : List (ℕ × Page)) : ∀ {s : State K I G} (_ : Rel b s w) (_ : (l.map (·.1)).Nodup)
    (_ : ∀ a ∈ l.map (·.1), ∃ x, s.heap[a]? = some (some x))
    (_ : ∀ a ∈ l.map (·.1), ∀ (i : ℕ) (o : Obj), s.objs[i]? = some o → o.collected = false → o.ptr ≠ some a),
    ∃ t, loadLoop s l = .ok (t, l.findSome? fun p => p.2.error?) ∧ Rel b t w ∧
      t.objs = s.objs ∧ ((∀ p ∈ l, p.2 = .good) → freeAll s (l.map (·.1)) = .ok t) := by
  induction l with
  | nil => intro s h _ _ _; exact ⟨s, rfl, h, rfl, fun _ => rfl⟩
  | cons p l ih =>
    intro s h hd hl hn
    obtain ⟨a, pg⟩ := p
    simp only [List.map_cons, List.nodup_cons] at hd
    cases pg with
    | missing =>
      obtain ⟨t, ht, hr, ho, -⟩ := ih h hd.2 (fun a ha => hl a (by simp [ha])) (fun a ha => hn a (by simp [ha]))
      exact ⟨t, by simpa [loadLoop, Page.error?] using ht, hr, ho, fun hg => by have := hg (a, .missing) (by simp); simp at this⟩
    | bad e =>
      exact ⟨s, by simp [loadLoop, Page.error?], h, rfl, fun hg => by have := hg (a, .bad e) (by simp); simp at this⟩
    | good =>
      obtain ⟨x, hx⟩ := hl a (by simp)
      obtain ⟨t, ht, hr, ho, hf⟩ := ih (h.unset (a := a) (hn a (by simp))) hd.2 (by
        intro c hc
        show ∃ x, (s.heap.set a none)[c]? = _
        rw [List.getElem?_set_ne (by rintro rfl; exact hd.1 hc)]
        exact hl c (by simp [hc])) (fun c hc => hn c (by simp [hc]))
      refine ⟨t, ?_, hr, ho, fun hg => ?_⟩
      · simp only [loadLoop, free_ok hx, bind, Except.bind, ht, List.findSome?_cons, Page.error?]
      · simp only [List.map_cons, freeAll, free_ok hx, bind, Except.bind]
        exact hf fun q hq => hg q (by simp [hq])

theorem newMats_live (s : State K I G) (n a : ℕ) (h1 : s.heap.length ≤ a) (h2 : a < s.heap.length + n) :
    (newMats s n).heap[a]? = some (some .mat) := by
  rw [(newMats_objs s n).2.2, List.getElem?_append_right h1, List.getElem?_replicate_of_lt (by omega)]

theorem tiffLoad_ok (h : Inv b c s w) (thrown : Option PyErr) (p1 p2 p3 p4 : Page)
    (hc : c → thrown = none ∧ p1 = .good ∧ p2 = .good ∧ p3 = .good ∧ p4 = .good) (lib : Lib K I G) :
    StepOk b c d w (tiffLoad s thrown p1 p2 p3 p4) (World.exec lib w (.tiffLoad thrown p1 p2 p3 p4)) := by
  obtain ⟨ho, hv, hh⟩ := newMats_objs s 4
  have hr := h.rel.newMats 4
  unfold tiffLoad
  cases thrown with
  | some e =>
    simp only
    refine ⟨⟨hr, fun hcc => ?_, fun hcc => ?_⟩, rfl⟩
    · have := (hc hcc).1; cases this
    · have := (hc hcc).1; cases this
  | none =>
    simp only
    have hmem : ∀ a ∈ ([(s.heap.length, p1), (s.heap.length + 1, p2), (s.heap.length + 2, p3),
        (s.heap.length + 3, p4)] : List (ℕ × Page)).map (·.1), s.heap.length ≤ a ∧ a < s.heap.length + 4 := by
      intro a ha
      simp only [List.map_cons, List.map_nil, List.mem_cons, List.not_mem_nil, or_false] at ha
      omega
    obtain ⟨t, ht, hrt, hot, hft⟩ := loadLoop_ok (w := w) (b := b)
      [(s.heap.length, p1), (s.heap.length + 1, p2), (s.heap.length + 2, p3), (s.heap.length + 3, p4)]
      hr (by simp) (fun a ha => ⟨.mat, newMats_live s 4 a (hmem a ha).1 (hmem a ha).2⟩) (by
        intro a ha i o hi hco hp
        rw [ho] at hi
        have := h.rel.lt hi hco hp
        have := (hmem a ha).1
        omega)
    have hfs : ([(s.heap.length, p1), (s.heap.length + 1, p2), (s.heap.length + 2, p3),
        (s.heap.length + 3, p4)].findSome? fun p => p.2.error?) =
        ([p1, p2, p3, p4].findSome? Page.error?) := by
      simp [List.findSome?_cons]
    rw [hfs] at ht
    have hinv : Inv b c t w := by
      refine ⟨hrt, fun hcc => ?_, fun hcc i o hi hk => ?_⟩
      · obtain ⟨-, rfl, rfl, rfl, rfl⟩ := hc hcc
        have hfa := hft (by simp)
        obtain ⟨t', ht', -, -, -, -, h4⟩ := freeAll_ok hr
          ([(s.heap.length, Page.good), (s.heap.length + 1, .good), (s.heap.length + 2, .good),
            (s.heap.length + 3, .good)].map (·.1)) (by simp)
          (fun a ha => ⟨.mat, newMats_live s 4 a (hmem a ha).1 (hmem a ha).2⟩) (by
            intro a ha i o hi hco hp
            rw [ho] at hi
            have := h.rel.lt hi hco hp
            have := (hmem a ha).1
            omega)
        rw [hfa] at ht'
        cases ht'
        intro a x hx
        rw [h4] at hx
        split at hx
        · cases hx
        · rename_i hna
          rw [hh] at hx
          by_cases hlt : a < s.heap.length
          · rw [List.getElem?_append_left hlt] at hx
            obtain ⟨i, o, hi, h1, h2⟩ := h.own hcc a x hx
            exact ⟨i, o, by rw [hot, ho]; exact hi, h1, h2⟩
          · have := getElem?_some_lt hx
            simp only [List.length_append, List.length_replicate] at this
            exfalso
            apply hna
            simp only [List.map_cons, List.map_nil, List.mem_cons, List.not_mem_nil, or_false]
            omega
      · rw [hot, ho] at hi
        exact h.noq hcc i o hi hk
    simp only [ht, bind, Except.bind]
    simp only [World.exec]
    cases hfs : ([p1, p2, p3, p4].findSome? Page.error?) with
    | some e => exact ⟨hinv, rfl⟩
    | none => exact ⟨hinv, by simp⟩

/-- What the first loop of `save` has made. -/
structure Saving (b : Prop) (s0 s : State K I G) (w : World K I G) (map : List (ℕ × Option ℕ)) : Prop where
  rel : Rel b s w
  objs : s.objs = s0.objs
  nodup : (map.filterMap (·.2)).Nodup
  live : ∀ a ∈ map.filterMap (·.2), s0.heap.length ≤ a ∧ s.heap[a]? = some (some .mat)
  old : ∀ a < s0.heap.length, s.heap[a]? = s0.heap[a]?
  le : s0.heap.length ≤ s.heap.length

theorem filterMap_filter_sublist (map : List (ℕ × Option ℕ)) (p : ℕ × Option ℕ → Bool) :
    ((map.filter p).filterMap (·.2)).Sublist (map.filterMap (·.2)) := List.filter_sublist.filterMap _

theorem saveLoop_ok (s0 : State K I G) (l : List (ℕ × Source)) : ∀ {s : State K I G} {map : List (ℕ × Option ℕ)}
    (_ : Saving b s0 s w map),
    ∃ t r, saveLoop s map l = (t, r) ∧ Rel b t w ∧ t.objs = s0.objs ∧
      (match r with
        | .error e => (l.findSome? fun p => p.2.error?) = some e
        | .ok m => Saving b s0 t w m ∧ (l.findSome? fun p => p.2.error?) = none ∧
            ((∀ p ∈ l, p.2 ≠ .null) → (∀ e ∈ map, e.2 ≠ none) → ∀ e ∈ m, e.2 ≠ none)) := by
  induction l with
  | nil =>
    intro s map hs
    exact ⟨s, .ok map, rfl, hs.rel, hs.objs, hs, rfl, fun _ h => h⟩
  | cons p l ih =>
    intro s map hs
    obtain ⟨k, src⟩ := p
    cases src with
    | raises e => exact ⟨s, .error e, rfl, hs.rel, hs.objs, by simp [Source.error?]⟩
    | null =>
      have hfm : ((map.filter (fun e : ℕ × Option ℕ => e.1 ≠ k) ++ [(k, none)]).filterMap (fun e : ℕ × Option ℕ => e.2)).Sublist (map.filterMap (fun e : ℕ × Option ℕ => e.2)) := by
        simp only [List.filterMap_append, List.filterMap_cons, List.filterMap_nil, List.append_nil]
        exact filterMap_filter_sublist _ _
      have hs' : Saving b s0 s w (map.filter (fun e : ℕ × Option ℕ => e.1 ≠ k) ++ [(k, none)]) :=
        ⟨hs.rel, hs.objs, hs.nodup.sublist hfm, fun a ha => hs.live a (hfm.subset ha), hs.old, hs.le⟩
      obtain ⟨t, r, h1, h2, h3, h4⟩ := ih hs'
      refine ⟨t, r, h1, h2, h3, ?_⟩
      cases r with
      | error e => simpa [List.findSome?_cons, Source.error?] using h4
      | ok m =>
        refine ⟨h4.1, by simpa [List.findSome?_cons, Source.error?] using h4.2.1, fun hn => ?_⟩
        exact absurd rfl (hn (k, .null) (by simp))
    | mat =>
      have hsub := filterMap_filter_sublist map (fun e => e.1 ≠ k)
      have hlive : ∀ a ∈ (map.filter (fun e => e.1 ≠ k)).filterMap (·.2), a < s.heap.length := by
        intro a ha
        exact getElem?_some_lt (hs.live a (hsub.subset ha)).2
      have hs' : Saving b s0 (s.alloc .mat) w (map.filter (fun e => e.1 ≠ k) ++ [(k, some s.heap.length)]) := by
        refine ⟨hs.rel.alloc _, hs.objs, ?_, ?_, ?_, ?_⟩
        · simp only [List.filterMap_append, List.filterMap_cons, List.filterMap_nil]
          rw [List.nodup_append]
          refine ⟨hs.nodup.sublist hsub, by simp, ?_⟩
          intro x hx y hy hxy
          simp only [List.mem_singleton] at hy
          subst hy
          subst hxy
          have := hlive _ hx
          omega
        · intro a ha
          simp only [List.filterMap_append, List.filterMap_cons, List.filterMap_nil, List.mem_append,
            List.mem_singleton] at ha
          rcases ha with ha | rfl
          · obtain ⟨h1, h2⟩ := hs.live a (hsub.subset ha)
            exact ⟨h1, getElem?_append_some h2⟩
          · exact ⟨hs.le, List.getElem?_concat_length ..⟩
        · intro a ha
          rw [← hs.old a ha]
          have := hs.le
          exact List.getElem?_append_left (by omega)
        · have := hs.le
          simp only [State.alloc, List.length_append]
          omega
      obtain ⟨t, r, h1, h2, h3, h4⟩ := ih hs'
      refine ⟨t, r, h1, h2, h3, ?_⟩
      cases r with
      | error e => simpa [List.findSome?_cons, Source.error?] using h4
      | ok m =>
        refine ⟨h4.1, by simpa [List.findSome?_cons, Source.error?] using h4.2.1, fun hn hm => ?_⟩
        refine h4.2.2 (fun p hp => hn p (by simp [hp])) ?_
        intro e he
        simp only [List.mem_append, List.mem_singleton] at he
        rcases he with he | rfl
        · exact hm e (List.mem_of_mem_filter he)
        · simp

/-- Distinct pages that all give a `Mat`: the map has the address of each, and no other C++ object was made. -/
theorem saveLoop_tidy (l : List (ℕ × Source)) : ∀ (s : State K I G) (map : List (ℕ × Option ℕ)),
    (l.map (·.1)).Nodup → (∀ p ∈ l, p.2 = .mat) → (∀ p ∈ l, ∀ e ∈ map, e.1 ≠ p.1) →
    ∃ m, saveLoop s map l = ({ s with heap := s.heap ++ List.replicate l.length (some .mat) }, .ok m) ∧
      m.filterMap (·.2) = map.filterMap (·.2) ++ List.range' s.heap.length l.length := by
  induction l with
  | nil => intro s map _ _ _; exact ⟨map, by simp [saveLoop], by simp⟩
  | cons p l ih =>
    intro s map hd hm hk
    obtain ⟨k, src⟩ := p
    have hsrc := hm (k, src) (by simp)
    simp only at hsrc
    subst hsrc
    simp only [List.map_cons, List.nodup_cons] at hd
    have hfil : map.filter (fun e => e.1 ≠ k) = map := by
      rw [List.filter_eq_self]
      intro e he
      simpa using hk (k, .mat) (by simp) e he
    obtain ⟨m, h1, h2⟩ := ih (s.alloc .mat) (map.filter (fun e => e.1 ≠ k) ++ [(k, some s.heap.length)]) hd.2
      (fun p hp => hm p (by simp [hp])) (by
        intro p hp e he
        rw [hfil] at he
        simp only [List.mem_append, List.mem_singleton] at he
        rcases he with he | rfl
        · exact hk p (by simp [hp]) e he
        · intro heq
          exact hd.1 (List.mem_map.mpr ⟨p, hp, heq.symm⟩))
    refine ⟨m, ?_, ?_⟩
    · simp only [saveLoop]
      rw [h1]
      simp [State.alloc, List.replicate_succ]
    · rw [h2, hfil]
      simp [State.alloc, List.range'_succ]

theorem tiffSave_ok (h : Inv b c s w) (thrown : Option PyErr) (l : List (ℕ × Source))
    (hb : b → ∀ p ∈ l, p.2 ≠ .null) (hd : d → ∀ p ∈ l, p.2 ≠ .null) (hc : c → thrown = none ∧ (l.map (·.1)).Nodup ∧ ∀ p ∈ l, p.2 = .mat)
    (lib : Lib K I G) :
    StepOk b c d w (tiffSave s thrown l) (World.exec lib w (.tiffSave thrown l)) := by
  have hs : Saving b s s w [] := ⟨h.rel, rfl, by simp, by simp, fun _ _ => rfl, le_refl _⟩
  obtain ⟨t, r, h1, h2, h3, h4⟩ := saveLoop_ok s l hs
  unfold tiffSave
  rw [h1]
  have hnoq : c → ∀ (i : ℕ) (o : Obj), t.objs[i]? = some o → o.cls = .quaternion → o.ptr = none := by
    intro hcc i o hi hk
    rw [h3] at hi
    exact h.noq hcc i o hi hk
  cases r with
  | error e =>
    simp only at h4 ⊢
    simp only [World.exec, h4, Option.some_or]
    refine ⟨⟨h2, fun hcc => ?_, hnoq⟩, rfl⟩
    obtain ⟨-, -, hm⟩ := hc hcc
    exfalso
    obtain ⟨p, hp, hpe⟩ := List.exists_of_findSome?_eq_some h4
    rw [hm p hp] at hpe
    cases hpe
  | ok m =>
    obtain ⟨hsv, hf, hnn⟩ := h4
    simp only [World.exec, hf, Option.none_or]
    split
    · rename_i hany
      have hno : ¬ ∀ p ∈ l, p.2 ≠ .null := fun hall => by
        obtain ⟨e, he, hen⟩ := List.any_eq_true.mp hany
        exact hnn hall (by simp) e he (Option.isNone_iff_eq_none.mp hen)
      exact ⟨by simp, by simp, fun hbb => absurd (hb hbb) hno, fun hdd => absurd (hd hdd) hno⟩
    · cases thrown with
      | some e =>
        refine ⟨⟨h2, fun hcc => ?_, hnoq⟩, rfl⟩
        have := (hc hcc).1; cases this
      | none =>
        obtain ⟨u, hu, hru, hou, -, -, hhu⟩ := freeAll_ok h2 (m.filterMap (·.2)) hsv.nodup
          (fun a ha => ⟨.mat, (hsv.live a ha).2⟩) (by
            intro a ha i o hi hco hp
            rw [h3] at hi
            have := h.rel.lt hi hco hp
            have := (hsv.live a ha).1
            omega)
        simp only [hu, bind, Except.bind]
        refine ⟨⟨hru, fun hcc => ?_, fun hcc i o hi hk => hnoq hcc i o (by rw [← hou]; exact hi) hk⟩, rfl⟩
        obtain ⟨-, hd, hm⟩ := hc hcc
        obtain ⟨m', hm1, hm2⟩ := saveLoop_tidy l s [] hd hm (by simp)
        rw [h1] at hm1
        cases hm1
        intro a x hx
        rw [hhu] at hx
        split at hx
        · cases hx
        · rename_i hna
          rw [hm2] at hna
          simp only [List.filterMap_nil, List.nil_append, List.mem_range'_1, not_and, not_lt] at hna
          change (s.heap ++ _)[a]? = _ at hx
          by_cases hlt : a < s.heap.length
          · rw [List.getElem?_append_left hlt] at hx
            obtain ⟨i, o, hi, h5, h6⟩ := h.own hcc a x hx
            exact ⟨i, o, by rw [hou, h3]; exact hi, h5, h6⟩
          · have h7 := getElem?_some_lt hx
            have h8 := hna (by omega)
            simp only [List.length_append, List.length_replicate] at h7
            omega

/-! ### Every call -/

/-- The world as the code really changes it: `exec` but for the two improper calls. -/
def World.execReal (lib : Lib K I G) (w : World K I G) : Op K I G → Except PyErr (World K I G × Option PyErr)
  | .replaceGeometry v (some u) =>
    match w.lookup v, w.lookup u with
    | .ok (i, .mesh, some (.mesh m)), .ok (j, _) =>
      if i = j then .ok (w.setVal i .mesh (.mesh m.cleared), none) else w.exec lib (.replaceGeometry v (some u))
    | .ok (i, .textured, some (.textured m)), .ok (j, _) =>
      if i = j then .ok (w.setVal i .textured (.textured m.cleared), none) else w.exec lib (.replaceGeometry v (some u))
    | _, _ => w.exec lib (.replaceGeometry v (some u))
  | .sum [v] => do
    let (i, k, _) ← w.lookup v
    if k = .cloud then pure (w.bindVar i, none) else .error .typeError
  | op => w.exec lib op

theorem World.lookup_ok {v i : ℕ} {p : Cls × Option (Value K I G)} (h : w.lookup v = .ok (i, p)) :
    w.vars[v]? = some (some i) ∧ w.vals[i]? = some p := by
  unfold World.lookup at h
  split at h
  · rename_i j hj
    split at h
    · rename_i q hq
      cases h
      exact ⟨hj, hq⟩
    · cases h
  · cases h

theorem World.execReal_proper (lib : Lib K I G) (op : Op K I G) (h : w.Proper op) : w.execReal lib op = w.exec lib op := by
  unfold World.execReal
  split
  · rename_i v u
    split
    · rename_i i m j q h1 h2
      split
      · rename_i hij
        subst hij
        exact absurd (World.lookup_ok h2).1 (h i (World.lookup_ok h1).1)
      · rfl
    · rename_i i m j q h1 h2
      split
      · rename_i hij
        subst hij
        exact absurd (World.lookup_ok h2).1 (h i (World.lookup_ok h1).1)
      · rfl
    · rfl
  · exact absurd rfl h
  · rfl

theorem meshMerge_cleared_self (m : Mesh K) : m.cleared.merge m.cleared 0 = m.cleared := by
  simp [Mesh.merge, Mesh.cleared]

theorem texturedMerge_cleared_self (m : TexturedMesh K I) : m.cleared.merge m.cleared 0 = some m.cleared := by
  simp [TexturedMesh.merge, Mesh.merge, TexturedMesh.cleared]

/-- `x.replace_geometry(y)` with `x` and `y` the same object. -/
theorem replace_self (lib : Lib K I G) {v u i : ℕ} (h : Inv b c s w) (h1 : w.vars[v]? = some (some i)) (h2 : w.vars[u]? = some (some i))
    (hnd : ¬ d) :
    StepOk b c d w (replaceGeometry s v (some u) >>= fun t => pure (t, none)) (w.execReal lib (.replaceGeometry v (some u))) := by
  have e1 : w.lookup u = w.lookup v := by unfold World.lookup; rw [h1, h2]
  have e2 : s.lookup u = s.lookup v := by unfold State.lookup; rw [h.rel.vars, h1, h2]
  have hL := lookup_ref (d := d) h.rel v
  unfold replaceGeometry
  rcases hl : s.lookup v with e | ⟨j, o⟩
  · rw [hl] at hL
    cases e with
    | raise e =>
      simp only [Ref] at hL
      simp only [World.execReal, hL]
      simp only [World.exec, World.replaceGeometry, hL, bind, Except.bind, StepOk]
    | crash k => exact absurd hl lookup_no_crash
  rw [hl] at hL
  obtain ⟨⟨j', k, x⟩, hw, rfl, hk, ho, hc, hv, hb'⟩ := hL
  dsimp only at hk ho hc hv hb'
  subst hk
  simp only [bind, Except.bind]
  simp only [World.execReal, e1, hw]
  cases hcls : o.cls
  case mesh =>
    simp only [State.argument, e2, hl, bind, Except.bind, hcls, beq_self_eq_true, Bool.true_or, if_true, pure, Except.pure]
    rcases pointer_cases hv with ⟨hn, hpt, rfl⟩ | ⟨a, xv, hpa, hpt, hx, rfl, hxc⟩
    · simp only [hpt]; exact ⟨by simp, by simp, fun hbb => absurd hn (hb' hbb), fun hd => absurd hd hnd⟩
    · rw [hcls] at hxc
      obtain ⟨m, rfl⟩ := cls_mesh hxc
      have hlt := getElem?_some_lt hx
      have hg : (s.heap.set a (some (.mesh m.cleared)))[a]? = some (some (Value.mesh m.cleared)) :=
        List.getElem?_set_self hlt
      simp only [hpt, pointer?, hx, meshMergeAt, State.load, State.store, hg, bind, Except.bind]
      rw [if_neg (by simp [Mesh.cleared])]
      simp only [List.set_set, meshMerge_cleared_self]
      have hs := h.set (y := .mesh m.cleared) ho hc hpa (by rw [hcls]; rfl)
      rw [hcls] at hs
      exact ⟨hs, rfl⟩
  case textured =>
    simp only [State.argument, e2, hl, bind, Except.bind, hcls, beq_self_eq_true, if_true, pure, Except.pure]
    rcases pointer_cases hv with ⟨hn, hpt, rfl⟩ | ⟨a, xv, hpa, hpt, hx, rfl, hxc⟩
    · simp only [hpt]; exact ⟨by simp, by simp, fun hbb => absurd hn (hb' hbb), fun hd => absurd hd hnd⟩
    · rw [hcls] at hxc
      obtain ⟨m, rfl⟩ := cls_textured hxc
      have hlt := getElem?_some_lt hx
      have hg : (s.heap.set a (some (.textured m.cleared)))[a]? = some (some (Value.textured m.cleared)) :=
        List.getElem?_set_self hlt
      simp only [hpt, pointer?, hx, texturedMergeAt, State.load, State.store, hg, bind, Except.bind]
      rw [if_neg (by simp [TexturedMesh.cleared])]
      simp only [List.set_set, texturedMerge_cleared_self]
      have hs := h.set (y := .textured m.cleared) ho hc hpa (by rw [hcls]; rfl)
      rw [hcls] at hs
      exact ⟨hs, rfl⟩
  all_goals simp [World.exec, World.replaceGeometry, hw, hcls, bind, Except.bind, StepOk]

theorem bind_pure_none {α β ε : Type} (m : Except ε α) (f : α → Except ε β) :
    (m >>= fun a => f a >>= fun r => pure (r, (none : Option PyErr))) = ((m >>= f) >>= fun r => pure (r, none)) := by
  cases m <;> rfl

/-- Every call keeps the invariant and agrees with the world as the code really changes it. -/
theorem exec_ok (lib : Lib K I G) (h : Inv b c s w) (op : Op K I G) (hb : b → op.NoNull) (hc : c → op.Tidy lib)
    (hd : d → w.Proper op) : StepOk b c d w (exec lib s op) (w.execReal lib op) := by
  cases op with
  | construct x =>
    have := Ref.withNone (d := d) (w := w) (construct_ref h x hc)
    simp only [exec, World.execReal, World.exec]
    cases x <;> exact this
  | failed k => exact ⟨h.pushNull k, rfl⟩
  | raw k =>
    cases k with
    | quaternion => exact ⟨h.fresh .quaternion .quaternion rfl (fun hcc => hc hcc), rfl⟩
    | _ =>
      refine ⟨?_, rfl⟩
      have h1 := h.pushNull (w := w)
      simp only [World.execReal, World.exec, World.fresh, raw]
      rw [← h.rel.len]
      refine (h.pushNull _).bindVar (List.getElem?_concat_length ..) rfl (fun hbb => ?_)
      have := hb hbb
      simp [Op.NoNull] at this
  | reinit v x =>
    simp only [exec, World.execReal, World.exec, reinit]
    refine Ref.stepOk ?_
    rw [show (fun t => pure (t, (none : Option PyErr))) = fun t : State K I G => (pure (t, none) : Except Stop _) from rfl]
    have hL := lookup_ref (d := d) h.rel v
    rcases hl : s.lookup v with e | ⟨i, o⟩
    · rw [hl] at hL
      cases e with
      | raise e => simp only [Ref] at hL; rw [hL]; rfl
      | crash k => exact absurd hl lookup_no_crash
    · rw [hl] at hL
      obtain ⟨⟨i', k, y⟩, hw, rfl, hk, ho, hco, hv, hb'⟩ := hL
      dsimp only at hk ho hco hv hb'
      subst hk
      simp only [hw, bind, Except.bind]
      have key : ∀ x : Value K I G, x ≠ .quaternion → (c → False) → x.cls = some o.cls →
          Inv b c { (s.alloc x) with objs := s.objs.set i' { o with ptr := some s.heap.length } } (w.setVal i' o.cls x) :=
        fun x _ hcf hx => ⟨h.rel.pointTo ho hco hx, fun hcc => (hcf hcc).elim, fun hcc => (hcf hcc).elim⟩
      cases x with
      | quaternion => exact Ref.ok ⟨h, rfl⟩
      | _ =>
        have hcf : c → False := fun hcc => by have := hc hcc; simp [Op.Tidy] at this
        dsimp only
        split_ifs with hx
        · exact Ref.ok ⟨key _ (by simp) hcf hx, rfl⟩
        · rfl
  | share v =>
    refine Ref.stepOk ((lookup_ref h.rel v).bind ?_)
    rintro ⟨i, o⟩ ⟨i', k, x⟩ ⟨rfl, hk, ho, hco, hv, hb'⟩
    exact Ref.pure ⟨h.bindVar ho hco hb', rfl⟩
  | forget v =>
    refine Ref.stepOk ((lookup_ref h.rel v).bind ?_)
    rintro _ _ _
    exact Ref.pure ⟨⟨h.rel.forget v, h.own, h.noq⟩, rfl⟩
  | collect i =>
    obtain ⟨t, ht, hi⟩ := collect_ref h i
    simp only [exec, ht, bind, Except.bind]
    exact ⟨hi, rfl⟩
  | read v =>
    simp only [exec, World.execReal, World.exec, read]
    refine Ref.stepOk ?_
    have hL := lookup_ref (d := d) h.rel v
    rcases hl : s.lookup v with e | ⟨i, o⟩
    · rw [hl] at hL
      cases e with
      | raise e => simp only [Ref] at hL; rw [hL]; rfl
      | crash k => exact absurd hl lookup_no_crash
    · rw [hl] at hL
      obtain ⟨⟨i', k, y⟩, hw, rfl, hk, ho, hco, hv, hb'⟩ := hL
      dsimp only at hk ho hco hv hb'
      subst hk
      simp only [hw, bind, Except.bind]
      rcases pointer_cases hv with ⟨hn, hpt, rfl⟩ | ⟨a, xv, hpa, hpt, hx, rfl, hxc⟩
      · rw [hpt]; exact Ref.null (fun hbb => hb' hbb hn) (fun _ => rfl)
      · simp only [hpt, load_ok hx, hxc, if_true]
        exact Ref.ok ⟨h, rfl⟩
  | merge v u n =>
    refine (merge_ref h v u n hb fun hdd => ?_).withNone
    rintro ⟨u', i, rfl, h1, h2⟩
    exact hd hdd i h1 h2
  | replaceGeometry v u =>
    cases u with
    | none =>
      refine (replace_ref h v none hb ?_).withNone
      rintro ⟨_, _, hh, _⟩; cases hh
    | some u =>
      by_cases hself : SelfReplace w v (some u)
      · obtain ⟨u', i, hu, h1, h2⟩ := hself
        cases hu
        exact replace_self lib h h1 h2 (fun hdd => hd hdd i h1 h2)
      · rw [World.execReal_proper]
        · exact (replace_ref h v (some u) hb hself).withNone
        · intro i hi hu
          exact hself ⟨u, i, rfl, hi, hu⟩
  | renumber v jv ju n l =>
    have := Ref.withNone (d := d) (w := w) (renumber_ref h v jv ju n l)
    simp only [exec, World.execReal, World.exec]
    convert this using 1
    cases w.lookup v with
    | error e => rfl
    | ok r =>
      obtain ⟨i, k, x⟩ := r
      simp only [bind, Except.bind]
      by_cases hk : k = .textured
      · simp only [hk, if_true]
        rcases x with _ | x
        · rfl
        · cases x <;> try rfl
          dsimp only
          cases TexturedMesh.renumber jv ju _ n l <;> rfl
      · simp only [hk, if_false]
  | append v u =>
    refine (append_ref h v u hb fun hdd => ?_).withNone
    rintro ⟨u', i, rfl, h1, h2⟩
    exact hd hdd i h1 h2
  | add v u =>
    refine Ref.stepOk ((lookup_ref h.rel v).bind ?_)
    rintro ⟨i, o⟩ ⟨i', k, x⟩ ⟨rfl, hk, ho, hco, hv, hb'⟩
    dsimp only at hk ho hco hv hb' ⊢
    subst hk
    refine (lookup_ref h.rel u).bind ?_
    rintro ⟨i2, p⟩ ⟨i2', k2, y⟩ ⟨rfl, hk2, hp, hc2, hv2, hb2⟩
    dsimp only at hk2 hp hc2 hv2 hb2 ⊢
    subst hk2
    refine (mergeClouds_ref h o p x y hv hb' hv2 hb2).bind ?_
    rintro t r ⟨hi, -, hobjs, -⟩
    refine Ref.pure ⟨?_, rfl⟩
    dsimp only
    unfold World.fresh
    rw [← h.rel.len]
    exact hi.bindVar (o := ⟨.cloud, some s.heap.length, false⟩) (by rw [hobjs]; exact List.getElem?_concat_length ..) rfl
      (by simp)
  | addInt v =>
    refine Ref.stepOk ((lookup_ref h.rel v).bind ?_)
    rintro ⟨i, o⟩ ⟨i', k, x⟩ ⟨rfl, hk, ho, hco, hv, hb'⟩
    dsimp only at hk ho hco hv hb' ⊢
    subst hk
    split
    · exact Ref.pure ⟨h.bindVar ho hco hb', rfl⟩
    · rfl
  | sum vs =>
    by_cases h1 : vs.length = 1
    · obtain ⟨v, rfl⟩ := List.length_eq_one_iff.mp h1
      simp only [exec, World.execReal, Sumo.Objects.sum, sumLoop]
      refine Ref.stepOk ?_
      have hL := lookup_ref (d := d) h.rel v
      rcases hl : s.lookup v with e | ⟨i, o⟩
      · rw [hl] at hL
        cases e with
        | raise e => simp only [Ref] at hL; rw [hL]; rfl
        | crash k => exact absurd hl lookup_no_crash
      · rw [hl] at hL
        obtain ⟨⟨i', k, y⟩, hw, rfl, hk, ho, hco, hv, hb'⟩ := hL
        dsimp only at hk ho hco hv hb'
        subst hk
        simp only [hw, bind, Except.bind]
        by_cases hcls : o.cls = .cloud
        · simp only [hcls, if_true, pure, Except.pure]
          exact Ref.ok ⟨h.bindVar ho hco hb', rfl⟩
        · simp only [hcls, if_false]; rfl
    · rw [World.execReal_proper lib (.sum vs) h1]
      exact (sum_ref h vs h1).withNone
  | register items =>
    have := Ref.withNone (d := d) (w := w) (register_ref h items)
    simp only [exec, World.execReal, World.exec]
    convert this using 1
    cases w.registerLoop items with
    | error e => rfl
    | ok r =>
      simp only [bind, Except.bind]
      split <;> rfl
  | deepcopy v =>
    have := Ref.withNone (d := d) (w := w) (deepcopy_ref h v)
    simp only [exec, World.execReal, World.exec]
    convert this using 1
    cases w.lookup v with
    | error e => rfl
    | ok r =>
      obtain ⟨i, k, x⟩ := r
      simp only [bind, Except.bind]
      by_cases hk : k = .gltf
      · simp only [hk, if_true]
        cases x <;> rfl
      · simp only [hk, if_false]
  | changeModel v f => exact Ref.stepOk (changeModel_ref h v f)
  | addMesh v u =>
    have := Ref.withNone (d := d) (w := w) (addMesh_ref lib h v u)
    simp only [exec, World.execReal, World.exec]
    convert this using 1
    cases w.lookup v with
    | error e => rfl
    | ok r =>
      obtain ⟨i, k, x⟩ := r
      simp only [bind, Except.bind]
      split
      · cases w.lookup u with
        | error e => rfl
        | ok r2 =>
          obtain ⟨i2, k2, x2⟩ := r2
          dsimp only
          split
          · rcases x with _ | x
            · rfl
            · rcases x2 with _ | y
              · cases x <;> rfl
              · cases x <;> cases y <;> first
                  | rfl
                  | (dsimp only; cases lib.addMesh _ _ <;> rfl)
                  | (dsimp only; cases lib.addTextured _ _ <;> rfl)
          · rfl
      · rfl
  | primitiveMeshes v =>
    simp only [exec, World.execReal, World.exec, primitiveMeshes]
    refine extractMeshes_ok lib h v hc (g := fun ms => pure (⟨w.vals ++ ms.map entry,
      w.vars ++ (List.range' w.vals.length ms.length).map some⟩, none)) (fun _ _ => rfl) ?_
    intro t ms hi hobj
    refine ⟨?_, rfl⟩
    have := bindAll_inv (List.range' s.objs.length ms.length) hi (by
      intro j hj
      simp only [List.mem_range'_1] at hj
      obtain ⟨o, ho, h1, h2⟩ := hobj (j - s.objs.length) (by omega)
      rw [show s.objs.length + (j - s.objs.length) = j by omega] at ho
      exact ⟨o, ho, h1, h2⟩)
    rw [h.rel.len] at this
    dsimp only
    rw [h.rel.len]
    exact this
  | extractMesh v j =>
    simp only [exec, World.execReal, World.exec, extractMesh]
    refine extractMeshes_ok lib h v hc (g := fun ms =>
      if j < ms.length then pure ((⟨w.vals ++ ms.map entry, w.vars⟩ : World K I G).bindVar (w.vals.length + j), none)
      else pure (⟨w.vals ++ ms.map entry, w.vars⟩, some .indexError)) (fun _ _ => rfl) ?_
    intro t ms hi hobj
    dsimp only
    by_cases hj : j < ms.length
    · rw [if_pos hj]
      have : (List.range' s.objs.length ms.length)[j]? = some (s.objs.length + j) := by
        rw [List.getElem?_range' hj]; simp
      simp only [this]
      obtain ⟨o, ho, h1, h2⟩ := hobj j hj
      refine ⟨?_, rfl⟩
      rw [← h.rel.len]
      exact hi.bindVar ho h1 (fun _ => h2)
    · rw [if_neg hj]
      have : (List.range' s.objs.length ms.length)[j]? = none := by
        rw [List.getElem?_eq_none (by simp; omega)]
      simp only [this]
      exact ⟨hi, rfl⟩
  | tiffLoad t p1 p2 p3 p4 => exact tiffLoad_ok h t p1 p2 p3 p4 hc lib
  | tiffSave t l => exact tiffSave_ok h t l hb hd hc lib
  | createCloud d => exact (createCloud_ref h d).withNone

end Sumo.Objects
