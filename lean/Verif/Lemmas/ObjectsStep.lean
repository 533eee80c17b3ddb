import Verif.Lemmas.ObjectsOps

/-! Helper lemmas for `Verif/Props/Objects.lean`: the remaining operations, and steps. -/

namespace Sumo.Objects

variable {K I G : Type} {b c d : Prop} {s : State K I G} {w : World K I G}

/-! ### Clouds -/

theorem append_ref (h : Inv b c s w) (v : ℕ) (u : Option ℕ) (hb : b → u ≠ none)
    (hs' : d → ¬ SelfReplace w v u) :
    Ref b d (Inv b c) (append s v u) (w.append v u) := by
  unfold append World.append
  refine (lookup_ref' h.rel v).bind ?_
  rintro ⟨i, o⟩ ⟨j, k, x⟩ ⟨⟨rfl, hk, ho, hc, hv, hb'⟩, hvv⟩
  dsimp only at hk ho hc hv hb' hvv ⊢
  subst hk
  by_cases hcls : o.cls = .cloud
  · rw [if_pos hcls, if_pos hcls]
    refine (argument_ref' h.rel u _ _ only_cloud hb).bind ?_
    rintro p y ⟨hp, hpv⟩
    rcases pointer_cases hv with ⟨hn, hpt, rfl⟩ | ⟨a, xv, hpa, hpt, hx, rfl, hxc⟩
    · rw [hpt]; exact Ref.null (fun hbb => hb' hbb hn) (fun _ => rfl)
    · rcases pointerArg_cases hp with ⟨hnb, hq, rfl⟩ | ⟨a2, yv, k2, hq, hy, rfl, hyc, hok⟩
      · simp only [hpt, hq, bind, Except.bind]; exact Ref.null hnb (fun _ => by cases xv <;> rfl)
      · rw [hcls] at hxc
        obtain ⟨m, rfl⟩ := cls_cloud hxc
        have hk2 : k2 = .cloud := by simpa using hok
        subst hk2
        obtain ⟨m2, rfl⟩ := cls_cloud hyc
        simp only [hpt, hq, bind, Except.bind, appendAt, load_ok hx, load_ok hy]
        have hs := fun (y : PointCloud K) => h.set (y := .cloud y) ho hc hpa (by rw [hcls]; rfl)
        rw [hcls] at hs
        split
        · rename_i hov
          obtain ⟨rfl, -⟩ := hov
          exact Ref.crash (by simp) (by simp) (by simp) (fun hd => absurd (same_object h.rel ho hc hpa hvv hq hp hpv) (hs' hd))
        · rw [store_ok _ hx]
          exact Ref.ok (hs _)
  · rw [if_neg hcls, if_neg hcls]; rfl

theorem colored_iff (d : PointCloud K) : d.colored = true ↔ d.colors ≠ [] := by
  unfold PointCloud.colored
  cases d.colors <;> simp

/-- A cloud of an object that is not freed. -/
theorem cloudAt_cases {o : Obj} {x : Option (Value K I G)} (hv : Val s o x) (hcls : o.cls = .cloud) :
    (o.ptr = none ∧ cloudAt s o = .error (.crash .null) ∧ x = none) ∨
    ∃ a d, o.ptr = some a ∧ pointer o = .ok a ∧ cloudAt s o = .ok d ∧ s.heap[a]? = some (some (.cloud d)) ∧
      x = some (.cloud d) := by
  rcases pointer_cases hv with ⟨hn, hpt, rfl⟩ | ⟨a, xv, hpa, hpt, hx, rfl, hxc⟩
  · exact Or.inl ⟨hn, by simp only [cloudAt, hpt, bind, Except.bind], rfl⟩
  · rw [hcls] at hxc
    obtain ⟨d, rfl⟩ := cls_cloud hxc
    exact Or.inr ⟨a, d, hpa, hpt, by simp only [cloudAt, hpt, bind, Except.bind, load_ok hx]; rfl, hx, rfl⟩

theorem mergeClouds_ref (h : Inv b c s w) (o p : Obj) (x y : Option (Value K I G))
    (hvo : Val s o x) (hbo : b → o.ptr ≠ none) (hvp : Val s p y) (hbp : b → p.ptr ≠ none) :
    Ref b d (fun t r => Inv b c t (w.push .cloud (some (.cloud r))) ∧ t.vars = s.vars ∧
        t.objs = s.objs ++ [⟨.cloud, some s.heap.length, false⟩] ∧
        ∀ a : ℕ, a < s.heap.length → t.heap[a]? = s.heap[a]?)
      (mergeClouds s o p) (World.addValues o.cls p.cls x y) := by
  unfold mergeClouds World.addValues
  by_cases hclo : o.cls = .cloud
  swap
  · rw [if_pos hclo, if_pos hclo]; rfl
  simp only [hclo, ne_eq, not_true_eq_false, if_false]
  rcases cloudAt_cases hvo hclo with ⟨hn, hpt, rfl⟩ | ⟨a, d, hpa, hpt, hcl, hx, rfl⟩
  · simp only [hpt, bind, Except.bind]; exact Ref.null (fun hbb => hbo hbb hn) (fun _ => rfl)
  by_cases hclp : p.cls = .cloud
  swap
  · simp only [hcl, hclp, bind, Except.bind, not_false_eq_true, if_true]
    by_cases hd : d.colored = true
    · have := (colored_iff d).mp hd
      simp only [hd, if_true, this, if_false]; rfl
    · have : d.colors = [] := by
        by_contra hne; exact hd ((colored_iff d).mpr hne)
      simp only [hd, Bool.false_eq_true, if_false, this, if_true]; rfl
  have hl1 : ((s.wrap .cloud (.cloud ⟨[], []⟩)).heap[s.heap.length]? : Option (Option (Value K I G))) =
      some (some (.cloud ⟨[], []⟩)) := List.getElem?_concat_length ..
  have hl2 : ((s.wrap .cloud (.cloud ⟨[], []⟩)).heap[a]? : Option (Option (Value K I G))) =
      some (some (.cloud d)) := getElem?_append_some hx
  have step1 : appendAt (s.wrap .cloud (.cloud ⟨[], []⟩)) s.heap.length a =
      .ok { (s.wrap .cloud (.cloud ⟨[], []⟩)) with
        heap := (s.wrap .cloud (.cloud ⟨[], []⟩)).heap.set s.heap.length (some (.cloud ⟨d.points, d.colors⟩)) } := by
    simp only [appendAt, load_ok hl1, load_ok hl2, store_ok _ hl1, bind, Except.bind]
    simp [PointCloud.append]
  rcases cloudAt_cases hvp hclp with ⟨hn, hpt2, rfl⟩ | ⟨a2, e, hpa2, hpt', hcl2, hy, rfl⟩
  · -- the second operand has no C++ object: reached unless the first is coloured, in the second append
    have hnull : pointer p = .error (.crash .null) := by simp [pointer, hn]
    have hnb : ¬ b := fun hbb => hbp hbb hn
    simp only [hcl, hclp, bind, Except.bind, not_true_eq_false, if_false, hpt2, hpt, hnull, step1]
    by_cases hd : d.colored = true
    · simp only [hd, if_true]; exact Ref.null hnb (fun _ => rfl)
    · simp only [hd, Bool.false_eq_true, if_false]
      exact Ref.null hnb (fun _ => rfl)
  · have hlt := getElem?_some_lt hx
    have hlt2 := getElem?_some_lt hy
    have hl3 : ((s.wrap .cloud (.cloud ⟨[], []⟩)).heap[a2]? : Option (Option (Value K I G))) =
        some (some (.cloud e)) := getElem?_append_some hy
    have hm1 : (((s.wrap .cloud (.cloud ⟨[], []⟩)).heap.set s.heap.length (some (.cloud ⟨d.points, d.colors⟩)))[
        s.heap.length]? : Option (Option (Value K I G))) = some (some (.cloud ⟨d.points, d.colors⟩)) :=
      List.getElem?_set_self (by simp [State.wrap, State.alloc, State.push])
    have hm2 : (((s.wrap .cloud (.cloud ⟨[], []⟩)).heap.set s.heap.length (some (.cloud ⟨d.points, d.colors⟩)))[
        a2]? : Option (Option (Value K I G))) = some (some (.cloud e)) := by
      rw [List.getElem?_set_ne (by omega), hl3]
    have step2 : appendAt { (s.wrap .cloud (.cloud ⟨[], []⟩)) with
          heap := (s.wrap .cloud (.cloud ⟨[], []⟩)).heap.set s.heap.length (some (.cloud ⟨d.points, d.colors⟩)) }
          s.heap.length a2 =
        .ok { (s.wrap .cloud (.cloud ⟨[], []⟩)) with
          heap := (s.wrap .cloud (.cloud ⟨[], []⟩)).heap.set s.heap.length
            (some (.cloud ⟨d.points ++ e.points, d.colors ++ e.colors⟩)) } := by
      simp only [appendAt, State.load, State.store, hm1, hm2, bind, Except.bind]
      rw [if_neg (by omega)]
      simp [PointCloud.append]
    simp only [hcl, hcl2, hclp, hpt, hpt', bind, Except.bind, not_true_eq_false, if_false, step1, step2]
    have final : ∀ r : PointCloud K,
        Inv b c { (s.wrap .cloud (.cloud ⟨[], []⟩)) with
          heap := (s.wrap .cloud (.cloud ⟨[], []⟩)).heap.set s.heap.length (some (.cloud r)) }
          (w.push .cloud (some (.cloud r))) := by
      intro r
      have h1 := h.wrap .cloud (.cloud r) rfl (by simp)
      have he : ({ (s.wrap .cloud (.cloud ⟨[], []⟩)) with
          heap := (s.wrap .cloud (.cloud ⟨[], []⟩)).heap.set s.heap.length (some (.cloud r)) } : State K I G) =
          s.wrap .cloud (.cloud r) := by
        simp [State.wrap, State.alloc, State.push]
      rw [he]; exact h1
    have hheap : ∀ r : PointCloud K, ∀ q : ℕ, q < s.heap.length →
        (((s.wrap .cloud (.cloud ⟨[], []⟩)).heap.set s.heap.length (some (.cloud r)))[q]? :
          Option (Option (Value K I G))) = s.heap[q]? := by
      intro r q hq
      rw [List.getElem?_set_ne (by omega)]
      exact List.getElem?_append_left hq
    by_cases hd : d.colored = true
    · have hdc := (colored_iff d).mp hd
      by_cases he : e.colored = true
      · have hec := (colored_iff e).mp he
        simp only [hd, he, if_true, hec, and_false, if_false, Bool.not_true, Bool.false_eq_true]
        exact Ref.ok ⟨final _, rfl, rfl, hheap _⟩
      · have hec : e.colors = [] := by
          by_contra hne; exact he ((colored_iff e).mpr hne)
        simp only [hd, he, if_true, hec, hdc, not_false_eq_true, and_self, Bool.not_false]
        rfl
    · have hdc : d.colors = [] := by
        by_contra hne; exact hd ((colored_iff d).mpr hne)
      simp only [hd, Bool.false_eq_true, if_false, hdc, not_true_eq_false, false_and]
      have := final ⟨d.points ++ e.points, d.colors ++ e.colors⟩
      rw [hdc] at this
      exact Ref.ok ⟨this, rfl, rfl, by intro q hq; exact hheap _ q hq⟩

/-- An object that is not freed, with its value. -/
structure At (b : Prop) (s : State K I G) (j : ℕ) (o : Obj) (x : Option (Value K I G)) : Prop where
  obj : s.objs[j]? = some o
  live : o.collected = false
  val : Val s o x
  full : b → o.ptr ≠ none

/-- The value the world has for an object that is not freed. -/
theorem Rel.at (h : Rel b s w) {j : ℕ} {o : Obj} {x : Option (Value K I G)} {k : Cls} (ho : s.objs[j]? = some o)
    (hc : o.collected = false) (hw : w.vals[j]? = some (k, x)) (hb : b → o.ptr ≠ none) : At b s j o x := by
  obtain ⟨y, hy, hv⟩ := h.val j o ho
  rw [hw] at hy
  cases hy
  exact ⟨ho, hc, hv hc, hb⟩

theorem World.vals_push_last (w : World K I G) (k : Cls) (x : Option (Value K I G)) :
    (w.push k x).vals[w.vals.length]? = some (k, x) := List.getElem?_concat_length ..

theorem World.sumLoop_length {w w' : World K I G} {k : Cls} {x : Option (Value K I G)} {vs : List ℕ}
    (h : w.sumLoop k x vs = .ok w') : w'.vals.length = w.vals.length + vs.length := by
  induction vs generalizing w k x with
  | nil => simp only [World.sumLoop] at h; cases h; rfl
  | cons v vs ih =>
    simp only [World.sumLoop, bind, Except.bind] at h
    split at h
    · cases h
    · split at h
      · cases h
      · have := ih h
        simp only [World.push, List.length_append, List.length_singleton] at this
        simp only [List.length_cons]
        omega

theorem sumLoop_ref (vs : List ℕ) : ∀ {s : State K I G} {w : World K I G} (_ : Inv b c s w) {j : ℕ} {o : Obj}
    {x : Option (Value K I G)} (_ : At b s j o x),
    Ref b d (fun r w' => Inv b c r.1 w' ∧ ∃ i p, r.2 = some i ∧ r.1.objs[i]? = some p ∧ p.collected = false ∧
        (b → p.ptr ≠ none) ∧ (vs ≠ [] → i = w'.vals.length - 1))
      (sumLoop s (some j) vs) (w.sumLoop o.cls x vs) := by
  induction vs with
  | nil =>
    intro s w h j o x ha
    exact Ref.ok ⟨h, j, o, rfl, ha.obj, ha.live, ha.full, by simp⟩
  | cons v vs ih =>
    intro s w h j o x ha
    unfold sumLoop World.sumLoop
    refine (lookup_ref h.rel v).bind ?_
    rintro ⟨i, p⟩ ⟨i', k, y⟩ ⟨rfl, hk, hp, hc, hv, hb'⟩
    dsimp only at hk hp hc hv hb' ⊢
    subst hk
    simp only [ha.obj]
    refine (mergeClouds_ref h o p x y ha.val ha.full hv hb').bind ?_
    rintro t r ⟨ht, hvars, hobjs, hheap⟩
    have hlen : s.objs.length = w.vals.length := h.rel.len
    have hat : At b t s.objs.length ⟨.cloud, some s.heap.length, false⟩ (some (.cloud r)) := by
      refine ht.rel.at (k := .cloud) ?_ rfl ?_ (by simp)
      · rw [hobjs]; exact List.getElem?_concat_length ..
      · rw [hlen]; exact World.vals_push_last ..
    have := ih ht hat
    rcases hm : sumLoop t (some s.objs.length) vs with e | r'
    · rw [hm] at this
      cases e <;> exact this
    · rw [hm] at this
      obtain ⟨w', hw', hi, i, q, h1, h2, h3, h4, h5⟩ := this
      refine ⟨w', hw', hi, i, q, h1, h2, h3, h4, fun _ => ?_⟩
      cases vs with
      | nil =>
        simp only [sumLoop, World.sumLoop] at hm hw'
        cases hm; cases hw'
        simp only [Option.some.injEq] at h1
        subst h1
        simp [World.push, hlen]
      | cons _ _ => exact h5 (by simp)

theorem sum_ref (h : Inv b c s w) (vs : List ℕ) (hn : vs.length ≠ 1) :
    Ref b d (Inv b c) (Sumo.Objects.sum s vs) (w.sum vs) := by
  cases vs with
  | nil => exact Ref.ok h
  | cons v vs =>
    unfold Sumo.Objects.sum World.sum
    simp only [sumLoop]
    have hL := lookup_ref (d := d) h.rel v
    rcases hl : s.lookup v with e | ⟨i, o⟩
    · rw [hl] at hL
      cases e with
      | raise e => simp only [Ref] at hL; rw [hL]; rfl
      | crash k => exact absurd hl lookup_no_crash
    · rw [hl] at hL
      obtain ⟨⟨i', k, x⟩, hw, rfl, hk, ho, hc, hv, hb'⟩ := hL
      dsimp only at hk ho hc hv hb'
      subst hk
      rw [hw]
      simp only [bind, Except.bind]
      by_cases hcls : o.cls = .cloud
      · rw [if_pos hcls, if_pos hcls]
        cases vs with
        | nil => exact absurd rfl hn
        | cons v2 vs2 =>
          simp only
          have := sumLoop_ref (d := d) (v2 :: vs2) h (j := i') (o := o) (x := x) ⟨ho, hc, hv, hb'⟩
          refine this.bind ?_
          rintro ⟨t, r⟩ w' ⟨hi, i, p, h1, h2, h3, h4, h5⟩
          dsimp only at hi h1 h2 ⊢
          subst h1
          rw [← h5 (by simp)]
          exact Ref.pure (hi.bindVar h2 h3 h4)
      · rw [if_neg hcls, if_neg hcls]; rfl

theorem registerLoop_ref (items : List (ℕ × (PointCloud K → Except PyErr (PointCloud K)))) :
    ∀ {s : State K I G} {w : World K I G} (_ : Inv b c s w),
    Ref b d (fun r q => Inv b c r.1 q.1 ∧ cloudsAt r.1 r.2 = .ok q.2 ∧
        ∀ (a : ℕ) (y : Value K I G), s.heap[a]? = some (some y) → r.1.heap[a]? = some (some y))
      (registerLoop s items) (w.registerLoop items) := by
  induction items with
  | nil => intro s w h; exact Ref.ok ⟨h, rfl, fun _ _ h => h⟩
  | cons it items ih =>
    intro s w h
    obtain ⟨v, f⟩ := it
    unfold registerLoop World.registerLoop
    refine (lookup_ref h.rel v).bind ?_
    rintro ⟨i, o⟩ ⟨i', k, x⟩ ⟨rfl, hk, ho, hc, hv, hb'⟩
    dsimp only at hk ho hc hv hb' ⊢
    subst hk
    by_cases hcls : o.cls = .cloud
    · simp only [hcls, ne_eq, not_true_eq_false, if_false, bind, Except.bind, pure, Except.pure]
      rcases cloudAt_cases hv hcls with ⟨hn, hpt, rfl⟩ | ⟨a, d, hpa, hpt, hcl, hx, rfl⟩
      · simp only [hpt]; exact Ref.null (fun hbb => hb' hbb hn) (fun _ => rfl)
      · simp only [hcl]
        cases hf : f d with
        | error e => rfl
        | ok d' =>
          simp only
          refine Ref.bind (ih (h.wrap .cloud (.cloud d') rfl (by simp))) ?_
          rintro ⟨t, as⟩ ⟨w', ds⟩ ⟨hi, hcs, hheap⟩
          dsimp only at hi hcs hheap ⊢
          refine Ref.pure ⟨hi, ?_, fun a y hy => hheap a y (getElem?_append_some hy)⟩
          have := hheap s.heap.length (.cloud d') (List.getElem?_concat_length ..)
          dsimp only
          simp only [cloudsAt, load_ok this, bind, Except.bind, hcs]
          rfl
    · simp only [hcls, ne_eq, not_false_eq_true, if_true, bind, Except.bind]; rfl

theorem register_ref (h : Inv b c s w) (items : List (ℕ × (PointCloud K → Except PyErr (PointCloud K)))) :
    Ref b d (Inv b c) (register s items) (do
      let (w, ds) ← w.registerLoop items
      let c : PointCloud K := ⟨ds.flatMap (·.points), ds.flatMap (·.colors)⟩
      if c.colors = [] ∨ c.colors.length = c.points.length then pure (w.fresh .cloud (some (.cloud c)))
      else .error .undefined) := by
  unfold register
  refine (registerLoop_ref items h).bind ?_
  rintro ⟨t, as⟩ ⟨w', ds⟩ ⟨hi, hcs, -⟩
  dsimp only at hi hcs ⊢
  simp only [hcs, bind, Except.bind]
  have e1 : (ds.map fun c => c.points.length).sum = (ds.flatMap (·.points)).length := by simp [List.length_flatMap]
  have e2 : (ds.map fun c => c.colors.length).sum = (ds.flatMap (·.colors)).length := by simp [List.length_flatMap]
  unfold PointCloud.ofClouds
  dsimp only
  rw [e1, e2]
  by_cases hcl : ds.flatMap (·.colors) = [] ∨ (ds.flatMap (·.colors)).length = (ds.flatMap (·.points)).length
  · rw [if_pos hcl, if_pos (by rw [List.length_eq_zero_iff]; exact hcl)]
    exact Ref.pure (hi.fresh .cloud (.cloud _) rfl (by simp))
  · rw [if_neg hcl, if_neg (by rw [List.length_eq_zero_iff]; exact hcl)]
    exact Ref.crash (by simp) (by simp) (by simp) (fun _ => rfl)

/-! ### Models -/

theorem deepcopy_ref (h : Inv b c s w) (v : ℕ) :
    Ref b d (Inv b c) (deepcopy s v) (do
      let (_, k, x) ← w.lookup v
      if k = .gltf then
        match x with
        | some x => pure (w.fresh k (some x))
        | none => .error .undefined
      else .error .attributeError) := by
  unfold deepcopy
  refine (lookup_ref h.rel v).bind ?_
  rintro ⟨i, o⟩ ⟨i', k, x⟩ ⟨rfl, hk, ho, hc, hv, hb'⟩
  dsimp only at hk ho hc hv hb' ⊢
  subst hk
  by_cases hcls : o.cls = .gltf
  · rw [if_pos hcls, if_pos hcls]
    rcases pointer_cases hv with ⟨hn, hpt, rfl⟩ | ⟨a, xv, hpa, hpt, hx, rfl, hxc⟩
    · rw [hpt]; exact Ref.null (fun hbb => hb' hbb hn) (fun _ => rfl)
    · rw [hcls] at hxc
      obtain ⟨g, rfl⟩ := cls_gltf hxc
      simp only [hpt, load_ok hx, bind, Except.bind, hcls]
      exact Ref.pure (h.fresh .gltf _ rfl (by simp))
  · rw [if_neg hcls, if_neg hcls]; rfl

theorem changeModel_ref (h : Inv b c s w) (v : ℕ) (f : G → G × Option PyErr) :
    Ref b d (fun r q => Inv b c r.1 q.1 ∧ r.2 = q.2) (changeModel s v f) (do
      let (i, k, x) ← w.lookup v
      if k = .gltf then
        match x with
        | some (.gltf g) => pure (w.setVal i .gltf (.gltf (f g).1), (f g).2)
        | _ => .error .undefined
      else .error .attributeError) := by
  unfold changeModel
  refine (lookup_ref h.rel v).bind ?_
  rintro ⟨i, o⟩ ⟨i', k, x⟩ ⟨rfl, hk, ho, hc, hv, hb'⟩
  dsimp only at hk ho hc hv hb' ⊢
  subst hk
  by_cases hcls : o.cls = .gltf
  · rw [if_pos hcls, if_pos hcls]
    rcases pointer_cases hv with ⟨hn, hpt, rfl⟩ | ⟨a, xv, hpa, hpt, hx, rfl, hxc⟩
    · rw [hpt]; exact Ref.null (fun hbb => hb' hbb hn) (fun _ => rfl)
    · rw [hcls] at hxc
      obtain ⟨g, rfl⟩ := cls_gltf hxc
      simp only [hpt, load_ok hx, bind, Except.bind, store_ok _ hx]
      have hs := h.set (y := .gltf (f g).1) ho hc hpa (by rw [hcls]; rfl)
      rw [hcls] at hs
      exact Ref.pure ⟨hs, rfl⟩
  · rw [if_neg hcls, if_neg hcls]; rfl

theorem renumber_ref (h : Inv b c s w) (v : ℕ) (jv : Vec3 K) (ju : K × K) (n : ℕ) (l : List ℕ) :
    Ref b d (Inv b c) (renumber s v jv ju n l) (do
      let (i, k, x) ← w.lookup v
      if k = .textured then
        match x with
        | some (.textured m) =>
          match m.renumber jv ju n l with
          | some r => pure (w.setVal i .textured (.textured r))
          | none => .error .undefined
        | _ => .error .undefined
      else .error .attributeError) := by
  unfold renumber
  refine (lookup_ref h.rel v).bind ?_
  rintro ⟨i, o⟩ ⟨i', k, x⟩ ⟨rfl, hk, ho, hc, hv, hb'⟩
  dsimp only at hk ho hc hv hb' ⊢
  subst hk
  by_cases hcls : o.cls = .textured
  · rw [if_pos hcls, if_pos hcls]
    rcases pointer_cases hv with ⟨hn, hpt, rfl⟩ | ⟨a, xv, hpa, hpt, hx, rfl, hxc⟩
    · rw [hpt]; exact Ref.null (fun hbb => hb' hbb hn) (fun _ => rfl)
    · rw [hcls] at hxc
      obtain ⟨m, rfl⟩ := cls_textured hxc
      simp only [hpt, load_ok hx, bind, Except.bind]
      cases m.renumber jv ju n l with
      | none => exact Ref.crash (by simp) (by simp) (by simp) (fun _ => rfl)
      | some r =>
        simp only [store_ok _ hx]
        have hs := h.set (y := .textured r) ho hc hpa (by rw [hcls]; rfl)
        rw [hcls] at hs
        exact Ref.ok hs
  · rw [if_neg hcls, if_neg hcls]; rfl

theorem addMesh_ref (lib : Lib K I G) (h : Inv b c s w) (v u : ℕ) :
    Ref b d (Inv b c) (addMesh lib s v u) (do
      let (i, k, x) ← w.lookup v
      if k = .gltf then do
        let (_, d, y) ← w.lookup u
        if d = .mesh ∨ d = .textured then
          match x, y with
          | some (.gltf g), some (.mesh m) =>
            match lib.addMesh g m with
            | some g' => pure (w.setVal i .gltf (.gltf g'))
            | none => .error .undefined
          | some (.gltf g), some (.textured m) =>
            match lib.addTextured g m with
            | some g' => pure (w.setVal i .gltf (.gltf g'))
            | none => .error .undefined
          | _, _ => .error .undefined
        else .error .valueError
      else .error .attributeError) := by
  unfold addMesh
  refine (lookup_ref h.rel v).bind ?_
  rintro ⟨i, o⟩ ⟨i', k, x⟩ ⟨rfl, hk, ho, hc, hv, hb'⟩
  dsimp only at hk ho hc hv hb' ⊢
  subst hk
  by_cases hcls : o.cls = .gltf
  · rw [if_pos hcls, if_pos hcls]
    refine (lookup_ref h.rel u).bind ?_
    rintro ⟨i2, p⟩ ⟨i2', k2, y⟩ ⟨rfl, hk2, hp, hc2, hv2, hb2⟩
    dsimp only at hk2 hp hc2 hv2 hb2 ⊢
    subst hk2
    cases hcls2 : p.cls <;> simp only [reduceCtorEq, or_self, or_true, true_or, if_true, if_false]
    · rcases pointer_cases hv2 with ⟨hn, hpt, rfl⟩ | ⟨a2, yv, hpa2, hpt2, hy, rfl, hyc⟩
      · rw [hpt]; exact Ref.null (fun hbb => hb2 hbb hn) (fun _ => by rcases x with _ | x <;> [rfl; cases x <;> rfl])
      rcases pointer_cases hv with ⟨hn, hpt, rfl⟩ | ⟨a, xv, hpa, hpt, hx, rfl, hxc⟩
      · simp only [hpt2, hpt, bind, Except.bind]; exact Ref.null (fun hbb => hb' hbb hn) (fun _ => rfl)
      rw [hcls] at hxc
      rw [hcls2] at hyc
      obtain ⟨g, rfl⟩ := cls_gltf hxc
      obtain ⟨m, rfl⟩ := cls_mesh hyc
      simp only [hpt, hpt2, load_ok hx, load_ok hy, bind, Except.bind]
      cases lib.addMesh g m with
      | none => exact Ref.crash (by simp) (by simp) (by simp) (fun _ => rfl)
      | some r =>
        simp only [store_ok _ hx]
        have hs := h.set (y := .gltf r) ho hc hpa (by rw [hcls]; rfl)
        rw [hcls] at hs
        exact Ref.ok hs
    · rcases pointer_cases hv2 with ⟨hn, hpt, rfl⟩ | ⟨a2, yv, hpa2, hpt2, hy, rfl, hyc⟩
      · rw [hpt]; exact Ref.null (fun hbb => hb2 hbb hn) (fun _ => by rcases x with _ | x <;> [rfl; cases x <;> rfl])
      rcases pointer_cases hv with ⟨hn, hpt, rfl⟩ | ⟨a, xv, hpa, hpt, hx, rfl, hxc⟩
      · simp only [hpt2, hpt, bind, Except.bind]; exact Ref.null (fun hbb => hb' hbb hn) (fun _ => rfl)
      rw [hcls] at hxc
      rw [hcls2] at hyc
      obtain ⟨g, rfl⟩ := cls_gltf hxc
      obtain ⟨m, rfl⟩ := cls_textured hyc
      simp only [hpt, hpt2, load_ok hx, load_ok hy, bind, Except.bind]
      cases lib.addTextured g m with
      | none => exact Ref.crash (by simp) (by simp) (by simp) (fun _ => rfl)
      | some r =>
        simp only [store_ok _ hx]
        have hs := h.set (y := .gltf r) ho hc hpa (by rw [hcls]; rfl)
        rw [hcls] at hs
        exact Ref.ok hs
    all_goals rfl
  · rw [if_neg hcls, if_neg hcls]; rfl

/-! ### Constructors, temporaries, and freeing -/

/-- Two temporaries before a new object, freed after. -/
theorem temps_fresh (h : Inv b c s w) (k : Cls) (x : Value K I G) (hx : x.cls = some k) (hq : c → k ≠ .quaternion)
    (l : List ℕ) (hl : l.Perm [s.heap.length, s.heap.length + 1]) :
    ∃ t, freeAll ((newMats s 2).wrap k x) l = .ok t ∧
      Inv b c (t.bindVar (((newMats s 2).wrap k x).objs.length - 1)) (w.fresh k (some x)) := by
  obtain ⟨ho, hv, hh⟩ := newMats_objs s 2
  have hr := (h.rel.newMats 2).wrap k x hx
  have hheap : ((newMats s 2).wrap k x).heap = s.heap ++ [some .mat, some .mat, some x] := by
    simp [State.wrap, State.alloc, State.push, hh, List.replicate]
  have hobjs : ((newMats s 2).wrap k x).objs = s.objs ++ [⟨k, some (s.heap.length + 2), false⟩] := by
    simp [State.wrap, State.alloc, State.push, hh, ho]
  have hmem : ∀ a, a ∈ l ↔ a = s.heap.length ∨ a = s.heap.length + 1 := by
    intro a; rw [hl.mem_iff]; simp
  obtain ⟨t, ht, hrt, h1, h2, h3, h4⟩ := freeAll_ok hr l (hl.nodup_iff.mpr (by simp)) (by
    intro a ha
    rw [hheap]
    rcases (hmem a).mp ha with rfl | rfl
    · exact ⟨.mat, by simp⟩
    · exact ⟨.mat, by simp⟩) (by
    intro a ha i o hio hc hp
    rw [hobjs] at hio
    rcases getElem?_concat hio with hio | ⟨-, rfl⟩
    · have := h.rel.lt hio hc hp
      rcases (hmem a).mp ha with rfl | rfl <;> omega
    · simp only [Option.some.injEq] at hp
      rcases (hmem a).mp ha with rfl | rfl <;> omega)
  have hidx : ((newMats s 2).wrap k x).objs.length - 1 = s.objs.length := by rw [hobjs]; simp
  refine ⟨t, ht, ?_, ?_, ?_⟩
  · rw [hidx]
    unfold World.fresh
    rw [← h.rel.len]
    exact hrt.bindVar (o := ⟨k, some (s.heap.length + 2), false⟩) (by rw [h1, hobjs]; exact List.getElem?_concat_length ..)
      rfl (by simp)
  · intro hc a y hy
    change t.heap[a]? = _ at hy
    rw [h4] at hy
    split at hy
    · cases hy
    · rename_i hna
      rw [hheap] at hy
      have hno : a ≠ s.heap.length ∧ a ≠ s.heap.length + 1 :=
        ⟨fun hh => hna ((hmem a).mpr (Or.inl hh)), fun hh => hna ((hmem a).mpr (Or.inr hh))⟩
      by_cases hlt : a < s.heap.length
      · rw [List.getElem?_append_left hlt] at hy
        obtain ⟨i, o, hio, h5, h6⟩ := h.own hc a y hy
        exact ⟨i, o, by show t.objs[i]? = _; rw [h1, hobjs]; exact getElem?_append_some hio, h5, h6⟩
      · have := getElem?_some_lt hy
        simp only [List.length_append, List.length_cons, List.length_nil] at this
        have ha : a = s.heap.length + 2 := by omega
        subst ha
        exact ⟨s.objs.length, ⟨k, some (s.heap.length + 2), false⟩,
          by show t.objs[_]? = _; rw [h1, hobjs]; exact List.getElem?_concat_length .., rfl, rfl⟩
  · intro hc i o hio hk
    change t.objs[i]? = _ at hio
    rw [h1, hobjs] at hio
    rcases getElem?_concat hio with hio | ⟨-, rfl⟩
    · exact h.noq hc i o hio hk
    · exact absurd hk (hq hc)

theorem construct_ref (h : Inv b c s w) (x : Value K I G) (hq : c → x ≠ .quaternion) :
    Ref b d (Inv b c) (construct s x) (match x.cls with
      | some k => .ok (w.fresh k (some x))
      | none => .error .attributeError) := by
  cases x with
  | mat => rfl
  | mesh m => exact Ref.ok (h.fresh .mesh _ rfl (by simp))
  | cloud m => exact Ref.ok (h.fresh .cloud _ rfl (by simp))
  | gltf m => exact Ref.ok (h.fresh .gltf _ rfl (by simp))
  | tiny => exact Ref.ok (h.fresh .tiny _ rfl (by simp))
  | quaternion => exact Ref.ok (h.fresh .quaternion _ rfl (fun hc => absurd rfl (hq hc)))
  | textured m =>
    obtain ⟨t, ht, hi⟩ := temps_fresh h .textured (.textured m) rfl (by simp) [s.heap.length, s.heap.length + 1]
      (List.Perm.refl _)
    unfold construct
    simp only [ht, bind, Except.bind]
    exact Ref.ok hi

theorem createCloud_ref (h : Inv b c s w) (p : PointCloud K) :
    Ref b d (Inv b c) (createCloud s p) (.ok (w.fresh .cloud (some (.cloud p)))) := by
  obtain ⟨t, ht, hi⟩ := temps_fresh h .cloud (.cloud p) rfl (by simp) [s.heap.length + 1, s.heap.length]
    (List.Perm.swap ..)
  unfold createCloud
  simp only [ht, bind, Except.bind]
  exact Ref.ok hi

theorem collect_ref (h : Inv b c s w) (i : ℕ) :
    ∃ t, collect s i = .ok t ∧ Inv b c t w := by
  unfold collect
  cases ho : s.objs[i]? with
  | none => exact ⟨s, rfl, h⟩
  | some o =>
    simp only
    split
    · exact ⟨s, rfl, h⟩
    · rename_i hcond
      simp only [Bool.or_eq_true, not_or, Bool.not_eq_true] at hcond
      obtain ⟨hc, hv⟩ := hcond
      have hv' : ¬ some i ∈ s.vars := by
        intro hm
        have := List.contains_iff_mem.mpr hm
        rw [hv] at this; cases this
      have hr := h.rel.mark ho hv'
      have hlt := getElem?_some_lt ho
      have hkeep : ∀ (j : ℕ) (p : Obj), s.objs[j]? = some p → j ≠ i →
          (s.objs.set i { o with collected := true })[j]? = some p := by
        intro j p hj hne
        rw [List.getElem?_set_ne (Ne.symm hne), hj]
      have hnoq : c → ∀ (j : ℕ) (p : Obj), (s.objs.set i { o with collected := true })[j]? = some p →
          p.cls = .quaternion → p.ptr = none := by
        intro hcc j p hj hk
        by_cases hij : i = j
        · subst hij
          rw [List.getElem?_set_self hlt] at hj
          cases hj
          exact h.noq hcc i o ho hk
        · rw [List.getElem?_set_ne hij] at hj
          exact h.noq hcc j p hj hk
      have keepOwn : o.ptr = none → Own s → Own { s with objs := s.objs.set i { o with collected := true } } := by
        intro hn hown a x hx
        obtain ⟨j, p, hj, h1, h2⟩ := hown a x hx
        refine ⟨j, p, hkeep j p hj ?_, h1, h2⟩
        rintro rfl
        rw [ho] at hj
        cases hj
        rw [hn] at h2; cases h2
      by_cases hk : o.cls = .quaternion
      · refine ⟨_, by rw [hk], hr, fun hcc => keepOwn (h.noq hcc i o ho hk) (h.own hcc), hnoq⟩
      · by_cases hpn : o.ptr = none
        · refine ⟨_, ?_, hr, fun hcc => keepOwn hpn (h.own hcc), hnoq⟩
          split
          · rfl
          · rfl
          · rename_i hh _; rw [hpn] at hh; cases hh
        · obtain ⟨a, hp⟩ := Option.ne_none_iff_exists'.mp hpn
          obtain ⟨x, -, hval⟩ := h.rel.val i o ho
          have hval := hval hc
          unfold Val at hval
          rw [hp] at hval
          obtain ⟨y, hy, -, -⟩ := hval
          refine ⟨{ s with objs := s.objs.set i { o with collected := true }, heap := s.heap.set a none }, ?_, ?_, ?_, hnoq⟩
          · split
            · rename_i hh; exact absurd hh hk
            · rename_i hh _; exact absurd hh hpn
            · rename_i a' hh _
              rw [hp] at hh
              cases hh
              exact free_ok (s := { s with objs := s.objs.set i { o with collected := true } }) hy
          · refine hr.unset (a := a) ?_
            intro j p hj hcp hpp
            change (s.objs.set i _)[j]? = _ at hj
            by_cases hij : i = j
            · subst hij
              rw [List.getElem?_set_self hlt] at hj
              cases hj; cases hcp
            · rw [List.getElem?_set_ne hij] at hj
              exact hij (h.rel.inj i j o p a ho hj hc hcp hp hpp)
          · intro hcc a' x hx
            change (s.heap.set a none)[a']? = _ at hx
            by_cases haa : a = a'
            · subst haa
              rw [List.getElem?_set_self (getElem?_some_lt hy)] at hx
              cases hx
            · rw [List.getElem?_set_ne haa] at hx
              obtain ⟨j, p, hj, h1, h2⟩ := h.own hcc a' x hx
              refine ⟨j, p, hkeep j p hj ?_, h1, h2⟩
              rintro rfl
              rw [ho] at hj
              cases hj
              rw [hp] at h2
              exact haa (Option.some.inj h2)

end Sumo.Objects
