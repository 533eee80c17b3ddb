import Verif.Spec.Objects

/-! Helper lemmas for `Verif/Props/Objects.lean`. -/

namespace Sumo.Objects

variable {K I G : Type} {α β γ δ : Type}

/-- The value of a Python object agrees with its C++ object. -/
def Val (s : State K I G) (o : Obj) (x : Option (Value K I G)) : Prop :=
  match o.ptr with
  | none => x = none
  | some a => ∃ y, s.heap[a]? = some (some y) ∧ x = some y ∧ y.cls = some o.cls

/-- The model's state agrees with a world; `b`: no pointer a variable leads to is NULL. -/
structure Rel (b : Prop) (s : State K I G) (w : World K I G) : Prop where
  vars : s.vars = w.vars
  len : s.objs.length = w.vals.length
  val : ∀ (i : ℕ) (o : Obj), s.objs[i]? = some o →
    ∃ x, w.vals[i]? = some (o.cls, x) ∧ (o.collected = false → Val s o x)
  inj : ∀ (i j : ℕ) (o p : Obj) (a : ℕ), s.objs[i]? = some o → s.objs[j]? = some p → o.collected = false →
    p.collected = false → o.ptr = some a → p.ptr = some a → i = j
  live : ∀ v i : ℕ, s.vars[v]? = some (some i) →
    ∃ o, s.objs[i]? = some o ∧ o.collected = false ∧ (b → o.ptr ≠ none)

/-- The model's result agrees with the world's, and is no crash of the kinds excluded; with `d`, a crash is seen in the world as
`undefined`. -/
def Ref (b d : Prop) (P : α → β → Prop) : Except Stop α → Except PyErr β → Prop
  | .ok a, n => ∃ r, n = .ok r ∧ P a r
  | .error (.raise e), n => n = .error e
  | .error (.crash c), n => c ≠ .freed ∧ c ≠ .badCast ∧ (b → c ≠ .null) ∧ (d → n = .error .undefined)

theorem Ref.bind {b d : Prop} {P : α → β → Prop} {Q : γ → δ → Prop} {m : Except Stop α} {n : Except PyErr β}
    {f : α → Except Stop γ} {g : β → Except PyErr δ} (h : Ref b d P m n) (hf : ∀ a r, P a r → Ref b d Q (f a) (g r)) :
    Ref b d Q (m >>= f) (n >>= g) := by
  match m, h with
  | .ok a, ⟨r, hr, hp⟩ => subst hr; exact hf a r hp
  | .error (.raise e), h => simp only [Ref] at h; subst h; rfl
  | .error (.crash c), ⟨h1, h2, h3, h4⟩ => exact ⟨h1, h2, h3, fun hd => by rw [h4 hd]; rfl⟩

theorem Ref.ok {b d : Prop} {P : α → β → Prop} {a : α} {r : β} (h : P a r) : Ref b d P (.ok a) (.ok r) := ⟨r, rfl, h⟩

theorem Ref.pure {b d : Prop} {P : α → β → Prop} {a : α} {r : β} (h : P a r) :
    Ref b d P (Pure.pure a) (Pure.pure r : Except PyErr β) := ⟨r, rfl, h⟩

theorem Ref.raise {b d : Prop} {P : α → β → Prop} {e : PyErr} : Ref b d P (.error (.raise e)) (.error e) := rfl

theorem Ref.mono {b d : Prop} {P Q : α → β → Prop} {m : Except Stop α} {n : Except PyErr β} (h : Ref b d P m n)
    (hpq : ∀ a r, P a r → Q a r) : Ref b d Q m n := by
  match m, h with
  | .ok a, ⟨r, hr, hp⟩ => exact ⟨r, hr, hpq a r hp⟩
  | .error (.raise e), h => exact h
  | .error (.crash c), h => exact h

variable {b d : Prop} {s : State K I G} {w : World K I G}

theorem Val.congr {s t : State K I G} {o : Obj} {x : Option (Value K I G)} (h : Val s o x)
    (ha : ∀ a, o.ptr = some a → ∀ y, s.heap[a]? = some (some y) → t.heap[a]? = some (some y)) : Val t o x := by
  unfold Val at *
  cases hp : o.ptr with
  | none => rw [hp] at h; exact h
  | some a =>
    rw [hp] at h
    obtain ⟨y, hy, hx, hc⟩ := h
    exact ⟨y, ha a hp y hy, hx, hc⟩

theorem pointer_cases {o : Obj} {x : Option (Value K I G)} (h : Val s o x) :
    (o.ptr = none ∧ pointer o = .error (.crash .null) ∧ x = none) ∨
    ∃ a y, o.ptr = some a ∧ pointer o = .ok a ∧ s.heap[a]? = some (some y) ∧ x = some y ∧ y.cls = some o.cls := by
  unfold Val at h
  cases hp : o.ptr with
  | none => rw [hp] at h; exact Or.inl ⟨rfl, by simp [pointer, hp], h⟩
  | some a =>
    rw [hp] at h
    obtain ⟨y, hy, hx, hc⟩ := h
    exact Or.inr ⟨a, y, rfl, by simp [pointer, hp], hy, hx, hc⟩

/-- An object a variable refers to, found in both. -/
def Found (b : Prop) (s : State K I G) (p : ℕ × Obj) (q : ℕ × Cls × Option (Value K I G)) : Prop :=
  q.1 = p.1 ∧ q.2.1 = p.2.cls ∧ s.objs[p.1]? = some p.2 ∧ p.2.collected = false ∧ Val s p.2 q.2.2 ∧ (b → p.2.ptr ≠ none)

theorem lookup_ref (h : Rel b s w) (v : ℕ) : Ref b d (Found b s) (s.lookup v) (w.lookup v) := by
  unfold State.lookup World.lookup
  rw [← h.vars]
  cases hv : s.vars[v]? with
  | none => rfl
  | some i =>
    cases i with
    | none => rfl
    | some i =>
      obtain ⟨o, ho, hc, hb⟩ := h.live v i hv
      obtain ⟨x, hx, hval⟩ := h.val i o ho
      simp only [ho, hx]
      exact ⟨_, rfl, rfl, rfl, ho, hc, hval hc, hb⟩

/-! ### Primitive changes of both -/

theorem getElem?_append_some {l : List α} {a : ℕ} {x y : α} (h : l[a]? = some x) : (l ++ [y])[a]? = some x := by
  have hlt : a < l.length := by
    by_contra hc
    rw [List.getElem?_eq_none (by omega)] at h
    cases h
  rw [List.getElem?_append_left hlt, h]

theorem getElem?_some_lt {l : List α} {a : ℕ} {x : α} (h : l[a]? = some x) : a < l.length := by
  by_contra hc
  rw [List.getElem?_eq_none (by omega)] at h
  cases h

theorem getElem?_concat {l : List α} {y x : α} {i : ℕ} (h : (l ++ [y])[i]? = some x) :
    l[i]? = some x ∨ (i = l.length ∧ x = y) := by
  rcases Nat.lt_trichotomy i l.length with hlt | heq | hgt
  · rw [List.getElem?_append_left hlt] at h; exact Or.inl h
  · subst heq
    rw [List.getElem?_concat_length] at h
    exact Or.inr ⟨rfl, (Option.some.inj h).symm⟩
  · rw [List.getElem?_eq_none (by simp; omega)] at h
    cases h

theorem Rel.alloc (h : Rel b s w) (x : Value K I G) : Rel b (s.alloc x) w where
  vars := h.vars
  len := h.len
  val := fun i o ho => by
    obtain ⟨y, hy, hv⟩ := h.val i o ho
    exact ⟨y, hy, fun hc => (hv hc).congr fun a _ z hz => getElem?_append_some hz⟩
  inj := h.inj
  live := h.live

theorem Rel.newMats (h : Rel b s w) (n : ℕ) : Rel b (newMats s n) w := by
  induction n generalizing s with
  | zero => exact h
  | succ n ih => exact ih (h.alloc .mat)

theorem newMats_objs (s : State K I G) (n : ℕ) :
    (newMats s n).objs = s.objs ∧ (newMats s n).vars = s.vars ∧ (newMats s n).heap = s.heap ++ List.replicate n (some .mat) := by
  induction n generalizing s with
  | zero => simp [Sumo.Objects.newMats]
  | succ n ih =>
    obtain ⟨h1, h2, h3⟩ := ih (s.alloc .mat)
    refine ⟨h1, h2, ?_⟩
    show (Sumo.Objects.newMats (s.alloc .mat) n).heap = _
    rw [h3]
    simp [State.alloc, List.replicate_succ]

/-- A new object with a pointer to something nothing points to. -/
theorem Rel.push (h : Rel b s w) (c : Cls) (p : Option ℕ) (x : Option (Value K I G)) (hv : Val s ⟨c, p, false⟩ x)
    (hn : ∀ a, p = some a → ∀ (i : ℕ) (o : Obj), s.objs[i]? = some o → o.collected = false → o.ptr ≠ some a) :
    Rel b (s.push ⟨c, p, false⟩) (w.push c x) where
  vars := h.vars
  len := by simp [State.push, World.push, h.len]
  val := fun i o ho => by
    rcases getElem?_concat ho with ho | ⟨hi, ho⟩
    · obtain ⟨y, hy, hv⟩ := h.val i o ho
      exact ⟨y, getElem?_append_some hy, hv⟩
    · subst ho
      refine ⟨x, ?_, fun _ => hv⟩
      show (w.vals ++ [(c, x)])[i]? = _
      rw [hi, h.len, List.getElem?_concat_length]
  inj := fun i j o q a ho hq hco hcq hpo hpq => by
    rcases getElem?_concat ho with ho | ⟨hi, ho⟩
    · rcases getElem?_concat hq with hq | ⟨hj, hq⟩
      · exact h.inj i j o q a ho hq hco hcq hpo hpq
      · subst hq
        exact absurd hpo (hn a hpq i o ho hco)
    · subst ho
      rcases getElem?_concat hq with hq | ⟨hj, hq⟩
      · exact absurd hpq (hn a hpo j q hq hcq)
      · omega
  live := fun v i hv => by
    obtain ⟨o, ho, hc, hb⟩ := h.live v i hv
    exact ⟨o, getElem?_append_some ho, hc, hb⟩

/-- Every pointer of an object not freed is an address in use. -/
theorem Rel.lt (h : Rel b s w) {i : ℕ} {o : Obj} {a : ℕ} (ho : s.objs[i]? = some o) (hc : o.collected = false)
    (hp : o.ptr = some a) : a < s.heap.length := by
  obtain ⟨x, -, hv⟩ := h.val i o ho
  have := hv hc
  unfold Val at this
  rw [hp] at this
  obtain ⟨y, hy, -⟩ := this
  exact getElem?_some_lt hy

theorem Rel.wrap (h : Rel b s w) (c : Cls) (x : Value K I G) (hx : x.cls = some c) :
    Rel b (s.wrap c x) (w.push c (some x)) := by
  refine (h.alloc x).push c (some s.heap.length) (some x) ⟨x, ?_, rfl, hx⟩ ?_
  · show (s.heap ++ [some x])[s.heap.length]? = _
    rw [List.getElem?_concat_length]
  · intro a ha i o ho hc hp
    cases ha
    have := h.lt ho hc hp
    omega

/-- Binding an object that is not freed. -/
theorem Rel.bindVar (h : Rel b s w) {i : ℕ} {o : Obj} (ho : s.objs[i]? = some o) (hc : o.collected = false)
    (hb : b → o.ptr ≠ none) : Rel b (s.bindVar i) (w.bindVar i) where
  vars := by simp [State.bindVar, World.bindVar, h.vars]
  len := h.len
  val := h.val
  inj := h.inj
  live := fun v j hv => by
    rcases getElem?_concat hv with hv | ⟨-, hv⟩
    · exact h.live v j hv
    · cases hv
      exact ⟨o, ho, hc, hb⟩

theorem Rel.fresh (h : Rel b s w) (c : Cls) (x : Value K I G) (hx : x.cls = some c) :
    Rel b ((s.wrap c x).bindVar s.objs.length) (w.fresh c (some x)) := by
  unfold World.fresh
  rw [← h.len]
  exact (h.wrap c x hx).bindVar (o := ⟨c, some s.heap.length, false⟩) (List.getElem?_concat_length ..) rfl (by simp)

theorem load_ok {a : ℕ} {x : Value K I G} (h : s.heap[a]? = some (some x)) : s.load a = .ok x := by
  simp [State.load, h]

theorem store_ok {a : ℕ} {x : Value K I G} (y : Value K I G) (h : s.heap[a]? = some (some x)) :
    s.store a y = .ok { s with heap := s.heap.set a (some y) } := by
  simp [State.store, h]

theorem free_ok {a : ℕ} {x : Value K I G} (h : s.heap[a]? = some (some x)) :
    s.free a = .ok { s with heap := s.heap.set a none } := by
  simp [State.free, h]

/-- Changing the C++ object of one Python object. -/
theorem Rel.set (h : Rel b s w) {i : ℕ} {o : Obj} {a : ℕ} {y : Value K I G} (ho : s.objs[i]? = some o)
    (hc : o.collected = false) (hp : o.ptr = some a) (hy : y.cls = some o.cls) :
    Rel b { s with heap := s.heap.set a (some y) } (w.setVal i o.cls y) where
  vars := h.vars
  len := by simp [World.setVal, h.len]
  val := fun j p hj => by
    obtain ⟨x, hx, hv⟩ := h.val j p hj
    have hlt : i < w.vals.length := by rw [← h.len]; exact getElem?_some_lt ho
    by_cases hij : i = j
    · subst hij
      have hop : o = p := by
        have : some o = some p := by rw [← ho, ← hj]
        exact Option.some.inj this
      subst hop
      refine ⟨some y, ?_, fun _ => ?_⟩
      · show (w.vals.set i _)[i]? = _
        rw [List.getElem?_set_self hlt]
      · unfold Val
        rw [hp]
        refine ⟨y, ?_, rfl, hy⟩
        show (s.heap.set a _)[a]? = _
        rw [List.getElem?_set_self (h.lt ho hc hp)]
    · refine ⟨x, ?_, fun hcj => (hv hcj).congr fun a' ha' z hz => ?_⟩
      · show (w.vals.set i _)[j]? = _
        rw [List.getElem?_set_ne hij, hx]
      · show (s.heap.set a _)[a']? = _
        rw [List.getElem?_set_ne, hz]
        intro haa
        subst haa
        exact hij (h.inj i j o p a ho hj hc hcj hp ha')
  inj := h.inj
  live := h.live

/-- Freeing C++ objects that no Python object points to. -/
theorem Rel.unset (h : Rel b s w) {a : ℕ}
    (hn : ∀ (i : ℕ) (o : Obj), s.objs[i]? = some o → o.collected = false → o.ptr ≠ some a) :
    Rel b { s with heap := s.heap.set a none } w where
  vars := h.vars
  len := h.len
  val := fun i o ho => by
    obtain ⟨x, hx, hv⟩ := h.val i o ho
    refine ⟨x, hx, fun hc => (hv hc).congr fun a' ha' z hz => ?_⟩
    show (s.heap.set a _)[a']? = _
    rw [List.getElem?_set_ne, hz]
    intro haa
    subst haa
    exact hn i o ho hc ha'
  inj := h.inj
  live := h.live

theorem freeAll_ok (h : Rel b s w) (l : List ℕ) (hd : l.Nodup) (hl : ∀ a ∈ l, ∃ x, s.heap[a]? = some (some x))
    (hn : ∀ a ∈ l, ∀ (i : ℕ) (o : Obj), s.objs[i]? = some o → o.collected = false → o.ptr ≠ some a) :
    ∃ t, freeAll s l = .ok t ∧ Rel b t w ∧ t.objs = s.objs ∧ t.vars = s.vars ∧ t.heap.length = s.heap.length ∧
      ∀ a, t.heap[a]? = if a ∈ l then some none else s.heap[a]? := by
  induction l generalizing s with
  | nil => exact ⟨s, rfl, h, rfl, rfl, rfl, by simp⟩
  | cons a as ih =>
    obtain ⟨x, hx⟩ := hl a (by simp)
    have hlt := getElem?_some_lt hx
    obtain ⟨hna, hd'⟩ := List.nodup_cons.mp hd
    have hset : ∀ c ∈ as, ({ s with heap := s.heap.set a none } : State K I G).heap[c]? = s.heap[c]? := by
      intro c hc
      exact List.getElem?_set_ne (by rintro rfl; exact hna hc)
    obtain ⟨t, ht, hr, h1, h2, h3, h4⟩ := ih (s := { s with heap := s.heap.set a none })
      (h.unset (hn a (by simp))) hd'
      (by intro c hc; rw [hset c hc]; exact hl c (by simp [hc]))
      (by intro c hc; exact hn c (by simp [hc]))
    refine ⟨t, ?_, hr, h1, h2, by rw [h3]; simp, fun c => ?_⟩
    · simp only [freeAll, free_ok hx, bind, Except.bind]
      exact ht
    · rw [h4]
      by_cases hc : c ∈ as
      · simp [hc]
      · rw [if_neg hc]
        show (s.heap.set a none)[c]? = _
        by_cases hca : a = c
        · subst hca
          simp [List.getElem?_set_self hlt]
        · rw [List.getElem?_set_ne hca]
          simp [hc, Ne.symm hca]

/-- Dropping a variable. -/
theorem Rel.forget (h : Rel b s w) (v : ℕ) :
    Rel b { s with vars := s.vars.set v none } { w with vars := w.vars.set v none } where
  vars := by simp [h.vars]
  len := h.len
  val := h.val
  inj := h.inj
  live := fun u i hu => by
    by_cases huv : v = u
    · subst huv
      by_cases hlt : v < s.vars.length
      · rw [List.getElem?_set_self hlt] at hu; cases hu
      · rw [List.getElem?_eq_none (by simp; omega)] at hu; cases hu
    · rw [List.getElem?_set_ne huv] at hu
      exact h.live u i hu

/-- Marking an object as freed. -/
theorem Rel.mark (h : Rel b s w) {i : ℕ} {o : Obj} (ho : s.objs[i]? = some o) (hv : ¬ some i ∈ s.vars) :
    Rel b { s with objs := s.objs.set i { o with collected := true } } w := by
  have hlt := getElem?_some_lt ho
  have key : ∀ (j : ℕ) (p : Obj), (s.objs.set i { o with collected := true })[j]? = some p → p.collected = false →
      s.objs[j]? = some p := by
    intro j p hj hc
    by_cases hij : i = j
    · subst hij
      rw [List.getElem?_set_self hlt] at hj
      cases hj
      cases hc
    · rwa [List.getElem?_set_ne hij] at hj
  refine ⟨h.vars, by simp [h.len], ?_, ?_, ?_⟩
  · intro j p hj
    by_cases hij : i = j
    · subst hij
      change (s.objs.set i _)[i]? = _ at hj
      rw [List.getElem?_set_self hlt] at hj
      cases hj
      obtain ⟨x, hx, -⟩ := h.val i o ho
      exact ⟨x, hx, fun hc => by cases hc⟩
    · change (s.objs.set i _)[j]? = _ at hj
      rw [List.getElem?_set_ne hij] at hj
      exact h.val j p hj
  · intro j k p q a hj hk hcp hcq
    exact h.inj j k p q a (key j p hj hcp) (key k q hk hcq) hcp hcq
  · intro v j hvj
    obtain ⟨p, hp, hc, hb⟩ := h.live v j hvj
    refine ⟨p, ?_, hc, hb⟩
    show (s.objs.set i _)[j]? = _
    rw [List.getElem?_set_ne, hp]
    rintro rfl
    exact hv (List.mem_of_getElem? hvj)

theorem Rel.pointTo (h : Rel b s w) {i : ℕ} {o : Obj} {x : Value K I G} (ho : s.objs[i]? = some o)
    (hc : o.collected = false) (hx : x.cls = some o.cls) :
    Rel b { (s.alloc x) with objs := s.objs.set i { o with ptr := some s.heap.length } } (w.setVal i o.cls x) := by
  have hlt := getElem?_some_lt ho
  have hlen := h.len
  refine ⟨h.vars, by simp [World.setVal, h.len], ?_, ?_, ?_⟩
  · intro j p hj
    change (s.objs.set i _)[j]? = _ at hj
    by_cases hij : i = j
    · subst hij
      rw [List.getElem?_set_self hlt] at hj
      cases hj
      refine ⟨some x, ?_, fun _ => ⟨x, ?_, rfl, hx⟩⟩
      · show (w.vals.set i _)[i]? = _
        rw [List.getElem?_set_self (by omega)]
      · exact List.getElem?_concat_length ..
    · rw [List.getElem?_set_ne hij] at hj
      obtain ⟨y, hy, hv⟩ := h.val j p hj
      refine ⟨y, ?_, fun hcj => (hv hcj).congr fun a _ z hz => getElem?_append_some hz⟩
      show (w.vals.set i _)[j]? = _
      rw [List.getElem?_set_ne hij, hy]
  · intro j k p q a hj hk hcp hcq hpp hpq
    change (s.objs.set i _)[j]? = _ at hj
    change (s.objs.set i _)[k]? = _ at hk
    by_cases hij : i = j
    · by_cases hik : i = k
      · omega
      · subst hij
        rw [List.getElem?_set_self hlt] at hj
        rw [List.getElem?_set_ne hik] at hk
        cases hj
        cases hpp
        have := h.lt hk hcq hpq
        omega
    · rw [List.getElem?_set_ne hij] at hj
      by_cases hik : i = k
      · subst hik
        rw [List.getElem?_set_self hlt] at hk
        cases hk
        cases hpq
        have := h.lt hj hcp hpp
        omega
      · rw [List.getElem?_set_ne hik] at hk
        exact h.inj j k p q a hj hk hcp hcq hpp hpq
  · intro v j hvj
    obtain ⟨p, hp, hcp, hb⟩ := h.live v j hvj
    by_cases hij : i = j
    · subst hij
      exact ⟨_, List.getElem?_set_self hlt, hc, fun _ => by simp⟩
    · exact ⟨p, by show (s.objs.set i _)[j]? = _; rw [List.getElem?_set_ne hij, hp], hcp, hb⟩

end Sumo.Objects
