import Verif.Lemmas.ObjectsRun

/-! Helper lemmas for `Verif/Props/Objects.lean`: programs, what a call leaves alone, and the end of a program. -/

namespace Sumo.Objects

variable {K I G : Type} {b c d : Prop} {s t : State K I G} {w w' : World K I G}

/-! ### Programs -/

/-- One call, as the code really changes the world. -/
def World.stepReal (lib : Lib K I G) (w : World K I G) (op : Op K I G) : World K I G × Option PyErr :=
  match w.execReal lib op with
  | .ok r => r
  | .error e => (w, some e)

theorem step_ok (lib : Lib K I G) (h : Inv b c s w) (op : Op K I G) (hb : b → op.NoNull) (hc : c → op.Tidy lib)
    {e : Option PyErr} (hs : step lib s op = .ok (t, e)) : Inv b c t (w.stepReal lib op).1 ∧ e = (w.stepReal lib op).2 := by
  have hx := exec_ok (d := False) lib h op hb hc False.elim
  unfold step at hs
  unfold World.stepReal
  split at hs
  · rename_i r hr
    rw [hr] at hx
    cases hs
    obtain ⟨h1, h2⟩ := hx
    cases hn : w.execReal lib op with
    | ok q => rw [hn] at h1 h2; exact ⟨h1, h2⟩
    | error q => rw [hn] at h1 h2; exact ⟨h1, h2⟩
  · rename_i e' hr
    rw [hr] at hx
    cases hs
    cases hn : w.execReal lib op with
    | ok q => rw [hn] at hx; simp only [StepOk] at hx; subst hx; exact ⟨h, rfl⟩
    | error q => rw [hn] at hx; simp only [StepOk, Prod.mk.injEq, Option.some.injEq, true_and] at hx; subst hx; exact ⟨h, rfl⟩
  · cases hs

theorem step_crash (lib : Lib K I G) (h : Inv b c s w) (op : Op K I G) (hb : b → op.NoNull) (hc : c → op.Tidy lib)
    {k : Crash} (hs : step lib s op = .error k) :
    k ≠ .freed ∧ k ≠ .badCast ∧ (b → k ≠ .null) ∧ (w.Proper op → w.exec lib op = .error .undefined) := by
  have hx := exec_ok (d := w.Proper op) lib h op hb hc id
  unfold step at hs
  split at hs
  · cases hs
  · cases hs
  · rename_i k' hr
    rw [hr] at hx
    cases hs
    obtain ⟨h1, h2, h3, h4⟩ := hx
    exact ⟨h1, h2, h3, fun hp => by rw [← World.execReal_proper lib op hp]; exact h4 hp⟩

theorem init_inv : Inv b c (init : State K I G) World.init where
  rel := {
    vars := rfl
    len := rfl
    val := fun i o ho => by simp [init] at ho
    inj := fun i j o p a ho => by simp [init] at ho
    live := fun v i hv => by simp [init] at hv }
  own := fun _ a x hx => by simp [init] at hx
  noq := fun _ i o ho => by simp [init] at ho

/-- The world as the code really changes it. -/
def World.runReal (lib : Lib K I G) (w : World K I G) : List (Op K I G) → World K I G
  | [] => w
  | op :: ops => World.runReal lib (w.stepReal lib op).1 ops

theorem run_inv (lib : Lib K I G) (ops : List (Op K I G)) : ∀ {s t : State K I G} {w : World K I G} {es : List (Option PyErr)}
    (_ : Inv b c s w) (_ : b → ∀ op ∈ ops, op.NoNull) (_ : c → ∀ op ∈ ops, op.Tidy lib)
    (_ : run lib s ops = .ok (t, es)), Inv b c t (w.runReal lib ops) := by
  induction ops with
  | nil =>
    intro s t w es h _ _ hr
    cases hr
    exact h
  | cons op ops ih =>
    intro s t w es h hb hc hr
    simp only [run, bind, Except.bind] at hr
    split at hr
    · cases hr
    · rename_i r hst
      obtain ⟨u, e⟩ := r
      dsimp only at hr
      split at hr
      · cases hr
      · rename_i q hq
        obtain ⟨z, es'⟩ := q
        cases hr
        exact ih (step_ok lib h op (fun hbb => hb hbb op (by simp)) (fun hcc => hc hcc op (by simp)) hst).1
          (fun hbb o ho => hb hbb o (by simp [ho])) (fun hcc o ho => hc hcc o (by simp [ho])) hq

theorem run_crash (lib : Lib K I G) (ops : List (Op K I G)) : ∀ {s : State K I G} {w : World K I G} {k : Crash}
    (_ : Inv b c s w) (_ : b → ∀ op ∈ ops, op.NoNull) (_ : c → ∀ op ∈ ops, op.Tidy lib)
    (_ : run lib s ops = .error k), k ≠ .freed ∧ k ≠ .badCast ∧ (b → k ≠ .null) := by
  induction ops with
  | nil => intro s w k h _ _ hr; cases hr
  | cons op ops ih =>
    intro s w k h hb hc hr
    simp only [run, bind, Except.bind] at hr
    split at hr
    · rename_i k' hst
      cases hr
      obtain ⟨h1, h2, h3, -⟩ := step_crash lib h op (fun hbb => hb hbb op (by simp)) (fun hcc => hc hcc op (by simp)) hst
      exact ⟨h1, h2, h3⟩
    · rename_i r hst
      obtain ⟨u, e⟩ := r
      dsimp only at hr
      split at hr
      · rename_i k' hq
        cases hr
        exact ih (step_ok lib h op (fun hbb => hb hbb op (by simp)) (fun hcc => hc hcc op (by simp)) hst).1
          (fun hbb o ho => hb hbb o (by simp [ho])) (fun hcc o ho => hc hcc o (by simp [ho])) hq
      · cases hr

theorem World.stepReal_proper (lib : Lib K I G) (op : Op K I G) (h : w.Proper op) : w.stepReal lib op = w.step lib op := by
  unfold World.stepReal World.step
  rw [World.execReal_proper lib op h]
  rfl

/-- A program without improper calls, as the world has it. -/
theorem run_proper (lib : Lib K I G) (ops : List (Op K I G)) : ∀ {s t : State K I G} {w : World K I G}
    {es : List (Option PyErr)} (_ : Inv False False s w) (_ : w.ProperRun lib ops)
    (_ : run lib s ops = .ok (t, es)), Inv False False t (w.run lib ops).1 ∧ es = (w.run lib ops).2 := by
  induction ops with
  | nil =>
    intro s t w es h _ hr
    cases hr
    exact ⟨h, rfl⟩
  | cons op ops ih =>
    intro s t w es h hp hr
    obtain ⟨hp1, hp2⟩ := hp
    simp only [run, bind, Except.bind] at hr
    split at hr
    · cases hr
    · rename_i r hst
      obtain ⟨u, e⟩ := r
      dsimp only at hr
      split at hr
      · cases hr
      · rename_i q hq
        obtain ⟨z, es'⟩ := q
        cases hr
        obtain ⟨h1, h2⟩ := step_ok lib h op False.elim False.elim hst
        rw [World.stepReal_proper lib op hp1] at h1 h2
        obtain ⟨h3, h4⟩ := ih h1 hp2 hq
        exact ⟨h3, by simp only [World.run]; rw [h2, h4]⟩

/-- A program without improper calls ends, unless the world has an undefined call. -/
theorem run_ends (lib : Lib K I G) (ops : List (Op K I G)) : ∀ {s : State K I G} {w : World K I G}
    (_ : Inv False False s w) (_ : w.ProperRun lib ops) (_ : ∀ e ∈ (w.run lib ops).2, e ≠ some .undefined),
    ∃ r, run lib s ops = .ok r := by
  induction ops with
  | nil => intro s w _ _ _; exact ⟨_, rfl⟩
  | cons op ops ih =>
    intro s w h hp hu
    obtain ⟨hp1, hp2⟩ := hp
    simp only [run, bind, Except.bind]
    cases hst : step lib s op with
    | error k =>
      exfalso
      have := (step_crash lib h op False.elim False.elim hst).2.2.2 hp1
      refine hu (some .undefined) ?_ rfl
      simp [World.run, World.step, this]
    | ok r =>
      obtain ⟨u, e⟩ := r
      obtain ⟨h1, -⟩ := step_ok lib h op False.elim False.elim hst
      rw [World.stepReal_proper lib op hp1] at h1
      obtain ⟨q, hq⟩ := ih h1 hp2 (fun e he => hu e (by simp [World.run, he]))
      simp only [hq]
      exact ⟨_, rfl⟩

/-- What is seen through variables is the same in both. -/
theorem see_eq (h : Rel b s w) (v : ℕ) : s.see v = w.see v := by
  unfold State.see World.see
  rw [← h.vars]
  rcases hv : s.vars[v]? with _ | _ | i
  · rfl
  · rfl
  · obtain ⟨o, ho, hc, -⟩ := h.live v i hv
    obtain ⟨x, hx, hval⟩ := h.val i o ho
    have hval := hval hc
    simp only [ho, hx]
    unfold Val at hval
    cases hp : o.ptr with
    | none => rw [hp] at hval; simp [hval]
    | some a =>
      rw [hp] at hval
      obtain ⟨y, hy, rfl, -⟩ := hval
      simp [hy]

/-! ### What a call leaves alone -/

/-- Everything but the object of variable `g` and the meaning of `g` is kept. -/
def Frame (g : Option ℕ) (w w' : World K I G) : Prop :=
  ∀ v i : ℕ, w.vars[v]? = some (some i) → i < w.vals.length → (∀ u, g = some u → w.vars[u]? ≠ some (some i)) →
    w'.vars[v]? = some (some i) ∧ w'.vals[i]? = w.vals[i]?

/-- The variables that are new in `w'` refer to objects that are new, each to another one. -/
def New (w w' : World K I G) : Prop :=
  (∀ v i : ℕ, w.vars.length ≤ v → w'.vars[v]? = some (some i) → w.vals.length ≤ i) ∧
  ∀ v u i : ℕ, w.vars.length ≤ v → w.vars.length ≤ u → w'.vars[v]? = some (some i) → w'.vars[u]? = some (some i) → v = u

/-- Only new objects and variables. -/
def Ext (w w' : World K I G) : Prop := ∃ l m, w'.vals = w.vals ++ l ∧ w'.vars = w.vars ++ m

theorem Ext.refl (w : World K I G) : Ext w w := ⟨[], [], by simp, by simp⟩
theorem Ext.trans {w1 w2 w3 : World K I G} (h : Ext w1 w2) (h' : Ext w2 w3) : Ext w1 w3 := by
  obtain ⟨l, m, h1, h2⟩ := h
  obtain ⟨l', m', h3, h4⟩ := h'
  exact ⟨l ++ l', m ++ m', by rw [h3, h1, List.append_assoc], by rw [h4, h2, List.append_assoc]⟩
theorem Ext.push (h : Ext w w') (k : Cls) (x : Option (Value K I G)) : Ext w (w'.push k x) :=
  h.trans ⟨[(k, x)], [], rfl, by simp [World.push]⟩
theorem Ext.bindVar (h : Ext w w') (i : ℕ) : Ext w (w'.bindVar i) := h.trans ⟨[], [some i], by simp [World.bindVar], rfl⟩
theorem Ext.fresh (h : Ext w w') (k : Cls) (x : Option (Value K I G)) : Ext w (w'.fresh k x) := (h.push k x).bindVar _

theorem Ext.frame (h : Ext w w') (g : Option ℕ) : Frame g w w' := by
  obtain ⟨l, m, h1, h2⟩ := h
  intro v i hv hi _
  rw [h1, h2, List.getElem?_append_left hi, List.getElem?_append_left (getElem?_some_lt hv)]
  exact ⟨hv, rfl⟩

theorem World.lookup_lt {v i : ℕ} {p : Cls × Option (Value K I G)} (h : w.lookup v = .ok (i, p)) : i < w.vals.length :=
  getElem?_some_lt (World.lookup_ok h).2

theorem setVal_frame {v i : ℕ} {p : Cls × Option (Value K I G)} (h : w.lookup v = .ok (i, p)) (k : Cls) (x : Value K I G) :
    Frame (some v) w (w.setVal i k x) := by
  intro u j hu hj hne
  refine ⟨hu, ?_⟩
  have : i ≠ j := by
    rintro rfl
    exact hne v rfl (World.lookup_ok h).1
  simp [World.setVal, List.getElem?_set_ne this]

theorem sumLoop_ext (vs : List ℕ) : ∀ (w w' : World K I G) (k : Cls) (x : Option (Value K I G)),
    w.sumLoop k x vs = .ok w' → Ext w w' ∧ w'.vars = w.vars ∧ w'.vals.length = w.vals.length + vs.length := by
  induction vs with
  | nil => intro w w' k x h; cases h; exact ⟨.refl w, rfl, rfl⟩
  | cons v vs ih =>
    intro w w' k x h
    simp only [World.sumLoop, bind, Except.bind] at h
    split at h
    · cases h
    · split at h
      · cases h
      · obtain ⟨h1, h2, h3⟩ := ih _ _ _ _ h
        exact ⟨((Ext.refl w).push _ _).trans h1, h2, by rw [h3]; simp [World.push]; omega⟩

theorem registerLoop_ext (items : List (ℕ × (PointCloud K → Except PyErr (PointCloud K)))) :
    ∀ (w w' : World K I G) (ds : List (PointCloud K)), w.registerLoop items = .ok (w', ds) → Ext w w' ∧ w'.vars = w.vars := by
  induction items with
  | nil => intro w w' ds h; cases h; exact ⟨.refl w, rfl⟩
  | cons it items ih =>
    intro w w' ds h
    obtain ⟨v, f⟩ := it
    simp only [World.registerLoop, bind, Except.bind] at h
    split at h
    · cases h
    · split at h
      · cases h
      · split at h
        · split at h
          · cases h
          · split at h
            · cases h
            · rename_i q hq
              obtain ⟨w2, ds2⟩ := q
              cases h
              obtain ⟨h1, h2⟩ := ih _ _ _ hq
              exact ⟨((Ext.refl w).push _ _).trans h1, h2⟩
        · cases h

theorem one_new {i : ℕ} (hv : w'.vars = w.vars ++ [some i]) (hi : w.vals.length ≤ i) : New w w' := by
  have key : ∀ v j : ℕ, w.vars.length ≤ v → w'.vars[v]? = some (some j) → v = w.vars.length ∧ j = i := by
    intro v j hle h
    rw [hv] at h
    have hlt := getElem?_some_lt h
    simp only [List.length_append, List.length_singleton] at hlt
    have : v = w.vars.length := by omega
    subst this
    rw [List.getElem?_concat_length] at h
    exact ⟨rfl, by cases h; rfl⟩
  exact ⟨fun v j hle h => by rw [(key v j hle h).2]; exact hi,
    fun v u j h1 h2 h3 h4 => by rw [(key v j h1 h3).1, (key u j h2 h4).1]⟩

theorem no_new (hv : w'.vars = w.vars) : New w w' := by
  have key : ∀ v j : ℕ, w.vars.length ≤ v → w'.vars[v]? ≠ some (some j) := by
    intro v j hle h
    rw [hv] at h
    have := getElem?_some_lt h
    omega
  exact ⟨fun v j hle h => absurd h (key v j hle), fun v u j h1 h2 h3 h4 => absurd h3 (key v j h1)⟩

theorem exec_frame (lib : Lib K I G) (op : Op K I G) {e : Option PyErr} (h : w.exec lib op = .ok (w', e)) :
    Frame op.target w w' := by
  have refl : ∀ g, Frame g w w := (Ext.refl w).frame
  cases op with
  | construct x =>
    simp only [World.exec] at h
    split at h
    · cases h; exact ((Ext.refl w).fresh _ _).frame _
    · cases h
  | failed k => cases h; exact ((Ext.refl w).push _ _).frame _
  | raw k => cases k <;> (cases h; exact ((Ext.refl w).fresh _ _).frame _)
  | reinit v x =>
    simp only [World.exec, bind, Except.bind] at h
    split at h
    · cases h
    · rename_i r hr
      obtain ⟨i, k, y⟩ := r
      try dsimp only at h
      split at h
      · cases h; exact refl _
      · split at h
        · cases h; exact setVal_frame hr _ _
        · cases h
  | share v =>
    simp only [World.exec, bind, Except.bind] at h
    split at h
    · cases h
    · cases h; exact ((Ext.refl w).bindVar _).frame _
  | forget v =>
    simp only [World.exec, bind, Except.bind] at h
    split at h
    · cases h
    · cases h
      intro u i hu hi hne
      have : v ≠ u := by rintro rfl; exact hne v rfl hu
      exact ⟨by simp [List.getElem?_set_ne this, hu], rfl⟩
  | collect i => cases h; exact refl _
  | read v =>
    simp only [World.exec, bind, Except.bind] at h
    split at h
    · cases h
    · try dsimp only at h
      split at h
      · cases h; exact refl _
      · cases h
  | merge v u n =>
    simp only [World.exec, World.merge, bind, Except.bind] at h
    split at h
    · cases h
    · rename_i hm
      cases h
      split at hm
      · cases hm
      · rename_i r hr
        obtain ⟨i, k, x⟩ := r
        try dsimp only at hm
        repeat' split at hm
        all_goals first
          | (cases hm; done)
          | (cases hm; exact setVal_frame hr _ _)
  | replaceGeometry v u =>
    simp only [World.exec, World.replaceGeometry, bind, Except.bind] at h
    split at h
    · cases h
    · rename_i hm
      cases h
      split at hm
      · cases hm
      · rename_i r hr
        obtain ⟨i, k, x⟩ := r
        try dsimp only at hm
        repeat' split at hm
        all_goals first
          | (cases hm; done)
          | (cases hm; exact setVal_frame hr _ _)
  | renumber v jv ju n l =>
    simp only [World.exec, bind, Except.bind] at h
    split at h
    · cases h
    · rename_i r hr
      obtain ⟨i, k, x⟩ := r
      try dsimp only at h
      repeat' split at h
      all_goals first
        | (cases h; done)
        | (cases h; exact setVal_frame hr _ _)
  | append v u =>
    simp only [World.exec, World.append, bind, Except.bind] at h
    split at h
    · cases h
    · rename_i hm
      cases h
      split at hm
      · cases hm
      · rename_i r hr
        obtain ⟨i, k, x⟩ := r
        try dsimp only at hm
        repeat' split at hm
        all_goals first
          | (cases hm; done)
          | (cases hm; exact setVal_frame hr _ _)
  | add v u =>
    simp only [World.exec, bind, Except.bind] at h
    repeat' split at h
    all_goals first
      | (cases h; done)
      | (cases h; exact ((Ext.refl w).fresh _ _).frame _)
  | addInt v =>
    simp only [World.exec, bind, Except.bind] at h
    split at h
    · cases h
    · try dsimp only at h
      split at h
      · cases h; exact ((Ext.refl w).bindVar _).frame _
      · cases h
  | sum vs =>
    simp only [World.exec, bind, Except.bind] at h
    split at h
    · cases h
    · rename_i q hm
      cases h
      cases vs with
      | nil => cases hm; exact refl _
      | cons v vs =>
        simp only [World.sum, bind, Except.bind] at hm
        split at hm
        · cases hm
        · try dsimp only at hm
          split at hm
          · split at hm
            · cases hm; exact ((Ext.refl w).fresh _ _).frame _
            · split at hm
              · cases hm
              · rename_i hsl
                cases hm
                exact ((sumLoop_ext _ _ _ _ _ hsl).1.bindVar _).frame _
          · cases hm
  | register items =>
    simp only [World.exec, bind, Except.bind] at h
    split at h
    · cases h
    · rename_i r hr
      try dsimp only at h
      split at h
      · cases h
        exact ((registerLoop_ext _ _ _ _ hr).1.fresh _ _).frame _
      · cases h
  | deepcopy v =>
    simp only [World.exec, bind, Except.bind] at h
    repeat' split at h
    all_goals first
      | (cases h; done)
      | (cases h; exact ((Ext.refl w).fresh _ _).frame _)
  | changeModel v f =>
    simp only [World.exec, bind, Except.bind] at h
    split at h
    · cases h
    · rename_i r hr
      obtain ⟨i, k, x⟩ := r
      try dsimp only at h
      repeat' split at h
      all_goals first
        | (cases h; done)
        | (cases h; exact setVal_frame hr _ _)
  | addMesh v u =>
    simp only [World.exec, bind, Except.bind] at h
    split at h
    · cases h
    · rename_i r hr
      obtain ⟨i, k, x⟩ := r
      try dsimp only at h
      repeat' split at h
      all_goals first
        | (cases h; done)
        | (cases h; exact setVal_frame hr _ _)
  | primitiveMeshes v =>
    simp only [World.exec, bind, Except.bind] at h
    repeat' split at h
    all_goals first
      | (cases h; done)
      | (cases h; exact Ext.frame ⟨_, _, rfl, rfl⟩ _)
  | extractMesh v j =>
    simp only [World.exec, bind, Except.bind] at h
    repeat' split at h
    all_goals first
      | (cases h; done)
      | (cases h; exact Ext.frame ⟨_, [some _], rfl, rfl⟩ _)
      | (cases h; apply Ext.frame; refine Exists.intro _ ⟨[], rfl, ?_⟩; simp)
  | tiffLoad t p1 p2 p3 p4 =>
    cases t with
    | some e => cases h
    | none => cases h; exact refl _
  | tiffSave t l => cases h; exact refl _
  | createCloud p => cases h; exact ((Ext.refl w).fresh _ _).frame _

theorem execReal_frame (lib : Lib K I G) (op : Op K I G) {e : Option PyErr} (h : w.execReal lib op = .ok (w', e)) :
    Frame op.target w w' := by
  unfold World.execReal at h
  split at h
  · split at h
    · rename_i h1 _
      split at h
      · cases h; exact setVal_frame h1 _ _
      · exact exec_frame lib _ h
    · rename_i h1 _
      split at h
      · cases h; exact setVal_frame h1 _ _
      · exact exec_frame lib _ h
    · exact exec_frame lib _ h
  · simp only [bind, Except.bind] at h
    split at h
    · cases h
    · try dsimp only at h
      split at h
      · cases h; exact ((Ext.refl w).bindVar _).frame _
      · cases h
  · exact exec_frame lib _ h

theorem exec_new (lib : Lib K I G) (op : Op K I G) (hm : op.Makes) {e : Option PyErr} (h : w.exec lib op = .ok (w', e)) :
    New w w' := by
  cases op with
  | construct x =>
    simp only [World.exec] at h
    split at h
    · cases h; exact one_new rfl (le_refl _)
    · cases h
  | raw k => cases k <;> (cases h; exact one_new rfl (le_refl _))
  | add v u =>
    simp only [World.exec, bind, Except.bind] at h
    repeat' split at h
    all_goals first
      | (cases h; done)
      | (cases h; exact one_new rfl (le_refl _))
  | sum vs =>
    simp only [World.exec, bind, Except.bind] at h
    split at h
    · cases h
    · rename_i q hm
      cases h
      cases vs with
      | nil => cases hm; exact no_new rfl
      | cons v vs =>
        simp only [World.sum, bind, Except.bind] at hm
        split at hm
        · cases hm
        · try dsimp only at hm
          split at hm
          · split at hm
            · cases hm; exact one_new rfl (le_refl _)
            · rename_i hne
              split at hm
              · cases hm
              · rename_i hsl
                cases hm
                obtain ⟨-, h2, h3⟩ := sumLoop_ext _ _ _ _ _ hsl
                refine one_new (i := _) (by rw [World.bindVar, h2]) ?_
                have : 0 < vs.length := List.length_pos_iff.mpr hne
                omega
          · cases hm
  | register items =>
    simp only [World.exec, bind, Except.bind] at h
    split at h
    · cases h
    · rename_i r hr
      try dsimp only at h
      split at h
      · cases h
        obtain ⟨⟨l, m, h1, -⟩, h2⟩ := registerLoop_ext _ _ _ _ hr
        refine one_new (i := r.1.vals.length) (by simp [World.fresh, World.bindVar, World.push, h2]) ?_
        rw [h1]; simp
      · cases h
  | deepcopy v =>
    simp only [World.exec, bind, Except.bind] at h
    repeat' split at h
    all_goals first
      | (cases h; done)
      | (cases h; exact one_new rfl (le_refl _))
  | primitiveMeshes v =>
    simp only [World.exec, bind, Except.bind] at h
    repeat' split at h
    all_goals first
      | (cases h; done)
      | skip
    cases h
    have key : ∀ (n u i : ℕ), w.vars.length ≤ u →
        (w.vars ++ (List.range' w.vals.length n).map some)[u]? = some (some i) → i = w.vals.length + (u - w.vars.length) := by
      intro n u i hle hu
      rw [List.getElem?_append_right hle, List.getElem?_map] at hu
      cases hr : (List.range' w.vals.length n)[u - w.vars.length]? with
      | none => rw [hr] at hu; cases hu
      | some z =>
        rw [hr] at hu
        cases hu
        have hlt := getElem?_some_lt hr
        rw [List.length_range'] at hlt
        rw [List.getElem?_range' hlt] at hr
        cases hr; simp
    refine ⟨fun u i hle hu => ?_, fun u u' i h1 h2 h3 h4 => ?_⟩
    · have := key _ u i hle hu; omega
    · have := key _ u i h1 h3; have := key _ u' i h2 h4; omega
  | extractMesh v j =>
    simp only [World.exec, bind, Except.bind] at h
    repeat' split at h
    all_goals first
      | (cases h; done)
      | (cases h; exact one_new rfl (by simp))
      | (cases h; exact no_new rfl)
  | createCloud p => cases h; exact one_new rfl (le_refl _)
  | _ => exact hm.elim

/-! ### The end of a program -/

theorem collect_effect {i : ℕ} (hv : ∀ v j : ℕ, s.vars[v]? ≠ some (some j)) (h : collect s i = .ok t) :
    t.vars = s.vars ∧ t.objs.length = s.objs.length ∧
    ∀ j o, t.objs[j]? = some o → o.collected = false → j ≠ i ∧ s.objs[j]? = some o := by
  have hvi : s.vars.contains (some i) = false := by
    rw [Bool.eq_false_iff]
    intro hc
    have hm : some i ∈ s.vars := List.contains_iff_mem.mp hc
    obtain ⟨v, hv'⟩ := List.mem_iff_getElem?.mp hm
    exact hv v i hv'
  unfold collect at h
  cases ho : s.objs[i]? with
  | none =>
    rw [ho] at h; cases h
    exact ⟨rfl, rfl, fun j o hj _ => ⟨(by rintro rfl; rw [ho] at hj; cases hj), hj⟩⟩
  | some o =>
    have hlt := getElem?_some_lt ho
    rw [ho] at h
    simp only [hvi, Bool.or_false] at h
    split at h
    · rename_i hcol
      cases h
      refine ⟨rfl, rfl, fun j p hj hpc => ⟨?_, hj⟩⟩
      rintro rfl
      rw [ho] at hj; cases hj
      rw [hcol] at hpc; cases hpc
    · have key : ∀ j p, (s.objs.set i { o with collected := true })[j]? = some p → p.collected = false →
          j ≠ i ∧ s.objs[j]? = some p := by
        intro j p hj hpc
        have hne : j ≠ i := by
          rintro rfl
          rw [List.getElem?_set_self hlt] at hj
          cases hj; cases hpc
        rw [List.getElem?_set_ne (Ne.symm hne)] at hj
        exact ⟨hne, hj⟩
      split at h
      · cases h; exact ⟨rfl, by simp, key⟩
      · cases h; exact ⟨rfl, by simp, key⟩
      · unfold State.free at h
        split at h
        · cases h; exact ⟨rfl, by simp, key⟩
        · cases h

theorem run_append (lib : Lib K I G) (l m : List (Op K I G)) (s : State K I G) :
    run lib s (l ++ m) = (do
      let (t, es) ← run lib s l
      let (u, fs) ← run lib t m
      pure (u, es ++ fs)) := by
  induction l generalizing s with
  | nil =>
    simp only [List.nil_append, run, bind, Except.bind]
    cases run lib s m <;> rfl
  | cons op l ih =>
    simp only [List.cons_append, run, bind, Except.bind]
    cases step lib s op with
    | error k => rfl
    | ok r =>
      simp only [ih, bind, Except.bind]
      cases run lib r.1 l with
      | error k => rfl
      | ok q =>
        simp only [pure, Except.pure]
        cases run lib q.1 m <;> rfl

/-- Freeing all objects once no variable is left. -/
theorem collect_all (lib : Lib K I G) (n : ℕ) (h : Inv b c s w) (hv : ∀ v j : ℕ, s.vars[v]? ≠ some (some j)) :
    ∃ t es, run lib s ((List.range n).map .collect) = .ok (t, es) ∧ Inv b c t w ∧ t.vars = s.vars ∧
      t.objs.length = s.objs.length ∧ ∀ (j : ℕ) (o : Obj), t.objs[j]? = some o → o.collected = false → n ≤ j := by
  induction n with
  | zero => exact ⟨s, [], rfl, h, rfl, rfl, fun _ _ _ _ => Nat.zero_le _⟩
  | succ n ih =>
    obtain ⟨t, es, h1, h2, h3, h4, h5⟩ := ih
    obtain ⟨u, hu, hi⟩ := collect_ref h2 n
    obtain ⟨e1, e2, e3⟩ := collect_effect (by rw [h3]; exact hv) hu
    refine ⟨u, es ++ [none], ?_, hi, by rw [e1, h3], by rw [e2, h4], ?_⟩
    · rw [List.range_succ, List.map_append, run_append, h1]
      simp [run, step, exec, hu, bind, Except.bind, pure, Except.pure]
    · intro j o hj hc
      obtain ⟨hne, hj'⟩ := e3 j o hj hc
      have := h5 j o hj' hc
      omega

/-! ### Pages that are not in the file -/

theorem loadLoop_keep (l : List (ℕ × Page)) : ∀ {s t : State K I G} {e : Option PyErr}, loadLoop s l = .ok (t, e) →
    t.objs = s.objs ∧ ∀ a : ℕ, (∀ p, (a, p) ∈ l → p = .missing) → t.heap[a]? = s.heap[a]? := by
  induction l with
  | nil => intro s t e h; cases h; exact ⟨rfl, fun _ _ => rfl⟩
  | cons q l ih =>
    intro s t e h
    obtain ⟨n, p⟩ := q
    cases p with
    | missing =>
      obtain ⟨h1, h2⟩ := ih (s := s) h
      exact ⟨h1, fun a ha => h2 a fun p hp => ha p (by simp [hp])⟩
    | bad e' => cases h; exact ⟨rfl, fun _ _ => rfl⟩
    | good =>
      simp only [loadLoop, bind, Except.bind] at h
      split at h
      · cases h
      · rename_i u hu
        obtain ⟨h1, h2⟩ := ih h
        unfold State.free at hu
        split at hu
        · cases hu
          refine ⟨h1, fun a ha => ?_⟩
          rw [h2 a fun p hp => ha p (by simp [hp])]
          have : n ≠ a := by
            rintro rfl
            have := ha .good (by simp)
            cases this
          exact List.getElem?_set_ne this
        · cases hu

theorem newMats_new (n : ℕ) (s : State K I G) (i : ℕ) (h : i < n) :
    (newMats s n).heap[s.heap.length + i]? = some (some .mat) := by
  have : (newMats s n).heap = s.heap ++ List.replicate n (some .mat) := by
    clear h
    induction n generalizing s with
    | zero => simp [newMats]
    | succ n ih => rw [newMats, ih]; simp [State.alloc, List.replicate_succ]
  rw [this, List.getElem?_append_right (by omega)]
  simp [h]

end Sumo.Objects
