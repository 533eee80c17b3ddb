import Verif.Spec.PoseHeap

/-!
# Lemmas on the memory of rotations and poses
-/

namespace Sumo
namespace PoseHeap

variable {K : Type}

/-- Every reference is to memory that exists. -/
def State.Wf (s : State K) : Prop :=
  7 ≤ s.next ∧ (∀ a ∈ s.arrays, a.buf < s.next) ∧ (∀ a ∈ s.rots, a.buf < s.next) ∧
    ∀ p ∈ s.poses, p.1.buf < s.next ∧ p.2.buf < s.next

/-- `s'` has the references of `s` and possibly more. -/
def State.Extends (s s' : State K) : Prop :=
  s.next ≤ s'.next ∧ s.arrays <+: s'.arrays ∧ s.rots <+: s'.rots ∧ s.poses <+: s'.poses

/-- `s'` has the references of `s`, possibly more, and the old memory is unchanged. -/
def Grows (s s' : State K) : Prop := s'.Wf ∧ s.Extends s' ∧ ∀ b, b < s.next → s'.mem b = s.mem b

theorem Extends.refl (s : State K) : s.Extends s :=
  ⟨le_refl _, List.prefix_rfl, List.prefix_rfl, List.prefix_rfl⟩

theorem Extends.trans {a b c : State K} (h : a.Extends b) (g : b.Extends c) : a.Extends c :=
  ⟨h.1.trans g.1, h.2.1.trans g.2.1, h.2.2.1.trans g.2.2.1, h.2.2.2.trans g.2.2.2⟩

theorem Grows.trans {a b c : State K} (h : Grows a b) (g : Grows b c) : Grows a c :=
  ⟨g.1, Extends.trans h.2.1 g.2.1, fun x hx => (g.2.2 x (lt_of_lt_of_le hx h.2.1.1)).trans (h.2.2 x hx)⟩

theorem grows_alloc {s : State K} (hw : s.Wf) (c : ℕ) (f : ℕ → ℕ → K) :
    Grows s (s.alloc c f).1 ∧ (s.alloc c f).2.buf = s.next ∧ (s.alloc c f).1.next = s.next + 1 := by
  obtain ⟨h7, ha, hr, hp⟩ := hw
  refine ⟨⟨⟨by simp [State.alloc]; omega, fun a h => (ha a h).trans (Nat.lt_succ_self _),
    fun a h => (hr a h).trans (Nat.lt_succ_self _),
    fun p h => ⟨(hp p h).1.trans (Nat.lt_succ_self _), (hp p h).2.trans (Nat.lt_succ_self _)⟩⟩,
    ⟨Nat.le_succ _, List.prefix_rfl, List.prefix_rfl, List.prefix_rfl⟩, fun b hb => ?_⟩, rfl, rfl⟩
  simp only [State.alloc]
  rw [Function.update_of_ne (by omega)]

theorem grows_addArray {s : State K} (hw : s.Wf) {a : Arr} (h : a.buf < s.next) : Grows s (s.addArray a) := by
  obtain ⟨h7, ha, hr, hp⟩ := hw
  refine ⟨⟨h7, fun b hb => ?_, hr, hp⟩, ⟨le_refl _, List.prefix_append _ _, List.prefix_rfl, List.prefix_rfl⟩, fun _ _ => rfl⟩
  rcases List.mem_append.1 hb with hb | hb
  · exact ha b hb
  · rw [List.mem_singleton.1 hb]; exact h

theorem grows_addRot {s : State K} (hw : s.Wf) {a : Arr} (h : a.buf < s.next) : Grows s (s.addRot a) := by
  obtain ⟨h7, ha, hr, hp⟩ := hw
  refine ⟨⟨h7, ha, fun b hb => ?_, hp⟩, ⟨le_refl _, List.prefix_rfl, List.prefix_append _ _, List.prefix_rfl⟩, fun _ _ => rfl⟩
  rcases List.mem_append.1 hb with hb | hb
  · exact hr b hb
  · rw [List.mem_singleton.1 hb]; exact h

theorem grows_addPose {s : State K} (hw : s.Wf) {p : Arr × Arr} (h : p.1.buf < s.next) (h' : p.2.buf < s.next) :
    Grows s (s.addPose p) := by
  obtain ⟨h7, ha, hr, hp⟩ := hw
  refine ⟨⟨h7, ha, hr, fun b hb => ?_⟩, ⟨le_refl _, List.prefix_rfl, List.prefix_rfl, List.prefix_append _ _⟩, fun _ _ => rfl⟩
  rcases List.mem_append.1 hb with hb | hb
  · exact hp b hb
  · rw [List.mem_singleton.1 hb]; exact ⟨h, h'⟩

/-- A new array and a reference to it. -/
theorem grows_allocArray {s : State K} (hw : s.Wf) (c : ℕ) (f : ℕ → ℕ → K) :
    Grows s ((s.alloc c f).1.addArray (s.alloc c f).2) := by
  obtain ⟨h, hb, hn⟩ := grows_alloc hw c f
  exact h.trans (grows_addArray h.1 (by omega))

theorem grows_allocRot {s : State K} (hw : s.Wf) (c : ℕ) (f : ℕ → ℕ → K) :
    Grows s ((s.alloc c f).1.addRot (s.alloc c f).2) := by
  obtain ⟨h, hb, hn⟩ := grows_alloc hw c f
  exact h.trans (grows_addRot h.1 (by omega))

theorem grows_allocPose {s : State K} (hw : s.Wf) (c : ℕ) (f : ℕ → ℕ → K) (c' : ℕ) (f' : ℕ → ℕ → K) :
    Grows s (((s.alloc c f).1.alloc c' f').1.addPose ((s.alloc c f).2, ((s.alloc c f).1.alloc c' f').2)) := by
  obtain ⟨h, hb, hn⟩ := grows_alloc hw c f
  obtain ⟨h', hb', hn'⟩ := grows_alloc h.1 c' f'
  exact h.trans (h'.trans (grows_addPose h'.1 (by dsimp only; omega) (by dsimp only; omega)))

theorem grows_allocVecPose {s : State K} (hw : s.Wf) {a : Arr} (ha : a.buf < s.next) (c : ℕ) (f : ℕ → ℕ → K) :
    Grows s ((s.alloc c f).1.addPose (a, (s.alloc c f).2)) := by
  obtain ⟨h, hb, hn⟩ := grows_alloc hw c f
  exact h.trans (grows_addPose h.1 (by dsimp only; omega) (by dsimp only; omega))

theorem wf_init [CommRing K] : (State.init : State K).Wf := by
  refine ⟨le_refl _, ?_, ?_, ?_⟩ <;> simp [State.init]

/-- Every step but a write grows the state. -/
theorem step_grows [CommRing K] {s s' : State K} {op : Op K} (hw : s.Wf) (hop : ∀ a i j x, op ≠ .write a i j x)
    (h : s.step op = some s') : Grows s s' := by
  obtain ⟨h7, ha, hr, hp⟩ := id hw
  have hA : ∀ {i : ℕ} {a}, s.arrays[i]? = some a → a.buf < s.next := fun e => ha _ (List.mem_of_getElem? e)
  have hR : ∀ {i : ℕ} {a}, s.rots[i]? = some a → a.buf < s.next := fun e => hr _ (List.mem_of_getElem? e)
  have hP : ∀ {i : ℕ} {a}, s.poses[i]? = some a → a.1.buf < s.next ∧ a.2.buf < s.next :=
    fun e => hp _ (List.mem_of_getElem? e)
  have hO : ∀ {d : Arr} {o : Option ℕ} {a}, d.buf < 7 → argOr s.arrays d o = some a → a.buf < s.next := by
    intro d o a hd e
    cases o with
    | none => simp only [argOr, Option.some.injEq] at e; subst e; omega
    | some i => exact hA e
  have hC : ∀ {base A B C t}, t.buf < s.next → Grows s (s.camera base A B C t) := by
    intro base A B C t ht
    obtain ⟨h, hb, hn⟩ := grows_alloc hw 3
      (ofMat (Rot3.compose (Rot3.compose (Rot3.compose (s.mat base) A) B) C))
    exact h.trans (grows_addPose h.1 (by dsimp only; omega) (by dsimp only; omega))
  cases op with
  | write a i j x => exact absurd rfl (hop a i j x)
  | newArray c f =>
    simp only [State.step, Option.some.injEq] at h; subst h; exact grows_allocArray hw _ _
  | view a addr =>
    simp only [State.step, Option.bind_eq_bind, Option.bind_eq_some_iff, Option.some.injEq] at h
    obtain ⟨x, hx, rfl⟩ := h; exact grows_addArray hw (show x.buf < s.next from hA hx)
  | rot R =>
    simp only [State.step, Option.bind_eq_bind, Option.bind_eq_some_iff, Option.some.injEq] at h
    obtain ⟨x, hx, rfl⟩ := h; exact grows_addRot hw (hO (by decide) hx)
  | poseOfArray R t =>
    simp only [State.step, Option.bind_eq_bind, Option.bind_eq_some_iff, Option.some.injEq] at h
    obtain ⟨x, hx, y, hy, rfl⟩ := h; exact grows_addPose hw (hO (by decide) hx) (hO (by decide) hy)
  | pose R t =>
    simp only [State.step, Option.bind_eq_bind, Option.bind_eq_some_iff, Option.some.injEq] at h
    obtain ⟨x, hx, y, hy, rfl⟩ := h; exact grows_addPose hw (hR hx) (hO (by decide) hy)
  | fromMatrix34 T =>
    simp only [State.step, Option.bind_eq_bind, Option.bind_eq_some_iff, Option.some.injEq] at h
    obtain ⟨x, hx, rfl⟩ := h; exact grows_addPose hw (hA hx) (show x.buf < s.next from hA hx)
  | matrix r =>
    simp only [State.step, Option.bind_eq_bind, Option.bind_eq_some_iff, Option.some.injEq] at h
    obtain ⟨x, hx, rfl⟩ := h; exact grows_addArray hw (hR hx)
  | column r j =>
    simp only [State.step, Option.bind_eq_bind, Option.bind_eq_some_iff, Option.some.injEq] at h
    obtain ⟨x, hx, rfl⟩ := h; exact grows_addArray hw (show x.buf < s.next from hR hx)
  | rotation p =>
    simp only [State.step, Option.bind_eq_bind, Option.bind_eq_some_iff, Option.some.injEq] at h
    obtain ⟨x, hx, rfl⟩ := h; exact grows_addRot hw (hP hx).1
  | translation p =>
    simp only [State.step, Option.bind_eq_bind, Option.bind_eq_some_iff, Option.some.injEq] at h
    obtain ⟨x, hx, rfl⟩ := h; exact grows_addArray hw (hP hx).2
  | rotInverse r =>
    simp only [State.step, Option.bind_eq_bind, Option.bind_eq_some_iff, Option.some.injEq] at h
    obtain ⟨x, hx, rfl⟩ := h; exact grows_addRot hw (show x.buf < s.next from hR hx)
  | rotCompose r q =>
    simp only [State.step, Option.bind_eq_bind, Option.bind_eq_some_iff, Option.some.injEq] at h
    obtain ⟨x, hx, y, hy, rfl⟩ := h; exact grows_allocRot hw _ _
  | rotate r a =>
    simp only [State.step, Option.bind_eq_bind, Option.bind_eq_some_iff, Option.some.injEq] at h
    obtain ⟨x, hx, y, hy, rfl⟩ := h; exact grows_allocArray hw _ _
  | unrotate r a =>
    simp only [State.step, Option.bind_eq_bind, Option.bind_eq_some_iff, Option.some.injEq] at h
    obtain ⟨x, hx, y, hy, rfl⟩ := h; exact grows_allocArray hw _ _
  | compose p q =>
    simp only [State.step, Option.bind_eq_bind, Option.bind_eq_some_iff, Option.some.injEq] at h
    obtain ⟨x, hx, y, hy, rfl⟩ := h
    exact grows_allocPose hw _ _ _ _
  | inverse p =>
    simp only [State.step, Option.bind_eq_bind, Option.bind_eq_some_iff, Option.some.injEq] at h
    obtain ⟨x, hx, rfl⟩ := h
    exact grows_allocVecPose hw (show x.1.transpose.buf < s.next from (hP hx).1) _ _
  | transformFrom p a =>
    simp only [State.step, Option.bind_eq_bind, Option.bind_eq_some_iff, Option.some.injEq] at h
    obtain ⟨x, hx, y, hy, rfl⟩ := h; exact grows_allocArray hw _ _
  | transformTo p a =>
    simp only [State.step, Option.bind_eq_bind, Option.bind_eq_some_iff, Option.some.injEq] at h
    obtain ⟨x, hx, y, hy, rfl⟩ := h; exact grows_allocArray hw _ _
  | matrix34 p =>
    simp only [State.step, Option.bind_eq_bind, Option.bind_eq_some_iff, Option.some.injEq] at h
    obtain ⟨x, hx, rfl⟩ := h; exact grows_allocArray hw _ _
  | enuCamera A B C t =>
    simp only [State.step, Option.bind_eq_bind, Option.bind_eq_some_iff, Option.some.injEq] at h
    obtain ⟨x, hx, rfl⟩ := h; exact hC (hO (by decide) hx)
  | mayaCamera A B C t =>
    simp only [State.step, Option.bind_eq_bind, Option.bind_eq_some_iff, Option.some.injEq] at h
    obtain ⟨x, hx, rfl⟩ := h; exact hC (hO (by decide) hx)

/-- A write changes one element and no reference. -/
theorem step_write [CommRing K] {s s' : State K} {a i j : ℕ} {x : K} (h : s.step (.write a i j x) = some s') :
    ∃ v, s.arrays[a]? = some v ∧
      s' = { s with mem := Function.update s.mem v.buf (Function.update (s.mem v.buf) (v.addr i j) x) } := by
  simp only [State.step, Option.bind_eq_bind, Option.bind_eq_some_iff, Option.some.injEq] at h
  obtain ⟨v, hv, rfl⟩ := h
  exact ⟨v, hv, rfl⟩

/-- What every step does. -/
theorem step_frame [CommRing K] {s s' : State K} {op : Op K} (hw : s.Wf) (h : s.step op = some s') :
    s'.Wf ∧ s.Extends s' ∧ ∀ b, b < s.next →
      (∀ a i j x v, op = .write a i j x → s.arrays[a]? = some v → v.buf ≠ b) → s'.mem b = s.mem b := by
  by_cases hop : ∃ a i j x, op = .write a i j x
  · obtain ⟨a, i, j, x, rfl⟩ := hop
    obtain ⟨v, hv, rfl⟩ := step_write h
    refine ⟨hw, Extends.refl _, fun b _ hb => ?_⟩
    exact Function.update_of_ne (hb a i j x v rfl hv).symm _ _
  · have g := step_grows hw (fun a i j x e => hop ⟨a, i, j, x, e⟩) h
    exact ⟨g.1, g.2.1, fun b hb _ => g.2.2 b hb⟩

/-- The same for programs: `bad` are the buffers written to. -/
theorem run_frame [CommRing K] {ops : List (Op K)} : ∀ {s s' : State K}, s.Wf → s.run ops = some s' →
    s'.Wf ∧ s.Extends s' := by
  induction ops with
  | nil => intro s s' hw h; simp only [State.run, Option.some.injEq] at h; subst h; exact ⟨hw, Extends.refl _⟩
  | cons op ops ih =>
    intro s s' hw h
    simp only [State.run, Option.bind_eq_some_iff] at h
    obtain ⟨t, ht, h⟩ := h
    obtain ⟨w, e, -⟩ := step_frame hw ht
    obtain ⟨w', e'⟩ := ih w h
    exact ⟨w', Extends.trans e e'⟩

theorem run_wf [CommRing K] {s : State K} (h : Reachable s) : s.Wf := by
  obtain ⟨ops, h⟩ := h
  exact (run_frame wf_init h).1

/-- Memory that no array a program writes through lies in stays. -/
theorem run_mem [CommRing K] {ops : List (Op K)} {b : ℕ} {P : ℕ → Prop} : ∀ {s s' : State K}, s.Wf → b < s.next →
    (∀ a, P a → ∃ v, s.arrays[a]? = some v ∧ v.buf ≠ b) → WritesOnly P ops →
    s.run ops = some s' → s'.mem b = s.mem b := by
  induction ops with
  | nil => intro s s' _ _ _ _ h; simp only [State.run, Option.some.injEq] at h; subst h; rfl
  | cons op ops ih =>
    intro s s' hw hb hP hops h
    simp only [State.run, Option.bind_eq_some_iff] at h
    obtain ⟨t, ht, h⟩ := h
    obtain ⟨w, e, m⟩ := step_frame hw ht
    rw [ih w (lt_of_lt_of_le hb e.1) ?_ (fun a i j x hx => hops a i j x (List.mem_cons_of_mem _ hx)) h]
    · apply m b hb
      intro a i j x v ho hv
      obtain ⟨v', hv', hne⟩ := hP a (hops a i j x (by rw [ho]; exact List.mem_cons_self ..))
      rw [hv] at hv'; cases hv'; exact hne
    · intro a ha
      obtain ⟨v, hv, hne⟩ := hP a ha
      exact ⟨v, (List.prefix_iff_getElem?.1 e.2.1) |> fun p => by
        have hl : a < s.arrays.length := (List.getElem?_eq_some_iff.1 hv).1
        rw [p a hl, ← hv, List.getElem?_eq_getElem hl], hne⟩

/-- References stay what they are. -/
theorem Extends.arrays {s s' : State K} (e : s.Extends s') {i : ℕ} {v : Arr} (h : s.arrays[i]? = some v) :
    s'.arrays[i]? = some v := by
  have hl : i < s.arrays.length := (List.getElem?_eq_some_iff.1 h).1
  rw [(List.prefix_iff_getElem?.1 e.2.1) i hl, ← h, List.getElem?_eq_getElem hl]

theorem Extends.rots {s s' : State K} (e : s.Extends s') {i : ℕ} {v : Arr} (h : s.rots[i]? = some v) :
    s'.rots[i]? = some v := by
  have hl : i < s.rots.length := (List.getElem?_eq_some_iff.1 h).1
  rw [(List.prefix_iff_getElem?.1 e.2.2.1) i hl, ← h, List.getElem?_eq_getElem hl]

theorem Extends.poses {s s' : State K} (e : s.Extends s') {i : ℕ} {v : Arr × Arr} (h : s.poses[i]? = some v) :
    s'.poses[i]? = some v := by
  have hl : i < s.poses.length := (List.getElem?_eq_some_iff.1 h).1
  rw [(List.prefix_iff_getElem?.1 e.2.2.2) i hl, ← h, List.getElem?_eq_getElem hl]

theorem elem_congr {s s' : State K} {a : Arr} (h : s'.mem a.buf = s.mem a.buf) : s'.elem a = s.elem a := by
  funext i j; simp only [State.elem, h]

theorem mat_congr {s s' : State K} {a : Arr} (h : s'.mem a.buf = s.mem a.buf) : s'.mat a = s.mat a := by
  simp only [State.mat, elem_congr h]

theorem vec_congr {s s' : State K} {a : Arr} (h : s'.mem a.buf = s.mem a.buf) : s'.vec a = s.vec a := by
  simp only [State.vec, elem_congr h]

/-- If the old memory is unchanged, so are the values of the old objects. -/
theorem sameValues_of_mem {s s' : State K} (hw : s.Wf) (e : s.Extends s')
    (hm : ∀ b, b < s.next → s'.mem b = s.mem b) : SameValues s s' := by
  obtain ⟨-, ha, hr, hp⟩ := hw
  refine ⟨fun i hi => ?_, fun i hi => ?_, fun i hi => ?_⟩
  · have h := List.getElem?_eq_getElem hi
    have hb := hp _ (List.getElem_mem hi)
    simp only [State.poseVal, Extends.poses e h, h, Option.map_some, State.pose, mat_congr (hm _ hb.1), vec_congr (hm _ hb.2)]
  · have h := List.getElem?_eq_getElem hi
    have hb := hr _ (List.getElem_mem hi)
    simp only [State.rotVal, Extends.rots e h, h, Option.map_some, mat_congr (hm _ hb)]
  · have h := List.getElem?_eq_getElem hi
    have hb := ha _ (List.getElem_mem hi)
    simp only [State.arrVal, Extends.arrays e h, h, Option.map_some, elem_congr (hm _ hb)]

/-- A new array holds what was put there. -/
theorem elem_alloc (s : State K) {c i j : ℕ} (f : ℕ → ℕ → K) (hj : j < c) :
    (s.alloc c f).1.elem (s.alloc c f).2 i j = f i j := by
  simp only [State.elem, State.alloc, Function.update_self]
  rw [show (i * c + j) / c = i by
      rw [Nat.mul_comm, Nat.mul_add_div (by omega), Nat.div_eq_of_lt hj, Nat.add_zero],
    show (i * c + j) % c = j by rw [Nat.mul_comm, Nat.mul_add_mod, Nat.mod_eq_of_lt hj]]

theorem mat_allocMat (s : State K) (M : Mat3 K) : (s.allocMat M).1.mat (s.allocMat M).2 = M := by
  simp only [State.mat, State.allocMat]
  rw [elem_alloc, elem_alloc, elem_alloc, elem_alloc, elem_alloc, elem_alloc, elem_alloc, elem_alloc, elem_alloc] <;>
    first | decide | rfl

theorem vec_allocVec (s : State K) (v : Vec3 K) : (s.allocVec v).1.vec (s.allocVec v).2 = v := by
  simp only [State.vec, State.allocVec]
  rw [elem_alloc, elem_alloc, elem_alloc] <;> first | decide | rfl

/-- A program that writes only to arrays it made does not change memory that existed before. -/
theorem writesOwn_mem [CommRing K] {ops : List (Op K)} {n : ℕ} : ∀ {s s' : State K} {own : List ℕ}, s.Wf → n ≤ s.next →
    (∀ a ∈ own, ∃ v, s.arrays[a]? = some v ∧ n ≤ v.buf) → WritesOwn s own ops →
    s.run ops = some s' → ∀ b, b < n → s'.mem b = s.mem b := by
  induction ops with
  | nil => intro s s' own _ _ _ _ h; simp only [State.run, Option.some.injEq] at h; subst h; intros; rfl
  | cons op ops ih =>
    intro s s' own hw hn hown hops h b hb
    simp only [State.run, Option.bind_eq_some_iff] at h
    obtain ⟨t, ht, h⟩ := h
    obtain ⟨w, e, m⟩ := step_frame hw ht
    obtain ⟨h1, h2⟩ := hops
    have hold : ∀ a ∈ own, ∃ v, t.arrays[a]? = some v ∧ n ≤ v.buf := fun a ha => by
      obtain ⟨v, hv, hb⟩ := hown a ha
      exact ⟨v, Extends.arrays e hv, hb⟩
    have hb' : t.mem b = s.mem b := by
      apply m b (by omega)
      intro a i j x v ho hv
      obtain ⟨v', hv', hne⟩ := hown a (h1 a i j x ho)
      rw [hv] at hv'; cases hv'; omega
    rw [← hb']
    refine ih w (hn.trans e.1) ?_ (h2 t ht) h b hb
    cases op with
    | newArray c f =>
      intro a ha
      rcases List.mem_cons.1 ha with rfl | ha
      · simp only [State.step, Option.some.injEq] at ht
        subst ht
        refine ⟨(s.alloc c f).2, ?_, hn⟩
        simp [State.addArray, State.alloc]
      · exact hold a ha
    | _ => exact hold

end PoseHeap
end Sumo
