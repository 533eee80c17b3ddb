import Verif.Spec.Texture
import Verif.Lemmas.Dict
import Mathlib.Tactic

/-! # Lemmas about textures in memory -/

namespace Sumo
namespace Texture

/-- A mesh image is empty or owns a buffer of exactly its size. -/
def MatOk (s : State) (m : Mat) : Prop :=
  (m.rows = 0 ∧ m.cols = 0) ∨
    ((m.rows ≠ 0 ∧ m.cols ≠ 0) ∧ m.off = 0 ∧ m.step = 3 * m.cols ∧ ∃ b, s.bufs[m.buf]? = some b ∧ b.length = m.rows * m.cols * 3)

/-- An array lies inside its buffer. -/
def ArrOk (s : State) (a : Arr) : Prop :=
  a.buf < s.bufs.length ∧ (a.isU8 = true → a.shape.length = a.strides.length ∧
    (0 ∈ a.shape ∨ ∃ b, s.bufs[a.buf]? = some b ∧ 0 ≤ (extent a.off a.shape a.strides).1 ∧
      (extent a.off a.shape a.strides).2 < b.length))

/-- No array refers to the buffer of a mesh. -/
structure Inv (s : State) : Prop where
  arrs : ∀ a ∈ s.arrays, ArrOk s a
  mats : ∀ p ∈ s.meshes, MatOk s p.1 ∧ MatOk s p.2
  apart : ∀ p ∈ s.meshes, ∀ a ∈ s.arrays, (p.1.rows ≠ 0 → p.1.buf ≠ a.buf) ∧ (p.2.rows ≠ 0 → p.2.buf ≠ a.buf)

theorem inv_empty : Inv {} := ⟨by simp, by simp, by simp⟩

theorem getElem?_append_some {α : Type} {l l' : List α} {i : ℕ} {x : α} (h : l[i]? = some x) : (l ++ l')[i]? = some x := by
  obtain ⟨hi, -⟩ := List.getElem?_eq_some_iff.1 h
  rw [List.getElem?_append_left hi, h]

theorem MatOk.append {s s' : State} {m : Mat} {l : List (List ℕ)} (h : MatOk s m) (e : s'.bufs = s.bufs ++ l) : MatOk s' m := by
  rcases h with h | ⟨hz, h1, h2, b, h3, h4⟩
  · exact .inl h
  · exact .inr ⟨hz, h1, h2, b, by rw [e]; exact getElem?_append_some h3, h4⟩

theorem ArrOk.append {s s' : State} {a : Arr} {l : List (List ℕ)} (h : ArrOk s a) (e : s'.bufs = s.bufs ++ l) : ArrOk s' a := by
  refine ⟨by rw [e, List.length_append]; have := h.1; omega, fun hu => ⟨(h.2 hu).1, ?_⟩⟩
  rcases (h.2 hu).2 with h | ⟨b, h3, h4⟩
  · exact .inl h
  · exact .inr ⟨b, by rw [e]; exact getElem?_append_some h3, h4⟩

theorem MatOk.buf_lt {s : State} {m : Mat} (h : MatOk s m) (hr : m.rows ≠ 0) : m.buf < s.bufs.length := by
  rcases h with h | ⟨-, -, -, b, h3, -⟩
  · exact absurd h.1 hr
  · exact (List.getElem?_eq_some_iff.1 h3).1

theorem cStrides_length (l : List ℕ) : (cStrides l).length = l.length := by
  induction l with
  | nil => rfl
  | cons x l ih => simp [cStrides, ih]

/-- The last element of a contiguous array is the last of its bytes. -/
theorem extent_cStrides (off : ℤ) (shape : List ℕ) (h0 : 0 ∉ shape) :
    extent off shape (cStrides shape) = (off, off + shape.prod - 1) := by
  have key : ∀ (shape : List ℕ) (lo hi : ℤ), 0 ∉ shape →
      (shape.zip (cStrides shape)).foldl (fun r x => (r.1 + min 0 (x.2 * ((x.1 : ℤ) - 1)), r.2 + max 0 (x.2 * ((x.1 : ℤ) - 1))))
        (lo, hi) = (lo, hi + shape.prod - 1) := by
    intro shape
    induction shape with
    | nil => intro lo hi _; simp [cStrides]
    | cons n l ih =>
      intro lo hi h
      simp only [List.mem_cons, not_or] at h
      have hn : (1 : ℤ) ≤ n := by exact_mod_cast Nat.one_le_iff_ne_zero.2 (Ne.symm h.1)
      have hp : (0 : ℤ) ≤ l.prod := by positivity
      have h1 : 0 ≤ (l.prod : ℤ) * ((n : ℤ) - 1) := mul_nonneg hp (by linarith)
      simp only [cStrides, List.zip_cons_cons, List.foldl_cons]
      rw [ih _ _ h.2, min_eq_left h1, max_eq_right h1, List.prod_cons]
      push_cast
      ext <;> ring
  exact key shape off off h0

/-- A fresh contiguous array. -/
theorem arrOk_fresh (s s' : State) (shape data : List ℕ) (hd : data.length = shape.prod) (e : s'.bufs = s.bufs ++ [data]) :
    ArrOk s' ⟨s.bufs.length, 0, shape, cStrides shape, true⟩ := by
  refine ⟨by rw [e]; simp, fun _ => ⟨(cStrides_length shape).symm, ?_⟩⟩
  by_cases h0 : 0 ∈ shape
  · exact .inl h0
  · refine .inr ⟨data, by rw [e]; simp, ?_⟩
    dsimp only
    rw [extent_cStrides _ _ h0, hd]
    simp

theorem bytes_eq_some {s : State} {buf n : ℕ} {pos : ℤ} {l : List ℕ} (h : s.bytes buf pos n = some l) :
    l.length = n ∧ ∀ i, i < n → s.byte buf (pos + i) = l[i]? := by
  unfold State.bytes at h
  induction n generalizing l with
  | zero => simp at h; subst h; simp
  | succ n ih =>
    rw [List.range_succ, List.mapM_append] at h
    cases h1 : (List.range n).mapM fun i : ℕ => s.byte buf (pos + i) with
    | none => rw [h1] at h; simp at h
    | some l1 =>
      rw [h1] at h
      cases h2 : s.byte buf (pos + n) with
      | none => simp [h2] at h
      | some v =>
        simp [h2] at h
        subst h
        obtain ⟨k1, k2⟩ := ih h1
        refine ⟨by simp [k1], fun i hi => ?_⟩
        by_cases e : i < n
        · rw [List.getElem?_append_left (by omega)]; exact k2 i e
        · have : i = n := by omega
          subst this
          rw [h2, List.getElem?_append_right (by omega)]
          simp [k1]

theorem bytes_isSome {s : State} {buf n : ℕ} {pos : ℤ} (h : ∀ i : ℕ, i < n → ∃ v, s.byte buf (pos + i) = some v) :
    ∃ l, s.bytes buf pos n = some l := by
  unfold State.bytes
  induction n with
  | zero => exact ⟨[], rfl⟩
  | succ n ih =>
    obtain ⟨l, hl⟩ := ih (fun i hi => h i (by omega))
    obtain ⟨v, hv⟩ := h n (by omega)
    exact ⟨l ++ [v], by rw [List.range_succ, List.mapM_append, hl]; simp [hv]⟩

theorem byte_isSome_iff {s : State} {buf : ℕ} {b : List ℕ} (hb : s.bufs[buf]? = some b) {pos : ℤ} :
    (∃ v, s.byte buf pos = some v) ↔ 0 ≤ pos ∧ pos < b.length := by
  unfold State.byte
  by_cases h : 0 ≤ pos
  · rw [if_pos h, hb]
    simp only [Option.bind_some, h, true_and]
    constructor
    · rintro ⟨v, hv⟩
      have := (List.getElem?_eq_some_iff.1 hv).1
      omega
    · intro hlt
      exact ⟨b[pos.toNat]'(by omega), List.getElem?_eq_getElem (by omega)⟩
  · rw [if_neg h]
    simp [h]

/-- What a clone looks like. -/
theorem clone_spec {s s' : State} {m m' : Mat} (h : s.clone m = .ok (s', m')) :
    s'.arrays = s.arrays ∧ s'.meshes = s.meshes ∧ (∃ l, s'.bufs = s.bufs ++ l) ∧ MatOk s' m' ∧
      (m'.rows ≠ 0 → s.bufs.length ≤ m'.buf) ∧ (m.rows = 0 ∨ m.cols = 0 → m'.rows = 0 ∧ m'.cols = 0) ∧
      (m.rows ≠ 0 → m.cols ≠ 0 → m'.rows = m.rows ∧ m'.cols = m.cols ∧ ∀ i t, i < m.rows → t < 3 * m.cols →
        s'.byte m'.buf ((3 * m.cols * i + t : ℕ) : ℤ) = s.byte m.buf (m.off + m.step * i + t)) := by
  unfold State.clone at h
  split_ifs at h with h0
  · simp only [Except.ok.injEq, Prod.mk.injEq] at h
    obtain ⟨rfl, rfl⟩ := h
    refine ⟨rfl, rfl, ⟨[], by simp⟩, .inl ⟨rfl, rfl⟩, by simp, fun _ => ⟨rfl, rfl⟩, fun h1 h2 => ?_⟩
    rcases h0 with h0 | h0 <;> contradiction
  · cases hr : s.matRows m with
    | none => rw [hr] at h; cases h
    | some rows =>
      rw [hr] at h
      simp only [Except.ok.injEq, Prod.mk.injEq] at h
      obtain ⟨rfl, rfl⟩ := h
      have key : ∀ (n : ℕ) (rows : List (List ℕ)),
          ((List.range n).mapM fun i : ℕ => s.bytes m.buf (m.off + m.step * (i : ℤ)) (3 * m.cols)) = some rows →
          rows.flatten.length = n * m.cols * 3 ∧ ∀ i t, i < n → t < 3 * m.cols →
            rows.flatten[3 * m.cols * i + t]? = s.byte m.buf (m.off + m.step * i + t) := by
        intro n
        induction n with
        | zero => intro rows h; simp at h; subst h; simp
        | succ n ih =>
          intro rows h
          rw [List.range_succ, List.mapM_append] at h
          cases h1 : (List.range n).mapM fun i : ℕ => s.bytes m.buf (m.off + m.step * (i : ℤ)) (3 * m.cols) with
          | none => rw [h1] at h; simp at h
          | some l1 =>
            rw [h1] at h
            cases h2 : s.bytes m.buf (m.off + m.step * (n : ℤ)) (3 * m.cols) with
            | none => simp [h2] at h
            | some r =>
              simp [h2] at h
              subst h
              obtain ⟨k1, k2⟩ := ih l1 h1
              obtain ⟨r1, r2⟩ := bytes_eq_some h2
              have e : (l1 ++ [r]).flatten = l1.flatten ++ r := by simp
              refine ⟨by rw [e, List.length_append, k1, r1]; ring, fun i t hi ht => ?_⟩
              rw [e]
              by_cases hin : i < n
              · rw [List.getElem?_append_left]
                · exact k2 i t hin ht
                · rw [k1]
                  calc 3 * m.cols * i + t < 3 * m.cols * i + 3 * m.cols := by omega
                    _ = (i + 1) * (3 * m.cols) := by ring
                    _ ≤ n * (3 * m.cols) := Nat.mul_le_mul_right _ (by omega)
                    _ = n * m.cols * 3 := by ring
              · have : i = n := by omega
                subst this
                have e3 : i * m.cols * 3 = 3 * m.cols * i := by ring
                rw [List.getElem?_append_right (by rw [k1, e3]; omega), k1, e3, Nat.add_sub_cancel_left]
                exact (r2 t ht).symm
      obtain ⟨k1, k2⟩ := key m.rows rows hr
      refine ⟨rfl, rfl, ⟨_, rfl⟩, .inr ⟨not_or.1 h0, rfl, by push_cast; rfl, rows.flatten, by simp, k1⟩, by simp, ?_, ?_⟩
      · intro h; exact absurd h h0
      · intro _ _
        refine ⟨rfl, rfl, fun i t hi ht => ?_⟩
        rw [← k2 i t hi ht]
        unfold State.byte
        rw [if_pos (by positivity)]
        simp only [Int.toNat_natCast]
        simp

/-- What `array_from_mat3b` does. -/
theorem arrayFromMat3b_spec {s s' : State} {m : Mat} (h : s.arrayFromMat3b m = .ok s') :
    ∃ data, s'.bufs = s.bufs ++ [data] ∧ data.length = m.rows * m.cols * 3 ∧ s'.meshes = s.meshes ∧
      s'.arrays = s.arrays ++ [⟨s.bufs.length, 0, [m.rows, m.cols, 3], cStrides [m.rows, m.cols, 3], true⟩] ∧
      ∀ p, p < m.rows * m.cols * 3 → data[p]? = s.byte m.buf (m.off + p) := by
  unfold State.arrayFromMat3b at h
  cases hb : s.bytes m.buf m.off (m.rows * m.cols * 3) with
  | none => rw [hb] at h; cases h
  | some data =>
    rw [hb] at h
    simp only [Except.ok.injEq] at h
    subst h
    obtain ⟨h1, h2⟩ := bytes_eq_some hb
    exact ⟨data, rfl, h1, rfl, rfl, fun p hp => (h2 p hp).symm⟩

theorem Inv.arrayFromMat3b {s s' : State} {m : Mat} (hi : Inv s) (h : s.arrayFromMat3b m = .ok s') : Inv s' := by
  obtain ⟨data, e1, e2, e3, e4, -⟩ := arrayFromMat3b_spec h
  refine ⟨?_, ?_, ?_⟩
  · intro a ha
    rw [e4] at ha
    rcases List.mem_append.1 ha with ha | ha
    · exact (hi.arrs a ha).append e1
    · rw [List.mem_singleton.1 ha]
      exact arrOk_fresh s s' _ data (by rw [e2]; simp [Nat.mul_assoc]) e1
  · intro p hp
    rw [e3] at hp
    exact ⟨(hi.mats p hp).1.append e1, (hi.mats p hp).2.append e1⟩
  · intro p hp a ha
    rw [e3] at hp
    rw [e4] at ha
    rcases List.mem_append.1 ha with ha | ha
    · exact hi.apart p hp a ha
    · rw [List.mem_singleton.1 ha]
      exact ⟨fun hr => ((hi.mats p hp).1.buf_lt hr).ne, fun hr => ((hi.mats p hp).2.buf_lt hr).ne⟩

theorem newMesh_spec {s s' : State} {a b : Arr} (h : s.newMesh a b = .ok s') :
    checkArg a = .ok () ∧ checkArg b = .ok () ∧ ∃ s1 m1 s2 m2, s.clone (mat3bFromArray a) = .ok (s1, m1) ∧
      s1.clone (mat3bFromArray b) = .ok (s2, m2) ∧ s' = { s2 with meshes := s2.meshes ++ [(m1, m2)] } := by
  unfold State.newMesh at h
  simp only [bind, Except.bind] at h
  cases ha : checkArg a with
  | error e => rw [ha] at h; cases h
  | ok u =>
    rw [ha] at h
    cases hb : checkArg b with
    | error e => rw [hb] at h; cases h
    | ok u =>
      rw [hb] at h
      cases h1 : s.clone (mat3bFromArray a) with
      | error e => rw [h1] at h; cases h
      | ok x =>
        obtain ⟨s1, m1⟩ := x
        rw [h1] at h
        dsimp only at h
        cases h2 : s1.clone (mat3bFromArray b) with
        | error e => rw [h2] at h; cases h
        | ok y =>
          obtain ⟨s2, m2⟩ := y
          rw [h2] at h
          simp only [Except.ok.injEq] at h
          exact ⟨rfl, rfl, s1, m1, s2, m2, rfl, h2, h.symm⟩

theorem Inv.newMesh {s s' : State} {a b : Arr} (hi : Inv s) (h : s.newMesh a b = .ok s') :
    Inv s' ∧ s.meshes <+: s'.meshes ∧ ∃ l, s'.bufs = s.bufs ++ l := by
  obtain ⟨-, -, s1, m1, s2, m2, h1, h2, rfl⟩ := newMesh_spec h
  obtain ⟨a1, a2, ⟨l1, a3⟩, a4, a5, -⟩ := clone_spec h1
  obtain ⟨b1, b2, ⟨l2, b3⟩, b4, b5, -⟩ := clone_spec h2
  have e : s2.bufs = s.bufs ++ (l1 ++ l2) := by rw [b3, a3, List.append_assoc]
  refine ⟨⟨?_, ?_, ?_⟩, by dsimp only; rw [b2, a2]; exact List.prefix_append _ _, _, e⟩
  · intro x hx
    dsimp only at hx
    rw [b1, a1] at hx
    exact (hi.arrs x hx).append e
  · intro p hp
    dsimp only at hp
    rw [b2, a2] at hp
    rcases List.mem_append.1 hp with hp | hp
    · exact ⟨(hi.mats p hp).1.append e, (hi.mats p hp).2.append e⟩
    · rw [List.mem_singleton.1 hp]
      exact ⟨a4.append (s' := { s2 with meshes := s2.meshes ++ [(m1, m2)] }) b3, b4.append (l := []) (by simp)⟩
  · intro p hp x hx
    dsimp only at hp hx
    rw [b2, a2] at hp
    rw [b1, a1] at hx
    rcases List.mem_append.1 hp with hp | hp
    · exact hi.apart p hp x hx
    · rw [List.mem_singleton.1 hp]
      have hx' := (hi.arrs x hx).1
      dsimp only
      refine ⟨fun hr => ?_, fun hr => ?_⟩
      · have := a5 hr; omega
      · have := b5 hr
        have : s.bufs.length ≤ s1.bufs.length := by rw [a3]; simp
        omega

/-- The buffers of the meshes are as before. -/
def Keeps (s s' : State) : Prop :=
  s.meshes <+: s'.meshes ∧ ∀ p ∈ s.meshes, (p.1.rows ≠ 0 → s'.bufs[p.1.buf]? = s.bufs[p.1.buf]?) ∧
    (p.2.rows ≠ 0 → s'.bufs[p.2.buf]? = s.bufs[p.2.buf]?)

theorem Keeps.refl (s : State) : Keeps s s := ⟨List.prefix_rfl, fun _ _ => ⟨fun _ => rfl, fun _ => rfl⟩⟩

theorem Keeps.trans {s s' s'' : State} (h : Keeps s s') (h' : Keeps s' s'') : Keeps s s'' :=
  ⟨h.1.trans h'.1, fun p hp =>
    ⟨fun hr => ((h'.2 p (h.1.subset hp)).1 hr).trans ((h.2 p hp).1 hr),
     fun hr => ((h'.2 p (h.1.subset hp)).2 hr).trans ((h.2 p hp).2 hr)⟩⟩

theorem keeps_append {s s' : State} (hi : Inv s) {l : List (List ℕ)} (e : s'.bufs = s.bufs ++ l)
    (hm : s.meshes <+: s'.meshes) : Keeps s s' :=
  ⟨hm, fun p hp => ⟨fun hr => by rw [e, List.getElem?_append_left ((hi.mats p hp).1.buf_lt hr)],
    fun hr => by rw [e, List.getElem?_append_left ((hi.mats p hp).2.buf_lt hr)]⟩⟩

theorem got_eq_ok {α : Type} {o : Option α} {a : α} : got o = .ok a ↔ o = some a := by
  cases o <;> simp [got]

theorem step_spec {s s' : State} {op : Op} (hi : Inv s) (h : s.step op = .ok s') : Inv s' ∧ Keeps s s' := by
  cases op with
  | newArray shape data =>
    simp only [State.step] at h
    split_ifs at h with hd
    simp only [Except.ok.injEq] at h
    subst h
    refine ⟨⟨?_, fun p hp => ⟨(hi.mats p hp).1.append rfl, (hi.mats p hp).2.append rfl⟩, ?_⟩, keeps_append hi rfl List.prefix_rfl⟩
    · intro a ha
      rcases List.mem_append.1 ha with ha | ha
      · exact (hi.arrs a ha).append rfl
      · rw [List.mem_singleton.1 ha]; exact arrOk_fresh s _ _ data hd rfl
    · intro p hp a ha
      rcases List.mem_append.1 ha with ha | ha
      · exact hi.apart p hp a ha
      · rw [List.mem_singleton.1 ha]
        exact ⟨fun hr => ((hi.mats p hp).1.buf_lt hr).ne, fun hr => ((hi.mats p hp).2.buf_lt hr).ne⟩
  | newOther shape =>
    simp only [State.step, Except.ok.injEq] at h
    subst h
    refine ⟨⟨?_, fun p hp => ⟨(hi.mats p hp).1.append rfl, (hi.mats p hp).2.append rfl⟩, ?_⟩, keeps_append hi rfl List.prefix_rfl⟩
    · intro a ha
      rcases List.mem_append.1 ha with ha | ha
      · exact (hi.arrs a ha).append rfl
      · rw [List.mem_singleton.1 ha]; exact ⟨by simp, by simp⟩
    · intro p hp a ha
      rcases List.mem_append.1 ha with ha | ha
      · exact hi.apart p hp a ha
      · rw [List.mem_singleton.1 ha]
        exact ⟨fun hr => ((hi.mats p hp).1.buf_lt hr).ne, fun hr => ((hi.mats p hp).2.buf_lt hr).ne⟩
  | view i off shape strides =>
    simp only [State.step, bind, Except.bind] at h
    cases ha : got s.arrays[i]? with
    | error e => rw [ha] at h; cases h
    | ok a =>
      rw [ha] at h
      dsimp only at h
      cases hb : got s.bufs[a.buf]? with
      | error e => rw [hb] at h; cases h
      | ok b =>
        rw [hb] at h
        dsimp only at h
        split_ifs at h with hc
        simp only [Except.ok.injEq] at h
        subst h
        have hmem : a ∈ s.arrays := List.mem_of_getElem? (got_eq_ok.1 ha)
        refine ⟨⟨?_, fun p hp => ⟨(hi.mats p hp).1.append (l := []) (by simp), (hi.mats p hp).2.append (l := []) (by simp)⟩, ?_⟩,
          keeps_append hi (l := []) (by simp) List.prefix_rfl⟩
        · intro x hx
          rcases List.mem_append.1 hx with hx | hx
          · exact (hi.arrs x hx).append (l := []) (by simp)
          · rw [List.mem_singleton.1 hx]
            refine ⟨(hi.arrs a hmem).1, fun _ => ⟨hc.2.1, ?_⟩⟩
            rcases hc.2.2 with h0 | h0
            · exact .inl h0
            · exact .inr ⟨b, got_eq_ok.1 hb, h0⟩
        · intro p hp x hx
          rcases List.mem_append.1 hx with hx | hx
          · exact hi.apart p hp x hx
          · rw [List.mem_singleton.1 hx]; exact hi.apart p hp a hmem
  | write i pos value =>
    simp only [State.step, bind, Except.bind] at h
    cases ha : got s.arrays[i]? with
    | error e => rw [ha] at h; cases h
    | ok a =>
      rw [ha] at h
      simp only [Except.ok.injEq] at h
      subst h
      have hmem : a ∈ s.arrays := List.mem_of_getElem? (got_eq_ok.1 ha)
      have hbuf : ∀ k : ℕ, ∃ f : List ℕ → List ℕ, (∀ l, (f l).length = l.length) ∧
          (s.bufs.modify a.buf fun b => b.set pos value)[k]? = (s.bufs[k]?).map f := by
        intro k
        rw [List.getElem?_modify]
        by_cases e : a.buf = k
        · exact ⟨fun b => b.set pos value, by simp, by simp [e]⟩
        · exact ⟨id, by simp, by simp [e]⟩
      have hmat : ∀ m, MatOk s m → MatOk { s with bufs := s.bufs.modify a.buf fun b => b.set pos value } m := by
        rintro m (h | ⟨hz, h1, h2, b, h3, h4⟩)
        · exact .inl h
        · obtain ⟨f, f1, f2⟩ := hbuf m.buf
          exact .inr ⟨hz, h1, h2, f b, by dsimp only; rw [f2, h3]; rfl, by rw [f1, h4]⟩
      refine ⟨⟨?_, fun p hp => ⟨hmat _ (hi.mats p hp).1, hmat _ (hi.mats p hp).2⟩, hi.apart⟩, List.prefix_rfl, ?_⟩
      · intro x hx
        obtain ⟨h1, h2⟩ := hi.arrs x hx
        refine ⟨by simpa using h1, fun hu => ⟨(h2 hu).1, ?_⟩⟩
        rcases (h2 hu).2 with h0 | ⟨b, h3, h4, h5⟩
        · exact .inl h0
        · obtain ⟨f, f1, f2⟩ := hbuf x.buf
          exact .inr ⟨f b, by dsimp only; rw [f2, h3]; rfl, h4, by rw [f1]; exact h5⟩
      · intro p hp
        obtain ⟨q1, q2⟩ := hi.apart p hp a hmem
        refine ⟨fun hr => ?_, fun hr => ?_⟩
        · have := Ne.symm (q1 hr)
          dsimp only; rw [List.getElem?_modify]; simp [this]
        · have := Ne.symm (q2 hr)
          dsimp only; rw [List.getElem?_modify]; simp [this]
  | newMesh i j =>
    simp only [State.step, bind, Except.bind] at h
    cases ha : got s.arrays[i]? with
    | error e => rw [ha] at h; cases h
    | ok a =>
      rw [ha] at h
      dsimp only at h
      cases hb : got s.arrays[j]? with
      | error e => rw [hb] at h; cases h
      | ok b =>
        rw [hb] at h
        obtain ⟨h1, h2, l, h3⟩ := hi.newMesh h
        exact ⟨h1, keeps_append hi h3 h2⟩
  | baseColor i =>
    simp only [State.step, bind, Except.bind] at h
    cases ha : got s.meshes[i]? with
    | error e => rw [ha] at h; cases h
    | ok m =>
      rw [ha] at h
      obtain ⟨data, e1, -, e3, -, -⟩ := arrayFromMat3b_spec h
      exact ⟨hi.arrayFromMat3b h, keeps_append hi e1 (by rw [e3])⟩
  | metallicRoughness i =>
    simp only [State.step, bind, Except.bind] at h
    cases ha : got s.meshes[i]? with
    | error e => rw [ha] at h; cases h
    | ok m =>
      rw [ha] at h
      obtain ⟨data, e1, -, e3, -, -⟩ := arrayFromMat3b_spec h
      exact ⟨hi.arrayFromMat3b h, keeps_append hi e1 (by rw [e3])⟩
  | rotate i =>
    simp only [State.step, bind, Except.bind] at h
    cases ha : got s.meshes[i]? with
    | error e => rw [ha] at h; cases h
    | ok m =>
      rw [ha] at h
      dsimp only at h
      cases h1 : s.arrayFromMat3b m.1 with
      | error e => rw [h1] at h; cases h
      | ok s1 =>
        rw [h1] at h
        dsimp only at h
        cases g1 : got s1.arrays.getLast? with
        | error e => rw [g1] at h; cases h
        | ok a =>
          rw [g1] at h
          dsimp only at h
          cases h2 : s1.arrayFromMat3b m.2 with
          | error e => rw [h2] at h; cases h
          | ok s2 =>
            rw [h2] at h
            dsimp only at h
            cases g2 : got s2.arrays.getLast? with
            | error e => rw [g2] at h; cases h
            | ok b =>
              rw [g2] at h
              dsimp only at h
              have i1 := hi.arrayFromMat3b h1
              have i2 := i1.arrayFromMat3b h2
              obtain ⟨i3, p3, l, e3⟩ := i2.newMesh h
              obtain ⟨d1, e1, -, m1, -, -⟩ := arrayFromMat3b_spec h1
              obtain ⟨d2, e2, -, m2, -, -⟩ := arrayFromMat3b_spec h2
              exact ⟨i3, ((keeps_append hi e1 (by rw [m1])).trans (keeps_append i1 e2 (by rw [m2]))).trans
                (keeps_append i2 e3 p3)⟩
  | copy i =>
    simp only [State.step, bind, Except.bind] at h
    cases ha : got s.meshes[i]? with
    | error e => rw [ha] at h; cases h
    | ok m =>
      rw [ha] at h
      simp only [Except.ok.injEq] at h
      subst h
      have hmem : m ∈ s.meshes := List.mem_of_getElem? (got_eq_ok.1 ha)
      refine ⟨⟨fun a ha => (hi.arrs a ha).append (l := []) (by simp), ?_, ?_⟩, keeps_append hi (l := []) (by simp)
        (List.prefix_append _ _)⟩
      · intro p hp
        have : p ∈ s.meshes := by
          rcases List.mem_append.1 hp with hp | hp
          · exact hp
          · rw [List.mem_singleton.1 hp]; exact hmem
        exact ⟨(hi.mats p this).1.append (l := []) (by simp), (hi.mats p this).2.append (l := []) (by simp)⟩
      · intro p hp x hx
        have : p ∈ s.meshes := by
          rcases List.mem_append.1 hp with hp | hp
          · exact hp
          · rw [List.mem_singleton.1 hp]; exact hmem
        exact hi.apart p this x hx

theorem run_spec {s t : State} {ops : List Op} (hi : Inv s) (h : s.run ops = some t) : Inv t ∧ Keeps s t := by
  induction ops generalizing s with
  | nil => simp only [State.run, Option.some.injEq] at h; subst h; exact ⟨hi, Keeps.refl s⟩
  | cons op ops ih =>
    simp only [State.run] at h
    cases hs : s.step op with
    | ok s' =>
      rw [hs] at h
      obtain ⟨i1, k1⟩ := step_spec hi hs
      obtain ⟨i2, k2⟩ := ih i1 h
      exact ⟨i2, k1.trans k2⟩
    | error e =>
      rw [hs] at h
      cases e <;> first | exact ih hi h | cases h

theorem Reachable.inv {s : State} (h : Reachable s) : Inv s := by
  obtain ⟨ops, h⟩ := h
  exact (run_spec inv_empty h).1

/-- What a contiguous three-channel array shows is where the matrix made of it looks. -/
theorem mat_of_contiguous {s : State} {a : Arr} (ho : ArrOk s a) (hc : checkArg a = .ok ()) {h w : ℕ} (hs : a.shape = [h, w, 3])
    (h0 : h ≠ 0) (w0 : w ≠ 0) :
    (mat3bFromArray a).rows = h ∧ (mat3bFromArray a).cols = w ∧ (mat3bFromArray a).buf = a.buf ∧
      (∀ i j k, i < h → j < w → k < 3 →
        s.byte a.buf ((mat3bFromArray a).off + (mat3bFromArray a).step * i + ((3 * j + k : ℕ) : ℤ)) = s.elem a i j k) ∧
      ∀ i j k, i < h → j < w → k < 3 → ∃ v, s.elem a i j k = some v := by
  unfold checkArg at hc
  split_ifs at hc with c1 c2 c3
  simp only [Bool.not_eq_false] at c1 c3
  obtain ⟨l1, l2⟩ := ho.2 c1
  obtain ⟨buf, off, shape, strides, isU8⟩ := a
  dsimp only at *
  subst hs
  obtain ⟨x, y, z, rfl⟩ : ∃ x y z, strides = [x, y, z] := by
    match strides, l1 with
    | [x, y, z], _ => exact ⟨x, y, z, rfl⟩
  have n0 : 0 ∉ [h, w, 3] := by simp [Ne.symm h0, Ne.symm w0]
  simp only [isContiguous, n0, decide_false, Bool.false_or, cStrides, List.zip_cons_cons, List.zip_nil_right, List.all_cons,
    List.all_nil, Bool.and_true, Bool.and_eq_true, Bool.or_eq_true, decide_eq_true_eq, List.prod_cons, List.prod_nil] at c3
  obtain ⟨cx, cy, cz⟩ := c3
  have hz : z = 1 := by rcases cz with cz | cz <;> simp_all
  subst hz
  rcases l2 with l2 | ⟨b, b1, b2, b3⟩
  · exact absurd l2 n0
  · simp only [extent, List.zip_cons_cons, List.zip_nil_right, List.foldl_cons, List.foldl_nil] at b2 b3
    refine ⟨rfl, rfl, rfl, ?_, ?_⟩
    · intro i j k hi hj hk
      simp only [State.elem, mat3bFromArray]
      congr 1
      have e1 : (if h = 1 then (3 * (w : ℤ)) else x) * i = x * i := by
        split_ifs with e
        · have : i = 0 := by omega
          simp [this]
        · rfl
      have e2 : (3 : ℤ) * j = y * j := by
        rcases cy with cy | cy
        · have : j = 0 := by omega
          simp [this]
        · rw [cy]; norm_num
      rw [e1]
      push_cast
      rw [e2]
      ring
    · intro i j k hi hj hk
      simp only [State.elem]
      rw [byte_isSome_iff b1]
      have bound : ∀ (st : ℤ) (n i : ℕ), i < n → min 0 (st * ((n : ℤ) - 1)) ≤ st * i ∧ st * i ≤ max 0 (st * ((n : ℤ) - 1)) := by
        intro st n i hin
        have h1 : (0 : ℤ) ≤ i := by positivity
        have h2 : (i : ℤ) ≤ n - 1 := by omega
        rcases le_total 0 st with hst | hst
        · have := mul_le_mul_of_nonneg_left h2 hst
          have := mul_nonneg hst h1
          exact ⟨le_trans (min_le_left _ _) this, le_trans (by assumption) (le_max_right _ _)⟩
        · have := mul_le_mul_of_nonpos_left h2 hst
          have := mul_nonpos_of_nonpos_of_nonneg hst h1
          exact ⟨le_trans (min_le_right _ _) (by assumption), le_trans this (le_max_left _ _)⟩
      have q1 := bound x h i hi
      have q2 := bound y w j hj
      have q3 := bound 1 3 k hk
      constructor <;> linarith

/-- Reading back an image of a mesh. -/
theorem read_mat {s : State} {m : Mat} (hm : MatOk s m) :
    ∃ s', s.arrayFromMat3b m = .ok s' := by
  unfold State.arrayFromMat3b
  obtain ⟨l, hl⟩ : ∃ l, s.bytes m.buf m.off (m.rows * m.cols * 3) = some l := by
    apply bytes_isSome
    rcases hm with ⟨h1, -⟩ | ⟨-, h1, -, b, h3, h4⟩
    · intro i hi; simp [h1] at hi
    · intro i hi
      rw [byte_isSome_iff h3, h1, h4]
      constructor <;> omega
  rw [hl]
  exact ⟨_, rfl⟩

/-- The bytes of an image of a mesh. -/
def State.pixel (s : State) (m : Mat) (p : ℕ) : Option ℕ := s.byte m.buf p

theorem read_elem {s s' : State} {m : Mat} (hm : MatOk s m) (h : s.arrayFromMat3b m = .ok s') :
    ∃ a, s'.arrays = s.arrays ++ [a] ∧ a.buf = s.bufs.length ∧ a.isU8 = true ∧ a.shape = [m.rows, m.cols, 3] ∧
      checkArg a = .ok () ∧
      ∀ i j k, i < m.rows → j < m.cols → k < 3 → s'.elem a i j k = s.pixel m (3 * m.cols * i + (3 * j + k)) := by
  obtain ⟨data, e1, e2, e3, e4, e5⟩ := arrayFromMat3b_spec h
  refine ⟨_, e4, rfl, rfl, rfl, ?_, ?_⟩
  · simp [checkArg, isContiguous, cStrides]
  · intro i j k hi hj hk
    rcases hm with ⟨h1, -⟩ | ⟨-, h1, -, -⟩
    · omega
    · simp only [State.elem, cStrides, State.pixel]
      have hp : 3 * m.cols * i + (3 * j + k) < m.rows * m.cols * 3 := by
        calc 3 * m.cols * i + (3 * j + k) < 3 * m.cols * i + 3 * m.cols := by omega
          _ = (i + 1) * (3 * m.cols) := by ring
          _ ≤ m.rows * (3 * m.cols) := Nat.mul_le_mul_right _ (by omega)
          _ = m.rows * m.cols * 3 := by ring
      have := e5 _ hp
      rw [h1, zero_add] at this
      rw [← this]
      have e : ((0 : ℤ) + (([m.cols, 3].prod : ℕ) : ℤ) * i + (([3].prod : ℕ) : ℤ) * j + (([] : List ℕ).prod : ℤ) * k) =
          ((3 * m.cols * i + (3 * j + k) : ℕ) : ℤ) := by
        simp; ring
      rw [e]
      unfold State.byte
      rw [if_pos (by positivity), e1]
      simp only [Int.toNat_natCast]
      simp

/-- A texture taken from an array. -/
theorem clone_of_arr {s : State} {a : Arr} (ho : ArrOk s a) (hc : checkArg a = .ok ()) {h w : ℕ} (hs : a.shape = [h, w, 3]) :
    ∃ s' m', s.clone (mat3bFromArray a) = .ok (s', m') ∧
      (h = 0 ∨ w = 0 → m'.rows = 0 ∧ m'.cols = 0) ∧
      (h ≠ 0 → w ≠ 0 → m'.rows = h ∧ m'.cols = w ∧ ∀ i j k, i < h → j < w → k < 3 →
        s'.pixel m' (3 * w * i + (3 * j + k)) = s.elem a i j k) := by
  have hrc : (mat3bFromArray a).rows = h ∧ (mat3bFromArray a).cols = w ∨ (mat3bFromArray a).rows = 0 ∧ (h = 0 ∨ w = 0) := by
    unfold mat3bFromArray
    rw [hs]
    cases hst : a.strides with
    | nil =>
      refine .inr ⟨rfl, ?_⟩
      by_contra hne
      push Not at hne
      unfold checkArg at hc
      split_ifs at hc with c1 c2 c3
      have := (ho.2 (by simpa using c1)).1
      rw [hs, hst] at this
      simp at this
    | cons x l => exact .inl ⟨rfl, rfl⟩
  by_cases hz : h = 0 ∨ w = 0
  · refine ⟨s, ⟨s.bufs.length, 0, 0, 0, 0⟩, ?_, fun _ => ⟨rfl, rfl⟩, fun h0 w0 => ?_⟩
    · unfold State.clone
      rw [if_pos]
      rcases hrc with ⟨r1, r2⟩ | ⟨r1, -⟩
      · rw [r1, r2]; exact hz
      · exact .inl r1
    · rcases hz with hz | hz <;> contradiction
  · push Not at hz
    obtain ⟨r1, r2, r3, r4, r5⟩ := mat_of_contiguous ho hc hs hz.1 hz.2
    have hrows : ∃ rows, s.matRows (mat3bFromArray a) = some rows := by
      unfold State.matRows
      have key : ∀ n, n ≤ h → ∃ rows, ((List.range n).mapM fun i : ℕ => s.bytes (mat3bFromArray a).buf
          ((mat3bFromArray a).off + (mat3bFromArray a).step * (i : ℤ)) (3 * (mat3bFromArray a).cols)) = some rows := by
        intro n
        induction n with
        | zero => intro _; exact ⟨[], rfl⟩
        | succ n ih =>
          intro hn
          obtain ⟨rows, hr⟩ := ih (by omega)
          obtain ⟨l, hl⟩ : ∃ l, s.bytes (mat3bFromArray a).buf
              ((mat3bFromArray a).off + (mat3bFromArray a).step * (n : ℤ)) (3 * (mat3bFromArray a).cols) = some l := by
            apply bytes_isSome
            intro t ht
            rw [r2] at ht
            have := r4 n (t / 3) (t % 3) (by omega) (by omega) (by omega)
            rw [show 3 * (t / 3) + t % 3 = t by omega, ← r3] at this
            rw [this]
            exact r5 n (t / 3) (t % 3) (by omega) (by omega) (by omega)
          exact ⟨rows ++ [l], by rw [List.range_succ, List.mapM_append, hr]; simp [hl]⟩
      rw [r1]
      exact key h le_rfl
    obtain ⟨rows, hr⟩ := hrows
    have hcl : ∃ x, s.clone (mat3bFromArray a) = .ok x := by
      unfold State.clone
      rw [if_neg (by rw [r1, r2]; push Not; exact hz), hr]
      exact ⟨_, rfl⟩
    obtain ⟨⟨s', m'⟩, hcl⟩ := hcl
    refine ⟨s', m', hcl, fun h0 => ?_, fun _ _ => ?_⟩
    · rcases h0 with h0 | h0
      · exact absurd h0 hz.1
      · exact absurd h0 hz.2
    · obtain ⟨-, -, -, -, -, -, k⟩ := clone_spec hcl
      obtain ⟨k1, k2, k3⟩ := k (by rw [r1]; exact hz.1) (by rw [r2]; exact hz.2)
      refine ⟨by rw [k1, r1], by rw [k2, r2], fun i j k hi hj hk => ?_⟩
      rw [← r4 i j k hi hj hk, ← r3, ← k3 i (3 * j + k) (by rw [r1]; exact hi) (by rw [r2]; omega), r2]
      rfl

theorem clone_arrOk {s s' : State} {m m' : Mat} {a : Arr} (h : s.clone m = .ok (s', m')) (ho : ArrOk s a) : ArrOk s' a := by
  obtain ⟨-, -, ⟨l, e⟩, -⟩ := clone_spec h
  exact ho.append e

theorem byte_append {s s' : State} {l : List (List ℕ)} {buf : ℕ} (e : s'.bufs = s.bufs ++ l) (hb : buf < s.bufs.length) (pos : ℤ) :
    s'.byte buf pos = s.byte buf pos := by
  unfold State.byte
  rw [e, List.getElem?_append_left hb]

theorem elem_append {s s' : State} {l : List (List ℕ)} {a : Arr} (e : s'.bufs = s.bufs ++ l) (ho : ArrOk s a) (i j k : ℕ) :
    s'.elem a i j k = s.elem a i j k := by
  unfold State.elem
  split
  · exact byte_append e ho.1 _
  · rfl

/-- The image shows the given array. -/
def Holds (s : State) (m : Mat) (h w : ℕ) (px : ℕ → ℕ → ℕ → Option ℕ) : Prop :=
  (h = 0 ∨ w = 0 → m.rows = 0 ∧ m.cols = 0) ∧
    (h ≠ 0 → w ≠ 0 → m.rows = h ∧ m.cols = w ∧ ∀ i j k, i < h → j < w → k < 3 → s.pixel m (3 * w * i + (3 * j + k)) = px i j k)

theorem Holds.buf {s s' : State} {m : Mat} {h w : ℕ} {px : ℕ → ℕ → ℕ → Option ℕ} (H : Holds s m h w px)
    (e : m.rows ≠ 0 → s'.bufs[m.buf]? = s.bufs[m.buf]?) : Holds s' m h w px := by
  refine ⟨H.1, fun h0 w0 => ?_⟩
  obtain ⟨h1, h2, h3⟩ := H.2 h0 w0
  refine ⟨h1, h2, fun i j k hi hj hk => ?_⟩
  rw [← h3 i j k hi hj hk]
  unfold State.pixel State.byte
  rw [e (by rw [h1]; exact h0)]

/-- Making a mesh of two three-channel arrays. -/
theorem newMesh_holds {s : State} {a b : Arr} (ha : ArrOk s a) (hb : ArrOk s b)
    (ca : checkArg a = .ok ()) (cb : checkArg b = .ok ()) {h w h' w' : ℕ} (sa : a.shape = [h, w, 3]) (sb : b.shape = [h', w', 3]) :
    ∃ s' p, s.newMesh a b = .ok s' ∧ s'.meshes = s.meshes ++ [p] ∧ s'.arrays = s.arrays ∧
      Holds s' p.1 h w (fun i j k => s.elem a i j k) ∧ Holds s' p.2 h' w' (fun i j k => s.elem b i j k) := by
  obtain ⟨s1, m1, c1, d1, d2⟩ := clone_of_arr ha ca sa
  obtain ⟨s2, m2, c2, d3, d4⟩ := clone_of_arr (clone_arrOk c1 hb) cb sb
  obtain ⟨a1, a2, ⟨l1, a3⟩, a4, a5, -⟩ := clone_spec c1
  obtain ⟨b1, b2, ⟨l2, b3⟩, b4, b5, -⟩ := clone_spec c2
  refine ⟨{ s2 with meshes := s2.meshes ++ [(m1, m2)] }, (m1, m2), ?_, by dsimp only; rw [b2, a2], by dsimp only; rw [b1, a1], ?_, ?_⟩
  · unfold State.newMesh
    simp only [bind, Except.bind, ca, cb, c1, c2]
  · have H : Holds s1 m1 h w (fun i j k => s.elem a i j k) := ⟨d1, d2⟩
    exact H.buf (fun hr => by dsimp only; rw [b3, List.getElem?_append_left (a4.buf_lt hr)])
  · have H : Holds s2 m2 h' w' (fun i j k => s1.elem b i j k) := ⟨d3, d4⟩
    have e : (fun i j k => s1.elem b i j k) = (fun i j k => s.elem b i j k) := by
      funext i j k; exact elem_append a3 hb i j k
    rw [e] at H
    exact H.buf (fun _ => rfl)

end Texture
end Sumo
