import Verif.Lemmas.Texture

/-! # C116: textures are kept -/

namespace Sumo
namespace Texture

/-- Reading an image that holds an array of pixels. -/
theorem read_holds {t : State} {m : Mat} {h w : ℕ} {px : ℕ → ℕ → ℕ → Option ℕ} (hm : MatOk t m) (H : Holds t m h w px) :
    ∃ t' c, t.arrayFromMat3b m = .ok t' ∧ t'.arrays = t.arrays ++ [c] ∧ (∀ x ∈ t.arrays, ArrOk t x → x.buf ≠ c.buf) ∧
      c.isU8 = true ∧ checkArg c = .ok () ∧ c.shape = (if h = 0 ∨ w = 0 then [0, 0, 3] else [h, w, 3]) ∧
      (h ≠ 0 → w ≠ 0 → ∀ i j k, i < h → j < w → k < 3 → t'.elem c i j k = px i j k) := by
  obtain ⟨t', ht⟩ := read_mat hm
  obtain ⟨c, c1, c2, c3, c4, c5, c6⟩ := read_elem hm ht
  refine ⟨t', c, ht, c1, fun x hx hxo => by rw [c2]; exact hxo.1.ne, c3, c5, ?_, ?_⟩
  · rw [c4]
    split_ifs with e
    · obtain ⟨e1, e2⟩ := H.1 e; rw [e1, e2]
    · push Not at e
      obtain ⟨e1, e2, -⟩ := H.2 e.1 e.2; rw [e1, e2]
  · intro h0 w0 i j k hi hj hk
    obtain ⟨e1, e2, e3⟩ := H.2 h0 w0
    rw [c6 i j k (by rw [e1]; exact hi) (by rw [e2]; exact hj) hk, e2]
    exact e3 i j k hi hj hk

theorem getElem?_prefix {α : Type} {l l' : List α} (h : l <+: l') {i : ℕ} {x : α} (hx : l[i]? = some x) : l'[i]? = some x := by
  obtain ⟨r, rfl⟩ := h
  exact getElem?_append_some hx

theorem isContiguous_iff {a : Arr} {h w c : ℕ} (hs : a.shape = [h, w, c]) {x y z : ℤ} (ht : a.strides = [x, y, z]) :
    isContiguous a.shape a.strides = true ↔ Packed a h w c := by
  unfold Packed
  rw [hs, ht]
  constructor
  · intro hc
    refine ⟨x, y, z, rfl, fun i j k hi hj hk => ?_⟩
    have n0 : 0 ∉ [h, w, c] := by simp; omega
    simp only [isContiguous, n0, decide_false, Bool.false_or, cStrides, List.zip_cons_cons, List.zip_nil_right, List.all_cons,
      List.all_nil, Bool.and_true, Bool.and_eq_true, Bool.or_eq_true, decide_eq_true_eq, List.prod_cons, List.prod_nil] at hc
    obtain ⟨cx, cy, cz⟩ := hc
    have e1 : x * i = ((w * c : ℕ) : ℤ) * i := by
      rcases cx with cx | cx
      · have : i = 0 := by omega
        simp [this]
      · rw [cx]; simp
    have e2 : y * j = (c : ℤ) * j := by
      rcases cy with cy | cy
      · have : j = 0 := by omega
        simp [this]
      · rw [cy]; simp
    have e3 : z * k = k := by
      rcases cz with cz | cz
      · have : k = 0 := by omega
        simp [this]
      · rw [cz]; simp
    rw [e1, e2, e3]
    push_cast
    ring
  · rintro ⟨x', y', z', e, H⟩
    simp only [List.cons.injEq, and_true] at e
    obtain ⟨rfl, rfl, rfl⟩ := e
    unfold isContiguous
    by_cases n0 : 0 ∈ [h, w, c]
    · simp [n0]
    · simp only [n0, decide_false, Bool.false_or, cStrides, List.zip_cons_cons, List.zip_nil_right, List.all_cons,
        List.all_nil, Bool.and_true, Bool.and_eq_true, Bool.or_eq_true, decide_eq_true_eq, List.prod_cons, List.prod_nil]
      simp only [List.mem_cons, List.not_mem_nil, or_false, not_or] at n0
      refine ⟨?_, ?_, ?_⟩
      · by_cases e : h = 1
        · exact .inl e
        · have := H 1 0 0 (by omega) (by omega) (by omega)
          right; simpa using this
      · by_cases e : w = 1
        · exact .inl e
        · have := H 0 1 0 (by omega) (by omega) (by omega)
          right; simpa using this
      · by_cases e : c = 1
        · exact .inl e
        · have := H 0 0 1 (by omega) (by omega) (by omega)
          right; simpa using this

/-- C116: an array is accepted as a texture exactly if its elements are bytes, it has three dimensions and its elements lie one
after the other; everything else is a `ValueError` and makes no object. -/
theorem C116_refused (s : State) (hs : Reachable s) (i j : ℕ) (a b : Arr) (ha : s.arrays[i]? = some a) (hb : s.arrays[j]? = some b)
    (hbad : (a.isU8 = false ∨ (∀ h w c, a.shape ≠ [h, w, c]) ∨ ∃ h w c, a.shape = [h, w, c] ∧ ¬ Packed a h w c) ∨
      (b.isU8 = false ∨ (∀ h w c, b.shape ≠ [h, w, c]) ∨ ∃ h w c, b.shape = [h, w, c] ∧ ¬ Packed b h w c)) :
    s.step (.newMesh i j) = .error .valueError := by
  have hi := hs.inv
  have key : ∀ a ∈ s.arrays, checkArg a = .error .valueError ∨ checkArg a = .ok () ∧ a.isU8 = true ∧
      ∃ h w c, a.shape = [h, w, c] ∧ Packed a h w c := by
    intro a ha
    unfold checkArg
    split_ifs with c1 c2 c3
    · exact .inl rfl
    · exact .inl rfl
    · exact .inl rfl
    · right
      simp only [Bool.not_eq_false] at c1 c3
      push Not at c2
      have hl := ((hi.arrs a ha).2 c1).1
      obtain ⟨h, w, c, hs⟩ := List.length_eq_three.1 c2
      obtain ⟨x, y, z, ht⟩ := List.length_eq_three.1 (hl.symm.trans c2)
      exact ⟨rfl, c1, h, w, c, hs, (isContiguous_iff hs ht).1 c3⟩
  have bad : ∀ a, a.isU8 = true → (∃ h w c, a.shape = [h, w, c] ∧ Packed a h w c) →
      ¬ (a.isU8 = false ∨ (∀ h w c, a.shape ≠ [h, w, c]) ∨ ∃ h w c, a.shape = [h, w, c] ∧ ¬ Packed a h w c) := by
    rintro a hu ⟨h, w, c, e, hp⟩ (h1 | h1 | ⟨h', w', c', e', h1⟩)
    · rw [hu] at h1; cases h1
    · exact h1 _ _ _ e
    · rw [e] at e'; simp only [List.cons.injEq, and_true] at e'
      obtain ⟨rfl, rfl, rfl⟩ := e'
      exact h1 hp
  simp only [State.step, bind, Except.bind, ha, hb, got, State.newMesh]
  rcases key a (List.mem_of_getElem? ha) with k | ⟨k1, k2, k3⟩
  · rw [k]
  · rw [k1]
    rcases key b (List.mem_of_getElem? hb) with k' | ⟨-, k2', k3'⟩
    · rw [k']
    · rcases hbad with hbad | hbad
      · exact absurd hbad (bad a k2 k3)
      · exact absurd hbad (bad b k2' k3')

theorem checkArg_of_packed {s : State} {a : Arr} {h w : ℕ} (ho : ArrOk s a) (hu : a.isU8 = true) (hs : a.shape = [h, w, 3])
    (hp : Packed a h w 3) : checkArg a = .ok () := by
  obtain ⟨x, y, z, ht, -⟩ := id hp
  unfold checkArg
  rw [if_neg (by simp [hu]), if_neg (by simp [hs]), if_neg (by simp [(isContiguous_iff hs ht).2 hp])]

/-- C116: two packed byte arrays of shapes `h×w×3` and `h'×w'×3` make a textured mesh, and whatever the program does afterwards --
writing into the two arrays, into arrays it got from meshes, making, rotating and copying other meshes -- asking the mesh for its
base colour or its metallic/roughness texture gives a fresh array with the shape and the elements of that array at
construction (`0×0×3` if it had no pixel). -/
theorem C116_kept_partial (s : State) (hs : Reachable s) (i j : ℕ) (a b : Arr) (ha : s.arrays[i]? = some a)
    (hb : s.arrays[j]? = some b) (h w h' w' : ℕ) (ua : a.isU8 = true) (ub : b.isU8 = true) (sa : a.shape = [h, w, 3])
    (sb : b.shape = [h', w', 3]) (pa : Packed a h w 3) (pb : Packed b h' w' 3) :
    ∃ s', s.step (.newMesh i j) = .ok s' ∧ s'.meshes.length = s.meshes.length + 1 ∧
      ∀ ops t, s'.run ops = some t →
        (∃ t' c, t.step (.baseColor s.meshes.length) = .ok t' ∧ t'.arrays = t.arrays ++ [c] ∧ (∀ x ∈ t.arrays, x.buf ≠ c.buf) ∧
          c.isU8 = true ∧ c.shape = (if h = 0 ∨ w = 0 then [0, 0, 3] else [h, w, 3]) ∧
          ∀ i j k, i < h → j < w → k < 3 → t'.elem c i j k = s.elem a i j k ∧ ∃ v, s.elem a i j k = some v) ∧
        (∃ t' c, t.step (.metallicRoughness s.meshes.length) = .ok t' ∧ t'.arrays = t.arrays ++ [c] ∧
          (∀ x ∈ t.arrays, x.buf ≠ c.buf) ∧
          c.isU8 = true ∧ c.shape = (if h' = 0 ∨ w' = 0 then [0, 0, 3] else [h', w', 3]) ∧
          ∀ i j k, i < h' → j < w' → k < 3 → t'.elem c i j k = s.elem b i j k ∧ ∃ v, s.elem b i j k = some v) := by
  have hi := hs.inv
  have oa := hi.arrs a (List.mem_of_getElem? ha)
  have ob := hi.arrs b (List.mem_of_getElem? hb)
  have ca := checkArg_of_packed oa ua sa pa
  have cb := checkArg_of_packed ob ub sb pb
  obtain ⟨s', p, n1, n2, n3, H1, H2⟩ := newMesh_holds oa ob ca cb sa sb
  have hst : s.step (.newMesh i j) = .ok s' := by simp only [State.step, bind, Except.bind, ha, hb, got, n1]
  refine ⟨s', hst, by rw [n2]; simp, fun ops t ht => ?_⟩
  obtain ⟨i1, k1⟩ := step_spec hi hst
  obtain ⟨i2, k2⟩ := run_spec i1 ht
  have hp' : s'.meshes[s.meshes.length]? = some p := by rw [n2]; simp
  have hp : t.meshes[s.meshes.length]? = some p := getElem?_prefix k2.1 hp'
  have m1 := i2.mats p (List.mem_of_getElem? hp)
  have q := k2.2 p (List.mem_of_getElem? hp')
  obtain ⟨t1, c1, r1, r2, r3, r4, -, r5, r6⟩ := read_holds m1.1 (H1.buf q.1)
  obtain ⟨t2, c2, u1, u2, u3, u4, -, u5, u6⟩ := read_holds m1.2 (H2.buf q.2)
  refine ⟨⟨t1, c1, ?_, r2, fun x hx => r3 x hx (i2.arrs x hx), r4, r5, fun i j k hi hj hk => ?_⟩,
    ⟨t2, c2, ?_, u2, fun x hx => u3 x hx (i2.arrs x hx), u4, u5, fun i j k hi hj hk => ?_⟩⟩
  · simp only [State.step, bind, Except.bind, hp, got, r1]
  · exact ⟨r6 (by omega) (by omega) i j k hi hj hk, (mat_of_contiguous oa ca sa (by omega) (by omega)).2.2.2.2 i j k hi hj hk⟩
  · simp only [State.step, bind, Except.bind, hp, got, u1]
  · exact ⟨u6 (by omega) (by omega) i j k hi hj hk, (mat_of_contiguous ob cb sb (by omega) (by omega)).2.2.2.2 i j k hi hj hk⟩

/-- Two images with the same pixels read the same. -/
theorem same_reads {s t s1 t1 : State} {m n : Mat} (hm : MatOk s m) (hn : MatOk t n) (e1 : n.rows = m.rows) (e2 : n.cols = m.cols)
    (e3 : ∀ p, p < m.rows * m.cols * 3 → t.pixel n p = s.pixel m p) (h1 : s.arrayFromMat3b m = .ok s1)
    (h2 : t.arrayFromMat3b n = .ok t1) :
    ∃ a b, s1.arrays = s.arrays ++ [a] ∧ t1.arrays = t.arrays ++ [b] ∧ SameArray s1 a t1 b := by
  obtain ⟨a, a1, -, a3, a4, -, a6⟩ := read_elem hm h1
  obtain ⟨b, b1, -, b3, b4, -, b6⟩ := read_elem hn h2
  refine ⟨a, b, a1, b1, by rw [a3, b3], by rw [a4, b4, e1, e2], m.rows, m.cols, a4, fun i j k hi hj hk => ?_⟩
  have hp : 3 * m.cols * i + (3 * j + k) < m.rows * m.cols * 3 := by
    calc 3 * m.cols * i + (3 * j + k) < 3 * m.cols * i + 3 * m.cols := by omega
      _ = (i + 1) * (3 * m.cols) := by ring
      _ ≤ m.rows * (3 * m.cols) := Nat.mul_le_mul_right _ (by omega)
      _ = m.rows * m.cols * 3 := by ring
  rw [a6 i j k hi hj hk, b6 i j k (by omega) (by omega) hk, e2, e3 _ hp]
  refine ⟨rfl, ?_⟩
  rcases hm with ⟨r0, -⟩ | ⟨-, -, -, bb, r3, r4⟩
  · omega
  · unfold State.pixel
    rw [byte_isSome_iff r3, r4]
    constructor <;> omega

theorem pixel_of_lt {m : Mat} {p : ℕ} (hp : p < m.rows * m.cols * 3) :
    ∃ i j k, i < m.rows ∧ j < m.cols ∧ k < 3 ∧ p = 3 * m.cols * i + (3 * j + k) := by
  have hc : 0 < m.cols := by
    rcases Nat.eq_zero_or_pos m.cols with h | h
    · simp [h] at hp
    · exact h
  have hd := Nat.div_add_mod p (3 * m.cols)
  have hm := Nat.mod_lt p (show 0 < 3 * m.cols by omega)
  refine ⟨p / (3 * m.cols), p % (3 * m.cols) / 3, p % (3 * m.cols) % 3, ?_, by omega, by omega, by omega⟩
  rw [Nat.div_lt_iff_lt_mul (by omega)]
  calc p < m.rows * m.cols * 3 := hp
    _ = m.rows * (3 * m.cols) := by ring

/-- C116: the mesh that `rotate` (or `transform`) makes, and the copy that passing through a `GltfModel` makes, have the textures of
the original: whatever happens in between, reading a texture of the new mesh gives what reading that of the original gave. -/
theorem C116_derived (s : State) (hs : Reachable s) (i : ℕ) (hlt : i < s.meshes.length) (op : Op)
    (hop : op = .rotate i ∨ op = .copy i) :
    ∃ s', s.step op = .ok s' ∧ s'.meshes.length = s.meshes.length + 1 ∧
      ∀ ops t, s'.run ops = some t → ∀ r r', (r = .baseColor i ∧ r' = .baseColor s.meshes.length) ∨
          (r = .metallicRoughness i ∧ r' = .metallicRoughness s.meshes.length) →
        ∃ s1 t1 a b, s.step r = .ok s1 ∧ t.step r' = .ok t1 ∧ s1.arrays = s.arrays ++ [a] ∧ t1.arrays = t.arrays ++ [b] ∧
          SameArray s1 a t1 b := by
  have hi := hs.inv
  obtain ⟨m, hm⟩ : ∃ m, s.meshes[i]? = some m := ⟨_, List.getElem?_eq_getElem hlt⟩
  have mo := hi.mats m (List.mem_of_getElem? hm)
  -- the new mesh, with the same pixels
  have key : ∃ s' p, s.step op = .ok s' ∧ s'.meshes = s.meshes ++ [p] ∧
      (p.1.rows = m.1.rows ∧ p.1.cols = m.1.cols ∧ ∀ q, q < m.1.rows * m.1.cols * 3 → s'.pixel p.1 q = s.pixel m.1 q) ∧
      (p.2.rows = m.2.rows ∧ p.2.cols = m.2.cols ∧ ∀ q, q < m.2.rows * m.2.cols * 3 → s'.pixel p.2 q = s.pixel m.2 q) := by
    rcases hop with rfl | rfl
    · obtain ⟨s1, h1⟩ := read_mat mo.1
      have i1 := hi.arrayFromMat3b h1
      obtain ⟨a, a1, a2, a3, a4, a5, a6⟩ := read_elem mo.1 h1
      obtain ⟨d1, e1, -, g1, -⟩ := arrayFromMat3b_spec h1
      have mo2 : MatOk s1 m.2 := mo.2.append e1
      obtain ⟨s2, h2⟩ := read_mat mo2
      have i2 := i1.arrayFromMat3b h2
      obtain ⟨b, b1, b2, b3, b4, b5, b6⟩ := read_elem mo2 h2
      obtain ⟨d2, e2, -, g2, -⟩ := arrayFromMat3b_spec h2
      have oa1 : ArrOk s1 a := i1.arrs a (by rw [a1]; simp)
      have oa : ArrOk s2 a := i2.arrs a (by rw [b1, a1]; simp)
      have ob : ArrOk s2 b := i2.arrs b (by rw [b1]; simp)
      obtain ⟨s', p, n1, n2, n3, H1, H2⟩ := newMesh_holds oa ob a5 b5 a4 b4
      have tr : ∀ {m p : Mat} (px : ℕ → ℕ → ℕ → Option ℕ) {s0 : State}, MatOk s0 m → Holds s' p m.rows m.cols px →
          (∀ i j k, i < m.rows → j < m.cols → k < 3 → px i j k = s0.pixel m (3 * m.cols * i + (3 * j + k))) →
          p.rows = m.rows ∧ p.cols = m.cols ∧ ∀ q, q < m.rows * m.cols * 3 → s'.pixel p q = s0.pixel m q := by
        intro m p px s0 hmo H hpx
        by_cases hz : m.rows = 0 ∨ m.cols = 0
        · obtain ⟨z1, z2⟩ := H.1 hz
          rcases hmo with ⟨y1, y2⟩ | ⟨⟨y1, y2⟩, -⟩
          · refine ⟨by rw [z1, y1], by rw [z2, y2], fun q hq => ?_⟩
            rw [y1] at hq; simp at hq
          · rcases hz with hz | hz <;> contradiction
        · push Not at hz
          obtain ⟨z1, z2, z3⟩ := H.2 hz.1 hz.2
          refine ⟨z1, z2, fun q hq => ?_⟩
          obtain ⟨i, j, k, hi', hj, hk, rfl⟩ := pixel_of_lt hq
          rw [z3 i j k hi' hj hk, hpx i j k hi' hj hk]
      refine ⟨s', p, ?_, by rw [n2, g2, g1], ?_, ?_⟩
      · simp only [State.step, bind, Except.bind, hm, got, h1, a1, h2, b1, List.getLast?_append, List.getLast?_singleton,
          Option.some_or, n1]
      · refine tr _ mo.1 H1 (fun i j k hi' hj hk => ?_)
        rw [elem_append e2 oa1, a6 i j k hi' hj hk]
      · refine tr _ mo.2 H2 (fun i j k hi' hj hk => ?_)
        rw [b6 i j k hi' hj hk]
        unfold State.pixel
        exact byte_append e1 (mo.2.buf_lt (by omega)) _
    · exact ⟨{ s with meshes := s.meshes ++ [m] }, m, by simp only [State.step, bind, Except.bind, hm, got], rfl,
        ⟨rfl, rfl, fun _ _ => rfl⟩, rfl, rfl, fun _ _ => rfl⟩
  obtain ⟨s', p, hst, hms, ⟨x1, x2, x3⟩, y1, y2, y3⟩ := key
  refine ⟨s', hst, by rw [hms]; simp, fun ops t ht r r' hr => ?_⟩
  obtain ⟨i1, k1⟩ := step_spec hi hst
  obtain ⟨i2, k2⟩ := run_spec i1 ht
  have hp' : s'.meshes[s.meshes.length]? = some p := by rw [hms]; simp
  have hp : t.meshes[s.meshes.length]? = some p := getElem?_prefix k2.1 hp'
  have m1 := i2.mats p (List.mem_of_getElem? hp)
  have q := k2.2 p (List.mem_of_getElem? hp')
  have pe : ∀ {n : Mat} {v : ℕ}, (n.rows ≠ 0 → t.bufs[n.buf]? = s'.bufs[n.buf]?) → n.rows ≠ 0 → t.pixel n v = s'.pixel n v := by
    intro n v h1 h2
    unfold State.pixel State.byte
    rw [h1 h2]
  have nz : ∀ {n : Mat} {v : ℕ}, v < n.rows * n.cols * 3 → n.rows ≠ 0 := by
    intro n v hv h0
    rw [h0] at hv; simp at hv
  rcases hr with ⟨rfl, rfl⟩ | ⟨rfl, rfl⟩
  · obtain ⟨s1, h1⟩ := read_mat mo.1
    obtain ⟨t1, h2⟩ := read_mat m1.1
    obtain ⟨a, b, ab⟩ := same_reads mo.1 m1.1 x1 x2
      (fun v hv => by rw [pe q.1 (by rw [x1]; exact nz hv), x3 v hv]) h1 h2
    exact ⟨s1, t1, a, b, by simp only [State.step, bind, Except.bind, hm, got, h1],
      by simp only [State.step, bind, Except.bind, hp, got, h2], ab⟩
  · obtain ⟨s1, h1⟩ := read_mat mo.2
    obtain ⟨t1, h2⟩ := read_mat m1.2
    obtain ⟨a, b, ab⟩ := same_reads mo.2 m1.2 y1 y2
      (fun v hv => by rw [pe q.2 (by rw [y1]; exact nz hv), y3 v hv]) h1 h2
    exact ⟨s1, t1, a, b, by simp only [State.step, bind, Except.bind, hm, got, h1],
      by simp only [State.step, bind, Except.bind, hp, got, h2], ab⟩

/-- C116 is false as a claim about everything the constructor accepts: an array of one or two channels is accepted, and the pixels
are read past its end. -/
theorem C116_channels_undefined (s : State) (hs : Reachable s) (i j : ℕ) (a b : Arr) (ha : s.arrays[i]? = some a)
    (hb : s.arrays[j]? = some b) (h w c h' w' : ℕ) (h0 : h ≠ 0) (w0 : w ≠ 0) (c0 : c ≠ 0) (c3 : c < 3) (ua : a.isU8 = true)
    (ub : b.isU8 = true) (sa : a.shape = [h, w, c]) (sb : b.shape = [h', w', 3]) (pa : Packed a h w c) (pb : Packed b h' w' 3)
    (data : List ℕ) (hd : s.bufs[a.buf]? = some data) (hl : a.off + ((h * w * c : ℕ) : ℤ) = data.length) :
    s.step (.newMesh i j) = .error .undefined := by
  have hi := hs.inv
  have ob := hi.arrs b (List.mem_of_getElem? hb)
  have cb := checkArg_of_packed ob ub sb pb
  obtain ⟨x, y, z, ht, hp⟩ := id pa
  have ca : checkArg a = .ok () := by
    unfold checkArg
    rw [if_neg (by simp [ua]), if_neg (by simp [sa]), if_neg (by simp [(isContiguous_iff sa ht).2 pa])]
  cases hc : s.clone (mat3bFromArray a) with
  | error e =>
    have : e = .undefined := by
      unfold State.clone at hc
      split_ifs at hc
      split at hc
      · cases hc; rfl
      · cases hc
    simp only [State.step, bind, Except.bind, ha, hb, got, State.newMesh, ca, cb, hc, this]
  | ok r =>
    exfalso
    obtain ⟨s', m'⟩ := r
    obtain ⟨-, -, -, mo, -, -, k⟩ := clone_spec hc
    have e : mat3bFromArray a = ⟨a.buf, a.off, h, w, if h = 1 then 3 * w else x⟩ := by
      unfold mat3bFromArray; rw [sa, ht]
    rw [e] at k
    obtain ⟨k1, k2, k3⟩ := k h0 w0
    dsimp only at k1 k2 k3
    have k4 := k3 (h - 1) (3 * w - 1) (by omega) (by omega)
    have some' : ∃ v, s'.byte m'.buf ((3 * w * (h - 1) + (3 * w - 1) : ℕ) : ℤ) = some v := by
      rcases mo with ⟨z1, -⟩ | ⟨-, -, -, bb, r3, r4⟩
      · rw [k1] at z1; contradiction
      · rw [byte_isSome_iff r3, r4, k1, k2]
        refine ⟨by positivity, ?_⟩
        obtain ⟨n, rfl⟩ := Nat.exists_eq_succ_of_ne_zero h0
        have : 3 * w * (n + 1 - 1) + (3 * w - 1) < (n + 1) * w * 3 := by
          have : (n + 1) * w * 3 = 3 * w * n + 3 * w := by ring
          rw [this, Nat.add_sub_cancel]; omega
        exact_mod_cast this
    rw [k4, byte_isSome_iff hd] at some'
    have hstep : (if h = 1 then 3 * (w : ℤ) else x) * ((h - 1 : ℕ) : ℤ) = ((w * c * (h - 1) : ℕ) : ℤ) := by
      split_ifs with e1
      · simp [e1]
      · have := hp 1 0 0 (by omega) (by omega) (by omega)
        have hx : x = ((w * c : ℕ) : ℤ) := by simpa using this
        rw [hx]; push_cast; ring
    rw [hstep] at some'
    have h2 := some'.2
    rw [← hl] at h2
    obtain ⟨n, rfl⟩ := Nat.exists_eq_succ_of_ne_zero h0
    have e3 : (n + 1) * w * c = w * c * n + w * c := by ring
    have e4 : w * c ≤ w * 2 := Nat.mul_le_mul_left _ (by omega)
    simp only [Nat.succ_eq_add_one, Nat.add_sub_cancel, e3] at h2
    omega

/-- C116 is false as a claim about everything the constructor accepts: of a 1×2 image with an alpha channel the second pixel comes
back as the alpha value of the first and two colours of the second. -/
theorem C116_false : ∃ s t a, ({} : State).run [.newArray [1, 2, 4] [10, 11, 12, 13, 20, 21, 22, 23], .newMesh 0 0] = some s ∧
    s.step (.baseColor 0) = .ok t ∧ t.arrays[1]? = some a ∧ a.shape = [1, 2, 3] ∧
    [t.elem a 0 1 0, t.elem a 0 1 1, t.elem a 0 1 2] = [some 13, some 20, some 21] ∧
    (∃ b, s.arrays[0]? = some b ∧ [s.elem b 0 1 0, s.elem b 0 1 1, s.elem b 0 1 2] = [some 20, some 21, some 22]) :=
  ⟨_, _, _, rfl, rfl, rfl, rfl, by decide, _, rfl, by decide⟩

/-- C116: for a colour of three entries the texture that `TexturedMesh.from_mesh` makes is uniform: four pixels of that colour. -/
theorem C116_uniform (color : List ℕ) (h : color.length = 3) :
    (uniformTexture color).length = 12 ∧ ∀ pixel channel, pixel < 4 → channel < 3 →
      (uniformTexture color)[3 * pixel + channel]? = color[channel]? := by
  obtain ⟨r, g, b, rfl⟩ := List.length_eq_three.1 h
  refine ⟨by simp [uniformTexture], fun p c hp hc => ?_⟩
  interval_cases p <;> interval_cases c <;> simp [uniformTexture]

/-- A colour of four entries gives a texture of four different pixels. -/
theorem C116_uniform_false : ∃ color, color.length = 4 ∧ (uniformTexture color).take 3 ≠ ((uniformTexture color).drop 3).take 3 :=
  ⟨[255, 0, 0, 255], rfl, by decide⟩

/-- A program that makes a texture, a reversed view of it, a mesh, and writes into the texture. -/
def demoOps : List Op :=
  [.newArray [2, 1, 3] [1, 2, 3, 4, 5, 6], .view 0 3 [2, 1, 3] [-3, 3, 1], .newArray [0, 5, 3] []]

/-- Non-vacuity of `C116_kept_partial` and `C116_refused`: the first array is packed, the reversed view is not. -/
example : ∃ s a b c, ({} : State).run demoOps = some s ∧ s.arrays[0]? = some a ∧ s.arrays[1]? = some b ∧ s.arrays[2]? = some c ∧
    a.shape = [2, 1, 3] ∧ Packed a 2 1 3 ∧ b.shape = [2, 1, 3] ∧ ¬ Packed b 2 1 3 ∧ Packed c 0 5 3 ∧
    s.elem a 1 0 2 = some 6 ∧ s.elem b 1 0 2 = some 3 := by
  refine ⟨_, _, _, _, rfl, rfl, rfl, rfl, rfl, ?_, rfl, ?_, ⟨15, 3, 1, rfl, by omega⟩, by decide, by decide⟩
  · refine ⟨3, 3, 1, rfl, fun i j k hi hj hk => ?_⟩
    push_cast; omega
  · rintro ⟨x, y, z, e, H⟩
    have h1 := H 1 0 0 (by omega) (by omega) (by omega)
    have : x = -3 := by simpa using congrArg List.head? e.symm
    subst this
    simp at h1

/-- Non-vacuity of `C116_kept_partial` and `C116_derived`: the texture is changed after the mesh was made, and read from the mesh,
its rotation and its copy. -/
example : ∃ s a, ({} : State).run (demoOps ++ [.newMesh 0 2, .write 0 5 99, .rotate 0, .copy 1, .baseColor 2, .write 5 0 77,
      .baseColor 2]) = some s ∧ s.meshes.length = 3 ∧ s.arrays[6]? = some a ∧ a.shape = [2, 1, 3] ∧
    s.elem a 1 0 2 = some 6 ∧ s.elem a 0 0 0 = some 1 ∧ (∃ b, s.arrays[0]? = some b ∧ s.elem b 1 0 2 = some 99) ∧
    (∃ b, s.arrays[5]? = some b ∧ s.elem b 0 0 0 = some 77) ∧ ∃ b, s.arrays[4]? = some b ∧ b.shape = [0, 0, 3] :=
  ⟨_, _, rfl, rfl, rfl, rfl, by decide, by decide, ⟨_, rfl, by decide⟩, ⟨_, rfl, by decide⟩, _, rfl, rfl⟩

/-- Non-vacuity of `C116_channels_undefined`: a grey image. -/
example : ∃ s a, ({} : State).run [.newArray [2, 2, 1] [1, 2, 3, 4], .newArray [1, 1, 3] [0, 0, 0]] = some s ∧
    s.arrays[0]? = some a ∧ a.shape = [2, 2, 1] ∧ s.bufs[a.buf]? = some [1, 2, 3, 4] ∧ a.off + ((2 * 2 * 1 : ℕ) : ℤ) = 4 ∧
    s.run [.newMesh 0 1] = none :=
  ⟨_, _, rfl, rfl, rfl, rfl, rfl, rfl⟩

end Texture
end Sumo
