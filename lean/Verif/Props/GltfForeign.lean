import Verif.Spec.GltfForeign
import Verif.Props.Gltf
import Verif.Lemmas.Category

/-!
# C157: models made by other programs; more on C69 and C95
-/

namespace Sumo
namespace Gltf
open ForeignSpec

theorem decodeMany_length' {α : Type} (c : Codec α) : ∀ (n : ℕ) (l : List UInt8), (decodeMany c n l).length = n
  | 0, _ => rfl
  | n + 1, l => by simp [decodeMany, decodeMany_length' c n]

theorem decodeMany_get {α : Type} (c : Codec α) : ∀ (n : ℕ) (l : List UInt8) (k : ℕ), k < n →
    (decodeMany c n l)[k]? = some (c.dec ((l.drop (k * c.size)).take c.size))
  | 0, _, _, h => absurd h (Nat.not_lt_zero _)
  | n + 1, l, 0, _ => by simp [decodeMany]
  | n + 1, l, k + 1, h => by
    rw [decodeMany, List.getElem?_cons_succ, decodeMany_get c n _ k (by omega), List.drop_drop]
    congr 4
    ring

theorem readAccessor_elements {α : Type} {c : Codec α} {M : Model} {i : ℤ} {size : Accessor → Option ℕ} {value : List UInt8 → α}
    {l : List α} (h : HasElements M i size value l) (hs : ∀ a n, M.accessors[i.toNat]? = some a → size a = some n → n = c.size)
    (hp : Packed M i c.size) (hv : ∀ b : List UInt8, b.length = c.size → value b = c.dec b) : M.readAccessor c i = .ok l := by
  obtain ⟨a, n, hi, ha, hn, hc, ⟨v, b, h1, h2, h3, h4⟩, he⟩ := h
  obtain rfl := hs a n ha hn
  have hst := hp a v ha h2
  have st : (if v.byteStride = 0 then c.size else v.byteStride) = c.size := by
    rcases hst with h | h
    · rw [if_pos h]
    · split_ifs <;> simp [h]
  have el : ∀ k, elementAt M a c.size k = if v.byteOffset + a.byteOffset + k * c.size + c.size ≤ b.length then
      some ((b.drop (v.byteOffset + a.byteOffset + k * c.size)).take c.size) else none := fun k => by
    simp only [elementAt, if_neg (not_lt.2 h1), h2, if_neg (not_lt.2 h3), h4, st]
  have room : a.count = 0 ∨ v.byteOffset + a.byteOffset + a.count * c.size ≤ b.length := by
    rcases Nat.eq_zero_or_pos a.count with h0 | h0
    · exact Or.inl h0
    · right
      have hk : a.count - 1 < l.length := by omega
      obtain ⟨y, hy, -⟩ := Option.map_eq_some_iff.1 (he (a.count - 1) _ (List.getElem?_eq_getElem hk))
      rw [el] at hy
      split_ifs at hy with hle
      have : a.count * c.size = (a.count - 1) * c.size + c.size := by
        conv_lhs => rw [show a.count = a.count - 1 + 1 by omega, Nat.add_mul, Nat.one_mul]
      omega
  unfold Model.readAccessor Model.accessor
  simp only [if_neg (not_lt.2 hi), ha, bind, Except.bind]
  unfold Model.readVector
  simp only [if_neg (not_lt.2 h1), h2, if_neg (not_lt.2 h3), h4, if_pos room, Except.ok.injEq]
  apply List.ext_getElem?
  intro k
  rcases Nat.lt_or_ge k a.count with hk | hk
  · rw [decodeMany_get c _ _ k hk, List.drop_drop]
    have hl : k < l.length := by omega
    obtain ⟨y, hy, hx⟩ := Option.map_eq_some_iff.1 (he k _ (List.getElem?_eq_getElem hl))
    rw [el] at hy
    split_ifs at hy with hle
    rw [List.getElem?_eq_getElem hl, ← hx, ← Option.some.inj hy, hv _ (by simp; omega)]
  · rw [List.getElem?_eq_none (by rw [decodeMany_length']; exact hk), List.getElem?_eq_none (by omega)]

theorem little_four {l : List UInt8} (h : l.length = 4) : little l = uintCodec.dec l := by
  match l, h with
  | [a, b, c, d], _ => simp [little, uintCodec]; ring

theorem little_two {l : List UInt8} (h : l.length = 2) : little l = ushortCodec.dec l := by
  match l, h with
  | [a, b], _ => simp [little, ushortCodec]

theorem floatAt_eq {l : List UInt8} {j : ℕ} (h : 4 * j + 4 ≤ l.length) : floatAt l j = floatCodec.dec ((l.drop (4 * j)).take 4) := by
  unfold floatAt
  rw [little_four (by simp; omega)]
  rfl

/-- **C157** (partial: not for indices of one byte, and only if nothing lies between the elements.) The indices of a primitive are
read as the glTF specification says. -/
theorem C157_indices_partial {M : Model} {p : Primitive} {l : List ℕ} (h : HasIndices M p l) (hb : NotBytes M p)
    (hp : ∀ n, Packed M p.indices n) : M.readIndices p = .ok l := by
  obtain ⟨a, n, hi, ha, hn, -⟩ := id h
  have hn : indexSize a.componentType = some n := hn
  have hacc : M.accessor p.indices = .ok a := by
    unfold Model.accessor; rw [if_neg (not_lt.2 hi), ha]
  unfold Model.readIndices
  simp only [hacc, bind, Except.bind]
  have nb := hb a ha
  have hs : ∀ a' n', M.accessors[p.indices.toNat]? = some a' → indexSize a'.componentType = some n' → n' = n := fun a' n' h1 h2 => by
    rw [ha] at h1
    obtain rfl := Option.some.inj h1
    rw [hn] at h2
    exact (Option.some.inj h2).symm
  split_ifs with h16
  · have n2 : n = 2 := by rw [h16] at hn; exact (Option.some.inj hn).symm
    exact readAccessor_elements h (fun a' n' h1 h2 => (hs a' n' h1 h2).trans n2) (hp _) fun b hb => little_two hb
  · have n4 : n = 4 := by
      unfold indexSize at hn
      split at hn <;> simp_all
    exact readAccessor_elements h (fun a' n' h1 h2 => (hs a' n' h1 h2).trans n4) (hp _) fun b hb => little_four hb

/-- **C157** (partial, as above.) Vertices, normals and texture coordinates are read as the glTF specification says. -/
theorem C157_attributes_partial {M : Model} {i : ℤ} :
    (∀ l, HasVectors M i l → Packed M i 12 → M.readAccessor vec3Codec i = .ok l) ∧
    ∀ l, HasPairs M i l → Packed M i 8 → M.readAccessor vec2Codec i = .ok l := by
  refine ⟨fun l h hp => readAccessor_elements h ?_ hp ?_, fun l h hp => readAccessor_elements h ?_ hp ?_⟩
  · intro a n _ h2
    split_ifs at h2
    exact (Option.some.inj h2).symm
  · intro b hb
    have hb : b.length = 12 := hb
    simp only [vec3Codec, Vec3.mk.injEq]
    refine ⟨?_, ?_, ?_⟩
    · rw [floatAt_eq (by omega)]; rfl
    · rw [floatAt_eq (by omega)]
    · rw [floatAt_eq (by omega)]
  · intro a n _ h2
    split_ifs at h2
    exact (Option.some.inj h2).symm
  · intro b hb
    have hb : b.length = 8 := hb
    simp only [vec2Codec, Prod.mk.injEq]
    refine ⟨?_, ?_⟩
    · rw [floatAt_eq (by omega)]; rfl
    · rw [floatAt_eq (by omega)]

/-- **C157** (partial, as above.) A primitive with indices, vertices, normals and a material is extracted with these. -/
theorem C157_mesh_partial {M : Model} {k : ℕ} {p : Primitive} {is : List ℕ} {vs ns : List (Vec3 F32)} {iv i_n : ℤ} {mat : GltfMaterial}
    (hk : M.meshes.flatten[k]? = some p) (hi : HasIndices M p is) (hb : NotBytes M p) (hpi : ∀ n, Packed M p.indices n)
    (hv : p.attributes.get? "POSITION" = some iv) (hvs : HasVectors M iv vs) (hpv : Packed M iv 12)
    (hn : p.attributes.get? "NORMAL" = some i_n) (hns : HasVectors M i_n ns) (hpn : Packed M i_n 12)
    (hm0 : 0 ≤ p.material) (hm : M.materials[p.material.toNat]? = some mat) :
    M.extractPrimitiveMesh k = .ok ⟨is, vs, ns, mat⟩ := by
  unfold Model.extractPrimitiveMesh
  simp only [Model.getPrimitiveMesh, hk, bind, Except.bind, C157_indices_partial hi hb hpi, Model.attributeOf, hv, hn,
    C157_attributes_partial.1 _ hvs hpv, C157_attributes_partial.1 _ hns hpn, Model.readMaterial, if_neg (not_lt.2 hm0), hm, pure, Except.pure]

/-- A triangle with indices of `size` bytes at stride `stride`, three vertices 16 bytes apart; view 1 has stride `vstride`. -/
def foreign (componentType size vstride : ℕ) : Model where
  buffers := [(List.range 3).flatMap (fun n => UInt8.ofNat n :: List.replicate (size - 1) 0) ++ List.replicate (12 - 3 * size) 7 ++
    (List.range 48).map UInt8.ofNat]
  bufferViews := [⟨0, 0, 3 * size, 0, 34963⟩, ⟨0, 12, 48, vstride, 34962⟩]
  accessors := [⟨0, 0, 3, componentType, 65, [], []⟩, ⟨1, 0, 3, 5126, 3, [], []⟩]
  meshes := [[⟨[("POSITION", 1), ("NORMAL", 1)], 0, 0, 4⟩]]
  materials := [⟨"", [], []⟩]

/-- The three vectors of the example. -/
def foreignVectors (stride : ℕ) : List (Vec3 F32) := (List.range 3).map fun k =>
  ⟨floatAt ((List.range 48).map UInt8.ofNat) (k * (stride / 4)), floatAt ((List.range 48).map UInt8.ofNat) (k * (stride / 4) + 1),
   floatAt ((List.range 48).map UInt8.ofNat) (k * (stride / 4) + 2)⟩

theorem foreign_indices (t n s : ℕ) (hn : (t = 5121 ∧ n = 1) ∨ (t = 5123 ∧ n = 2) ∨ (t = 5125 ∧ n = 4)) (hs : s = 0 ∨ s = 12 ∨ s = 16) :
    HasIndices (foreign t n s) ⟨[("POSITION", 1), ("NORMAL", 1)], 0, 0, 4⟩ [0, 1, 2] := by
  rcases hn with ⟨rfl, rfl⟩ | ⟨rfl, rfl⟩ | ⟨rfl, rfl⟩ <;> rcases hs with rfl | rfl | rfl <;>
  · refine ⟨_, _, by decide, rfl, rfl, rfl, ⟨_, _, by decide, rfl, by decide, rfl⟩, fun k x h => ?_⟩
    match k, h with
    | 0, h => obtain rfl := Option.some.inj h; decide +kernel
    | 1, h => obtain rfl := Option.some.inj h; decide +kernel
    | 2, h => obtain rfl := Option.some.inj h; decide +kernel

theorem foreign_vectors (t n : ℕ) (hn : (t = 5121 ∧ n = 1) ∨ (t = 5123 ∧ n = 2) ∨ (t = 5125 ∧ n = 4)) (s : ℕ) (hs : s = 12 ∨ s = 16) :
    HasVectors (foreign t n s) 1 (foreignVectors s) := by
  rcases hn with ⟨rfl, rfl⟩ | ⟨rfl, rfl⟩ | ⟨rfl, rfl⟩ <;> rcases hs with rfl | rfl <;>
  · refine ⟨_, _, by decide, rfl, rfl, rfl, ⟨_, _, by decide, rfl, by decide, rfl⟩, fun k x h => ?_⟩
    match k, h with
    | 0, h => obtain rfl := Option.some.inj h; decide +kernel
    | 1, h => obtain rfl := Option.some.inj h; decide +kernel
    | 2, h => obtain rfl := Option.some.inj h; decide +kernel

/-- The hypotheses of `C157_mesh_partial` are met: indices of two bytes, three packed vectors. -/
example : (foreign 5123 2 12).extractPrimitiveMesh 0 = .ok ⟨[0, 1, 2], foreignVectors 12, foreignVectors 12, ⟨"", [], []⟩⟩ :=
  C157_mesh_partial (p := ⟨[("POSITION", 1), ("NORMAL", 1)], 0, 0, 4⟩) rfl
    (foreign_indices 5123 2 12 (by simp) (by simp)) (fun a h => by obtain rfl := Option.some.inj h; decide)
    (fun n a v h h' => by obtain rfl := Option.some.inj h; obtain rfl := Option.some.inj h'; exact Or.inl rfl) (iv := 1) rfl
    (foreign_vectors 5123 2 (by simp) 12 (by simp))
    (fun a v h h' => by obtain rfl := Option.some.inj h; obtain rfl := Option.some.inj h'; exact Or.inr rfl) (i_n := 1) rfl
    (foreign_vectors 5123 2 (by simp) 12 (by simp))
    (fun a v h h' => by obtain rfl := Option.some.inj h; obtain rfl := Option.some.inj h'; exact Or.inr rfl) (by decide) rfl

/-- **C157** is false of the code: indices of one byte are read as if they had four, and the stride of a view is ignored; both
without an error, giving indices beyond the vertices and vectors that are not in the file. -/
theorem C157_false :
    (∃ M p l, HasIndices M p [0, 1, 2] ∧ M.readIndices p = .ok l ∧ l ≠ [0, 1, 2] ∧ ∃ i ∈ l, 3 ≤ i) ∧
    ∃ M l l', HasVectors M 1 l ∧ M.readAccessor vec3Codec 1 = .ok l' ∧ l' ≠ l := by
  refine ⟨⟨foreign 5121 1 12, ⟨[("POSITION", 1), ("NORMAL", 1)], 0, 0, 4⟩, [117571840, 117901063, 117901063],
    foreign_indices 5121 1 12 (by simp) (by simp), by decide +kernel, by decide, 117901063, by decide, by decide⟩,
    foreign 5123 2 16, foreignVectors 16, foreignVectors 12, foreign_vectors 5123 2 (by simp) 16 (by simp), ?_, ?_⟩
  · decide +kernel
  · decide +kernel

/-! ### C95: `same_size` of real models -/

/-- The numbers of indices and vertices. -/
def sizes (m : AnyMesh) : ℕ × ℕ := match m with
  | .inl m => (m.indices.length, m.vertices.length)
  | .inr m => (m.indices.length, m.vertices.length)

theorem extractMesh_get {M : Model} {ms : List AnyMesh} (h : M.primitiveMeshes = .ok ms) {i : ℕ} {m : AnyMesh} (hi : ms[i]? = some m) :
    M.extractMesh i = .ok m := by
  unfold Model.extractMesh
  simp only [h, bind, Except.bind, hi, pure, Except.pure]

theorem sameSizeFrom_eq {M N : Model} {ms ns : List AnyMesh} (hM : M.primitiveMeshes = .ok ms) (hN : N.primitiveMeshes = .ok ns) :
    ∀ l : List ℕ, (∀ i ∈ l, i < ms.length ∧ i < ns.length) →
      M.sameSizeFrom N l = .ok (decide (∀ i ∈ l, (ms[i]?).map sizes = (ns[i]?).map sizes))
  | [], _ => by simp [Model.sameSizeFrom]
  | i :: l, h => by
    have hi := h i (by simp)
    have e1 := extractMesh_get hM (List.getElem?_eq_getElem hi.1)
    have e2 := extractMesh_get hN (List.getElem?_eq_getElem hi.2)
    unfold Model.sameSizeFrom
    simp only [e1, e2, bind, Except.bind]
    rw [sameSizeFrom_eq hM hN l fun j hj => h j (by simp [hj])]
    have key : ∀ a b : AnyMesh, sizes a = sizes b ↔
        ((a.elim id TexturedMesh.toMesh).indices.length = (b.elim id TexturedMesh.toMesh).indices.length ∧
          (a.elim id TexturedMesh.toMesh).vertices.length = (b.elim id TexturedMesh.toMesh).vertices.length) := by
      intro a b
      cases a <;> cases b <;> simp [sizes]
    split_ifs with hc
    · congr 1
      rw [decide_eq_decide]
      simp only [List.mem_cons, forall_eq_or_imp, List.getElem?_eq_getElem hi.1, List.getElem?_eq_getElem hi.2, Option.map_some,
        Option.some.injEq]
      exact ⟨fun h => ⟨(key _ _).2 hc, h⟩, fun h => h.2⟩
    · congr 1
      rw [eq_comm, decide_eq_false_iff_not]
      intro hall
      have := hall i (by simp)
      simp only [List.getElem?_eq_getElem hi.1, List.getElem?_eq_getElem hi.2, Option.map_some, Option.some.injEq] at this
      exact hc ((key _ _).1 this)

theorem num_of_meshes {M : Model} {ms : List AnyMesh} (h : M.primitiveMeshes = .ok ms) : M.numPrimitiveMeshes = ms.length := by
  unfold Model.primitiveMeshes at h
  have := mapM_ok_length h
  simpa using this.symm

/-- **C95.** `GltfModel.same_size` of two models says whether they have as many meshes, with the same numbers of indices and of
vertices, mesh by mesh; in particular it recognises every model with the same meshes. -/
theorem C95_same_size {M N : Model} {ms ns : List AnyMesh} (hM : M.primitiveMeshes = .ok ms) (hN : N.primitiveMeshes = .ok ns) :
    M.sameSize N = .ok (decide (ms.map sizes = ns.map sizes)) := by
  have lm := num_of_meshes hM
  have ln := num_of_meshes hN
  unfold Model.sameSize
  split_ifs with h
  · congr 1
    rw [eq_comm, decide_eq_false_iff_not]
    intro e
    have := congrArg List.length e
    simp only [List.length_map] at this
    omega
  · push Not at h
    rw [sameSizeFrom_eq hM hN _ fun i hi => by simp only [List.mem_range] at hi; omega]
    congr 1
    rw [decide_eq_decide]
    constructor
    · intro hall
      apply List.ext_getElem?
      intro i
      simp only [List.getElem?_map]
      rcases Nat.lt_or_ge i ms.length with hi | hi
      · exact hall i (by simp only [List.mem_range]; omega)
      · rw [List.getElem?_eq_none hi, List.getElem?_eq_none (by omega)]
    · intro e i _
      have := congrArg (fun l => l[i]?) e
      simpa using this

/-- Two models of one mesh each, with a different number of vertices. -/
example : (({} : Model).addPrimitiveMesh ⟨[0, 0, 0], [exV], [exV], ⟨"", [], []⟩⟩).sameSize
    (({} : Model).addPrimitiveMesh ⟨[0, 0, 0], [exV, exV], [exV, exV], ⟨"", [], []⟩⟩) = .ok false := by
  rw [C95_same_size (ms := [.inl ⟨[0, 0, 0], [exV], [exV], ⟨"", [], []⟩⟩]) (ns := [.inl ⟨[0, 0, 0], [exV, exV], [exV, exV], ⟨"", [], []⟩⟩]) rfl rfl]
  decide +kernel

/-! ### C69: infinite coordinates -/

/-- Not a number (IEEE 754): all eight bits of the exponent set, and the fraction not zero. -/
def NotANumber (x : F32) : Prop := x.bits.toNat / 2 ^ 23 % 256 = 255 ∧ x.bits.toNat % 2 ^ 23 ≠ 0

/-- Infinity and minus infinity. -/
def plusInf : F32 := ⟨0x7F800000⟩
def minusInf : F32 := ⟨0xFF800000⟩

theorem isNaN_iff (x : F32) : x.isNaN = true ↔ NotANumber x := by
  have hb := x.bits.toNat_lt
  unfold F32.isNaN F32.magnitude NotANumber
  rw [decide_eq_true_iff]
  constructor <;> intro h
  · refine ⟨?_, ?_⟩ <;> omega
  · omega

theorem key_le {x : F32} (h : ¬ NotANumber x) : -2139095040 ≤ x.key ∧ x.key ≤ 2139095040 := by
  have hb := x.bits.toNat_lt
  have : ¬ x.isNaN = true := fun h' => h ((isNaN_iff x).1 h')
  simp only [F32.isNaN, decide_eq_true_eq, not_lt] at this
  unfold F32.key
  split_ifs <;> omega

theorem key_inf {x : F32} (h : ¬ NotANumber x) (hx : x.key = 2139095040) : x = plusInf := by
  have hb := x.bits.toNat_lt
  unfold F32.key F32.magnitude at hx
  have e : x.bits.toNat = 2139095040 := by split_ifs at hx <;> omega
  cases x with
  | mk b =>
    simp only [plusInf, F32.mk.injEq]
    exact UInt32.toNat_inj.1 e

theorem key_negInf {x : F32} (h : ¬ NotANumber x) (hx : x.key = -2139095040) : x = minusInf := by
  have hb := x.bits.toNat_lt
  unfold F32.key F32.magnitude at hx
  have e : x.bits.toNat = 4286578688 := by
    split_ifs at hx
    all_goals omega
  cases x with
  | mk b =>
    simp only [minusInf, F32.mk.injEq]
    exact UInt32.toNat_inj.1 e

theorem lt_of_numbers {a b : F32} (ha : ¬ NotANumber a) (hb : ¬ NotANumber b) : a.lt b = decide (a.key < b.key) := by
  have h1 : a.isNaN = false := by rw [← Bool.not_eq_true, isNaN_iff]; exact ha
  have h2 : b.isNaN = false := by rw [← Bool.not_eq_true, isNaN_iff]; exact hb
  simp [F32.lt, h1, h2]

theorem foldl_max_number : ∀ (l : List F32) (a : F32), ¬ NotANumber a → (∀ x ∈ l, ¬ NotANumber x) →
    ¬ NotANumber (l.foldl F32.max a) ∧ a.key ≤ (l.foldl F32.max a).key ∧ ∀ x ∈ l, x.key ≤ (l.foldl F32.max a).key
  | [], a, ha, _ => ⟨ha, le_rfl, by simp⟩
  | x :: l, a, ha, h => by
    have hx := h x (by simp)
    have hm : ¬ NotANumber (a.max x) ∧ a.key ≤ (a.max x).key ∧ x.key ≤ (a.max x).key := by
      unfold F32.max
      rw [lt_of_numbers ha hx]
      simp only [decide_eq_true_eq]
      split_ifs with hlt
      · exact ⟨hx, hlt.le, le_rfl⟩
      · exact ⟨ha, le_rfl, not_lt.1 hlt⟩
    obtain ⟨i1, i2, i3⟩ := foldl_max_number l (a.max x) hm.1 fun y hy => h y (by simp [hy])
    refine ⟨i1, hm.2.1.trans i2, fun y hy => ?_⟩
    rcases List.mem_cons.1 hy with rfl | hy
    · exact hm.2.2.trans i2
    · exact i3 y hy

theorem foldl_min_number : ∀ (l : List F32) (a : F32), ¬ NotANumber a → (∀ x ∈ l, ¬ NotANumber x) →
    ¬ NotANumber (l.foldl F32.min a) ∧ (l.foldl F32.min a).key ≤ a.key ∧ ∀ x ∈ l, (l.foldl F32.min a).key ≤ x.key
  | [], a, ha, _ => ⟨ha, le_rfl, by simp⟩
  | x :: l, a, ha, h => by
    have hx := h x (by simp)
    have hm : ¬ NotANumber (a.min x) ∧ (a.min x).key ≤ a.key ∧ (a.min x).key ≤ x.key := by
      unfold F32.min
      rw [lt_of_numbers hx ha]
      simp only [decide_eq_true_eq]
      split_ifs with hlt
      · exact ⟨hx, hlt.le, le_rfl⟩
      · exact ⟨ha, le_rfl, not_lt.1 hlt⟩
    obtain ⟨i1, i2, i3⟩ := foldl_min_number l (a.min x) hm.1 fun y hy => h y (by simp [hy])
    refine ⟨i1, i2.trans hm.2.1, fun y hy => ?_⟩
    rcases List.mem_cons.1 hy with rfl | hy
    · exact i2.trans hm.2.2
    · exact i3 y hy

/-- **C69** for infinite coordinates: among numbers, an infinite coordinate is the maximum stored, and minus infinity the minimum. -/
theorem C69_infinite (l : List F32) (h : ∀ x ∈ l, ¬ NotANumber x) :
    (plusInf ∈ l → maxOf l = plusInf) ∧ (minusInf ∈ l → minOf l = minusInf) := by
  have n1 : ¬ NotANumber F32.intMin := by unfold NotANumber; decide
  have n2 : ¬ NotANumber F32.intMax := by unfold NotANumber; decide
  obtain ⟨a1, -, a3⟩ := foldl_max_number l F32.intMin n1 h
  obtain ⟨b1, -, b3⟩ := foldl_min_number l F32.intMax n2 h
  refine ⟨fun hm => key_inf a1 (le_antisymm (key_le a1).2 ?_), fun hm => key_negInf b1 (le_antisymm ?_ (key_le b1).1)⟩
  · exact a3 _ hm
  · exact b3 _ hm

example : maxOf [⟨0x3F800000⟩, plusInf, ⟨0⟩] = plusInf ∧ ∀ x ∈ [(⟨0x3F800000⟩ : F32), plusInf, ⟨0⟩], ¬ NotANumber x := by
  unfold NotANumber; decide

end Gltf
end Sumo
