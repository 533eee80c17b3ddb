import Verif.Model.Mesh
import Verif.Spec.Mesh
import Verif.Spec.Geometry
import Verif.Lemmas.Geometry
import Mathlib.Tactic.Linarith
import Mathlib.Tactic.Ring
import Mathlib.Tactic.LinearCombination
import Mathlib.Tactic.FieldSimp
import Mathlib.Tactic.NormNum
import Mathlib.Tactic.Positivity

/-!
# Helper lemmas for meshes
-/

set_option linter.unusedSectionVars false

namespace Sumo
open MeshSpec

/-! ### Renumbering -/

theorem foldl_set_length {α : Type} (l : List (ℕ × α)) (a : List α) :
    (l.foldl (fun a p => a.set p.1 p.2) a).length = a.length := by
  induction l generalizing a with
  | nil => rfl
  | cons p l ih => rw [List.foldl_cons, ih, List.length_set]

theorem foldl_set_other {α : Type} (l : List (ℕ × α)) (a : List α) (j : ℕ) (h : ∀ p ∈ l, p.1 ≠ j) :
    (l.foldl (fun a p => a.set p.1 p.2) a)[j]? = a[j]? := by
  induction l generalizing a with
  | nil => rfl
  | cons p l ih =>
    rw [List.foldl_cons, ih _ (fun q hq => h q (by simp [hq])), List.getElem?_set_ne (h p (by simp))]

theorem foldl_set_mem {α : Type} (l : List (ℕ × α)) (a : List α) (hn : (l.map Prod.fst).Nodup)
    (hlt : ∀ p ∈ l, p.1 < a.length) (p : ℕ × α) (hp : p ∈ l) :
    (l.foldl (fun a p => a.set p.1 p.2) a)[p.1]? = some p.2 := by
  induction l generalizing a with
  | nil => simp at hp
  | cons q l ih =>
    rw [List.foldl_cons]
    simp only [List.map_cons, List.nodup_cons] at hn
    rcases List.mem_cons.1 hp with rfl | hp
    · rw [foldl_set_other, List.getElem?_set_self (hlt p (by simp))]
      intro r hr he
      exact hn.1 (he ▸ List.mem_map_of_mem hr)
    · exact ih _ hn.2 (fun r hr => by rw [List.length_set]; exact hlt r (by simp [hr])) hp

theorem assemble_spec {α : Type} {junk : α} {n : ℕ} {r : List ℕ} {b a : List α}
    (h : TexturedMesh.assemble junk n r b = some a) (hr : r.Nodup) :
    (∀ i j : ℕ, r[i]? = some j → a[j]? = b[i]?) ∧ (∀ k : ℕ, a[n + k]? = b[r.length + k]?) ∧
      a.length = n + (b.length - r.length) := by
  unfold TexturedMesh.assemble at h
  split_ifs at h with h1 h2
  simp only [Option.some.injEq] at h
  subst h
  have hlt : ∀ j ∈ r, j < n := by
    intro j hj
    by_contra hc
    apply h2
    rw [List.any_eq_true]
    exact ⟨j, hj, by simpa using hc⟩
  have hlen := foldl_set_length (r.zip b) (List.replicate n junk)
  have hz : (r.zip b).map Prod.fst = r := List.map_fst_zip (by omega)
  refine ⟨?_, ?_, ?_⟩
  · intro i j hij
    have hj := hlt j (List.mem_of_getElem? hij)
    obtain ⟨hi, -⟩ := List.getElem?_eq_some_iff.1 hij
    have hib : i < b.length := by omega
    have hmem : (j, b[i]) ∈ r.zip b := by
      rw [List.mem_iff_getElem?]
      refine ⟨i, ?_⟩
      rw [List.getElem?_zip_eq_some]
      exact ⟨hij, by simp [hib]⟩
    rw [List.getElem?_append_left (by rw [hlen, List.length_replicate]; exact hj)]
    have := foldl_set_mem (r.zip b) (List.replicate n junk) (by rw [hz]; exact hr)
      (fun p hp => by
        rw [List.length_replicate]
        exact hlt _ (by rw [← hz]; exact List.mem_map_of_mem hp)) _ hmem
    rw [this]
    simp [hib]
  · intro k
    rw [List.getElem?_append_right (by rw [hlen, List.length_replicate]; omega), hlen, List.length_replicate,
      List.getElem?_drop]
    congr 2
    omega
  · rw [List.length_append, hlen, List.length_replicate, List.length_drop]

theorem assemble_isSome {α : Type} (junk : α) {n : ℕ} {r : List ℕ} {b : List α} (h1 : r.length ≤ b.length)
    (h2 : ∀ j ∈ r, j < n) : ∃ a, TexturedMesh.assemble junk n r b = some a := by
  unfold TexturedMesh.assemble
  rw [if_neg (by omega), if_neg]
  · exact ⟨_, rfl⟩
  · rw [List.any_eq_true]
    rintro ⟨j, hj, hd⟩
    have := h2 j hj
    simp at hd
    omega

theorem renumber_ok {K I : Type} {jv : Vec3 K} {ju : K × K} {m m' : TexturedMesh K I} {n : ℕ} {r : List ℕ}
    (h : m.renumber jv ju n r = some m') :
    TexturedMesh.assemble jv n r m.vertices = some m'.vertices ∧
    TexturedMesh.assemble jv n r m.normals = some m'.normals ∧
    TexturedMesh.assemble ju n r m.uvCoords = some m'.uvCoords ∧
    m'.indices = m.indices.map (fun index => if index < r.length then r[index]?.getD 0 else index + n) ∧
    m'.baseColor = m.baseColor ∧ m'.metallicRoughness = m.metallicRoughness ∧ m'.material = m.material := by
  unfold TexturedMesh.renumber at h
  simp only [Option.bind_eq_bind, Option.bind_eq_some_iff, Option.some.injEq] at h
  obtain ⟨vs, h1, ns, h2, uv, h3, rfl⟩ := h
  exact ⟨h1, h2, h3, rfl, rfl, rfl, rfl⟩

/-! ### Merging -/

theorem merge_vertices {K : Type} (m m2 : Mesh K) (k : ℕ) :
    (m.merge m2 k).vertices = m.vertices ++ m2.vertices.drop k := by
  unfold Mesh.merge
  split_ifs with h
  · rfl
  · rw [List.drop_eq_nil_of_le (by omega), List.append_nil]

theorem merge_normals {K : Type} (m m2 : Mesh K) (k : ℕ) (h2 : m2.normals.length = m2.vertices.length) :
    (m.merge m2 k).normals = m.normals ++ m2.normals.drop k := by
  unfold Mesh.merge
  split_ifs with h
  · rfl
  · rw [List.drop_eq_nil_of_le (by omega), List.append_nil]

theorem merge_indices {K : Type} (m m2 : Mesh K) (k : ℕ) :
    (m.merge m2 k).indices = m.indices ++ m2.indices.map (fun i => if i < k then i else i + m.vertices.length - k) := by
  unfold Mesh.merge
  split_ifs with h <;> rfl

theorem merge_material {K : Type} (m m2 : Mesh K) (k : ℕ) : (m.merge m2 k).material = m.material := by
  unfold Mesh.merge
  split_ifs with h <;> rfl

/-- Attribute lists merged like `Mesh.merge` does. -/
theorem corners_merge {α : Type} (a b : List α) (idx idx2 : List ℕ) (k : ℕ) (hk : k ≤ a.length)
    (hidx : InRange a.length idx) (hcommon : ∀ i < k, b[i]? = a[i]?) :
    corners (a ++ b.drop k) (idx ++ idx2.map (fun i => if i < k then i else i + a.length - k)) =
      corners a idx ++ corners b idx2 := by
  unfold corners
  rw [List.map_append, List.map_map]
  congr 1
  · apply List.map_congr_left
    intro i hi
    rw [List.getElem?_append_left (hidx i hi)]
  · apply List.map_congr_left
    intro i _
    simp only [Function.comp]
    split_ifs with h
    · rw [List.getElem?_append_left (by omega), hcommon i h]
    · rw [List.getElem?_append_right (by omega), List.getElem?_drop]
      congr 1
      omega

/-! ### Normals -/

section
open Mesh

theorem norm_pos_of {v : Vec3 ℝ} (h : v.normSq > 0) : 0 < v.norm := Real.sqrt_pos.2 h

theorem norm_sq {v : Vec3 ℝ} (h : v.normSq > 0) : v.norm * v.norm = v.normSq := by
  unfold Vec3.norm; exact Real.mul_self_sqrt h.le

theorem normSq_nonneg' (v : Vec3 ℝ) : 0 ≤ v.normSq := by
  unfold Vec3.normSq Vec3.dot; nlinarith [mul_self_nonneg v.x, mul_self_nonneg v.y, mul_self_nonneg v.z]

theorem normSq_eq_zero' (v : Vec3 ℝ) : v.normSq = 0 ↔ v = 0 := by
  constructor
  · intro h
    unfold Vec3.normSq Vec3.dot at h
    have hx := mul_self_nonneg v.x
    have hy := mul_self_nonneg v.y
    have hz := mul_self_nonneg v.z
    ext
    · exact mul_self_eq_zero.1 (by linarith)
    · exact mul_self_eq_zero.1 (by linarith)
    · exact mul_self_eq_zero.1 (by linarith)
  · rintro rfl; simp [Vec3.normSq, Vec3.dot]

theorem normalized_zero : normalized 0 = 0 := by
  unfold normalized; rw [if_neg]; simp [Vec3.normSq, Vec3.dot]

theorem normalized_unit {v : Vec3 ℝ} (h : v ≠ 0) :
    (normalized v).normSq = 1 ∧ ∃ c, 0 < c ∧ normalized v = Vec3.smul c v := by
  have hp : v.normSq > 0 := lt_of_le_of_ne (normSq_nonneg' v) (Ne.symm (mt (normSq_eq_zero' v).1 h))
  have hn := norm_pos_of hp
  have hs := norm_sq hp
  unfold normalized
  rw [if_pos hp]
  constructor
  · unfold Vec3.normSq Vec3.dot at *
    simp only
    field_simp
    nlinarith
  · refine ⟨1 / v.norm, by positivity, ?_⟩
    unfold Vec3.smul
    ext <;> simp only <;> field_simp

theorem normSq_mulVec {R : Mat3 ℝ} (hR : IsOrthogonal R) (v : Vec3 ℝ) : (R.mulVec v).normSq = v.normSq := by
  unfold Vec3.normSq; exact dot_mulVec R hR v v

theorem normalized_mulVec {R : Mat3 ℝ} (hR : IsOrthogonal R) (v : Vec3 ℝ) :
    normalized (R.mulVec v) = R.mulVec (normalized v) := by
  unfold normalized
  have hn : (R.mulVec v).norm = v.norm := by unfold Vec3.norm; rw [normSq_mulVec hR]
  rw [normSq_mulVec hR, hn]
  split_ifs with h
  · have := (norm_pos_of h).ne'
    unfold Mat3.mulVec
    ext <;> simp only <;> field_simp
  · rfl

/-- The cross product is equivariant under rotations. -/
theorem cross_mulVec {R : Mat3 ℝ} (hR : IsRotation R) (v w : Vec3 ℝ) :
    (R.mulVec v).cross (R.mulVec w) = R.mulVec (v.cross w) := by
  have h := hR.cofactor
  unfold Vec3.cross Mat3.mulVec
  have c := Mat3.ext_iff.1 h
  simp only at c
  obtain ⟨c0, c1, c2, c3, c4, c5, c6, c7, c8⟩ := c
  ext <;> simp only
  · linear_combination -(v.y * w.z - v.z * w.y) * c0 - (v.z * w.x - v.x * w.z) * c1 - (v.x * w.y - v.y * w.x) * c2
  · linear_combination -(v.y * w.z - v.z * w.y) * c3 - (v.z * w.x - v.x * w.z) * c4 - (v.x * w.y - v.y * w.x) * c5
  · linear_combination -(v.y * w.z - v.z * w.y) * c6 - (v.z * w.x - v.x * w.z) * c7 - (v.x * w.y - v.y * w.x) * c8

theorem faceNormals_some {vs : List (Vec3 ℝ)} : ∀ (idx : List ℕ), InRange vs.length idx →
    ∃ ns, faceNormals vs idx = some ns
  | [], _ => ⟨[], by simp [faceNormals]⟩
  | [_], _ => ⟨[], by simp [faceNormals]⟩
  | [_, _], _ => ⟨[], by simp [faceNormals]⟩
  | i :: j :: k :: rest, h => by
    obtain ⟨ns, hns⟩ := faceNormals_some rest (fun x hx => h x (by simp [hx]))
    have hi := h i (by simp)
    have hj := h j (by simp)
    have hk := h k (by simp)
    rw [faceNormals]
    simp only [List.getElem?_eq_getElem hi, List.getElem?_eq_getElem hj, List.getElem?_eq_getElem hk, hns,
      Option.bind_eq_bind, Option.bind_some]
    exact ⟨_, rfl⟩

theorem faceNormals_spec {vs : List (Vec3 ℝ)} : ∀ (idx : List ℕ) (ns : List (Vec3 ℝ)), faceNormals vs idx = some ns →
    List.Forall₂ (fun (t : ℕ × ℕ × ℕ) n => ∃ a b c, vs[t.1]? = some a ∧ vs[t.2.1]? = some b ∧ vs[t.2.2]? = some c ∧
      n = normalized ((b - a).cross (c - a))) (triples idx) ns
  | [], ns, h => by simp [faceNormals] at h; subst h; simp [triples]
  | [_], ns, h => by simp [faceNormals] at h; subst h; simp [triples]
  | [_, _], ns, h => by simp [faceNormals] at h; subst h; simp [triples]
  | i :: j :: k :: rest, ns, h => by
    rw [faceNormals] at h
    simp only [Option.bind_eq_bind, Option.bind_eq_some_iff, Option.some.injEq] at h
    obtain ⟨a, ha, b, hb, c, hc, ns', hns, rfl⟩ := h
    rw [triples]
    exact List.Forall₂.cons ⟨a, b, c, ha, hb, hc, rfl⟩ (faceNormals_spec rest ns' hns)

theorem faceNormals_rotate {R : Mat3 ℝ} (hR : IsRotation R) (t : Vec3 ℝ) {vs : List (Vec3 ℝ)} : ∀ (idx : List ℕ),
    faceNormals (vs.map (fun v => R.mulVec v + t)) idx = (faceNormals vs idx).map (List.map R.mulVec)
  | [] => by simp [faceNormals]
  | [_] => by simp [faceNormals]
  | [_, _] => by simp [faceNormals]
  | i :: j :: k :: rest => by
    rw [faceNormals, faceNormals, faceNormals_rotate hR t rest]
    simp only [List.getElem?_map]
    rcases vs[i]? with _ | a
    · rfl
    rcases vs[j]? with _ | b
    · rfl
    rcases vs[k]? with _ | c
    · rfl
    rcases faceNormals vs rest with _ | ns
    · rfl
    simp only [Option.map_some, Option.bind_eq_bind, Option.bind_some, List.map_cons]
    have e : ∀ x y : Vec3 ℝ, R.mulVec x + t - (R.mulVec y + t) = R.mulVec (x - y) := by
      intro x y; rw [mulVec_sub]; ext <;> simp
    rw [e, e, cross_mulVec hR, normalized_mulVec hR.1]

theorem addNormals_length (idx : List ℕ) (ns : List (Vec3 ℝ)) : ∀ l : List (Vec3 ℝ),
    (addNormals l idx ns).length = l.length := by
  induction ns generalizing idx with
  | nil => intro l; unfold addNormals; split <;> simp_all
  | cons n ns ih =>
    intro l
    match idx with
    | [] => rfl
    | [_] => rfl
    | [_, _] => rfl
    | i :: j :: k :: rest => rw [addNormals, ih]; simp

theorem addNormals_spec : ∀ (ns : List (Vec3 ℝ)) (idx : List ℕ) (l : List (Vec3 ℝ)) (v : ℕ) (x : Vec3 ℝ),
    l[v]? = some x → (triples idx).length = ns.length →
    (addNormals l idx ns)[v]? = some (x + vsum (List.zipWith (share v) (triples idx) ns))
  | [], idx, l, v, x, hx, hl => by
    have : addNormals l idx [] = l := by unfold addNormals; split <;> simp_all
    rw [this, hx]
    simp only [List.zipWith_nil_right, Option.some.injEq]
    ext <;> simp [vsum]
  | n :: ns, [], _, _, _, _, hl => by simp [triples] at hl
  | n :: ns, [_], _, _, _, _, hl => by simp [triples] at hl
  | n :: ns, [_, _], _, _, _, _, hl => by simp [triples] at hl
  | n :: ns, i :: j :: k :: rest, l, v, x, hx, hl => by
    rw [addNormals]
    have hl' : (triples rest).length = ns.length := by simpa [triples] using hl
    have hx' : (((l.modify i (· + n)).modify j (· + n)).modify k (· + n))[v]? = some (x + share v (i, j, k) n) := by
      simp only [List.getElem?_modify, hx, Option.map_some, Option.map_eq_map, Option.some.injEq, share]
      by_cases h1 : i = v <;> by_cases h2 : j = v <;> by_cases h3 : k = v <;>
        simp only [h1, h2, h3, if_true, if_false, Option.map_some, Option.some.injEq] <;> (ext <;> simp <;> ring)
    rw [addNormals_spec ns rest _ v _ hx' hl']
    rw [triples, List.zipWith_cons_cons]
    simp only [Option.some.injEq]
    ext <;> simp [vsum, add_assoc]

end

/-! ### Clean-up -/

theorem cleanupLoop_some {K : Type} (keep : Vec3 K → Vec3 K → Vec3 K → Bool) {vs : List (Vec3 K)} :
    ∀ (idx : List ℕ), InRange vs.length idx → ∃ new, Mesh.cleanupLoop keep vs idx = some new
  | [], _ => ⟨[], by simp [Mesh.cleanupLoop]⟩
  | [_], _ => ⟨[], by simp [Mesh.cleanupLoop]⟩
  | [_, _], _ => ⟨[], by simp [Mesh.cleanupLoop]⟩
  | i :: j :: k :: rest, h => by
    obtain ⟨ns, hns⟩ := cleanupLoop_some keep rest (fun x hx => h x (by simp [hx]))
    have hi := h i (by simp)
    have hj := h j (by simp)
    have hk := h k (by simp)
    rw [Mesh.cleanupLoop]
    simp only [List.getElem?_eq_getElem hi, List.getElem?_eq_getElem hj, List.getElem?_eq_getElem hk, hns,
      Option.bind_eq_bind, Option.bind_some]
    split_ifs <;> exact ⟨_, rfl⟩

/-- `keep` on the corners of a triangle; false if a corner does not exist. -/
def keepAt {K : Type} (keep : Vec3 K → Vec3 K → Vec3 K → Bool) (vs : List (Vec3 K)) (t : ℕ × ℕ × ℕ) : Bool :=
  match vs[t.1]?, vs[t.2.1]?, vs[t.2.2]? with
  | some a, some b, some c => keep a b c
  | _, _, _ => false

theorem cleanupLoop_spec {K : Type} (keep : Vec3 K → Vec3 K → Vec3 K → Bool) {vs : List (Vec3 K)} :
    ∀ (idx new : List ℕ), Mesh.cleanupLoop keep vs idx = some new →
      triples new = (triples idx).filter (keepAt keep vs) ∧ new.length % 3 = 0 ∧ (∀ i ∈ new, i ∈ idx)
  | [], new, h => by simp [Mesh.cleanupLoop] at h; subst h; simp [triples]
  | [_], new, h => by simp [Mesh.cleanupLoop] at h; subst h; simp [triples]
  | [_, _], new, h => by simp [Mesh.cleanupLoop] at h; subst h; simp [triples]
  | i :: j :: k :: rest, new, h => by
    rw [Mesh.cleanupLoop] at h
    simp only [Option.bind_eq_bind, Option.bind_eq_some_iff] at h
    obtain ⟨a, ha, b, hb, c, hc, new', hn, hr⟩ := h
    obtain ⟨e1, e2, e3⟩ := cleanupLoop_spec keep rest new' hn
    have hk : keepAt keep vs (i, j, k) = keep a b c := by unfold keepAt; simp only [ha, hb, hc]
    split_ifs at hr with hc'
    · simp only [Option.some.injEq] at hr
      subst hr
      rw [triples, triples, List.filter_cons, hk, if_pos hc', e1]
      refine ⟨rfl, by simp only [List.length_cons]; omega, ?_⟩
      intro x hx
      simp only [List.mem_cons] at hx ⊢
      rcases hx with h | h | h | h
      · simp [h]
      · simp [h]
      · simp [h]
      · right; right; right; exact e3 x h
    · simp only [Option.some.injEq] at hr
      subst hr
      rw [triples, List.filter_cons, hk, if_neg hc', e1]
      refine ⟨rfl, e2, ?_⟩
      intro x hx
      simp [e3 x hx]

/-- Lists of length divisible by 3 are determined by their triples. -/
theorem triples_inj : ∀ (a b : List ℕ), a.length % 3 = 0 → b.length % 3 = 0 → triples a = triples b → a = b
  | [], [], _, _, _ => rfl
  | [], [_], _, h, _ => by simp at h
  | [], [_, _], _, h, _ => by simp at h
  | [], _ :: _ :: _ :: _, _, _, h => by simp [triples] at h
  | [_], _, h, _, _ => by simp at h
  | [_, _], _, h, _, _ => by simp at h
  | _ :: _ :: _ :: _, [], _, _, h => by simp [triples] at h
  | _ :: _ :: _ :: _, [_], _, h, _ => by simp at h
  | _ :: _ :: _ :: _, [_, _], _, h, _ => by simp at h
  | a :: b :: c :: l, a' :: b' :: c' :: l', h1, h2, h => by
    simp only [triples, List.cons.injEq, Prod.mk.injEq] at h
    simp only [List.length_cons] at h1 h2
    obtain ⟨⟨rfl, rfl, rfl⟩, h'⟩ := h
    rw [triples_inj l l' (by omega) (by omega) h']

end Sumo
