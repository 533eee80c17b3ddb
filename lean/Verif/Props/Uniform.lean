import Verif.Model.Uniform
import Verif.Spec.Box
import Verif.Props.Sample
import Mathlib.Tactic.IntervalCases

/-! # Meshes of one colour (C171) -/

namespace Sumo
namespace Uniform

/-! ### Specification -/

/-- The point is on one of the six faces of the box. -/
def OnSurface (b : Box3d ℝ) (q : Vec3 ℝ) : Prop :=
  BoxSpec.Mem b q ∧ (q.x = b.minCorner.x ∨ q.x = b.maxCorner.x ∨ q.y = b.minCorner.y ∨ q.y = b.maxCorner.y ∨ q.z = b.minCorner.z ∨
    q.z = b.maxCorner.z)

/-! ### Lemmas -/

theorem triples_forall₂ {α β : Type} {R : α → β → Prop} : ∀ {l : List α} {l' : List β}, List.Forall₂ R l l' →
    List.Forall₂ (fun t t' => R t.1 t'.1 ∧ R t.2.1 t'.2.1 ∧ R t.2.2 t'.2.2) (MeshSpec.triples l) (MeshSpec.triples l')
  | _, _, .nil => .nil
  | _, _, .cons _ .nil => .nil
  | _, _, .cons _ (.cons _ .nil) => .nil
  | _, _, .cons h1 (.cons h2 (.cons h3 h)) => .cons ⟨h1, h2, h3⟩ (triples_forall₂ h)

theorem mem_blocks {density : ℝ} : ∀ {ts : List (ColorPoint × ColorPoint × ColorPoint)} {blocks : List (List ColorPoint)},
    List.Forall₂ (SamplesOf density) ts blocks → ∀ s ∈ blocks.flatten, ∃ t ∈ ts, InTriangle t.1 t.2.1 t.2.2 s
  | _, _, .nil, s, hs => by simp at hs
  | _, _, .cons h hs', s, hs => by
    rw [List.flatten_cons, List.mem_append] at hs
    rcases hs with hs | hs
    · exact ⟨_, List.mem_cons_self, h.2 s hs⟩
    · obtain ⟨t, ht, hi⟩ := mem_blocks hs' s hs
      exact ⟨t, List.mem_cons_of_mem _ ht, hi⟩

theorem forall₂_mem_right {α β : Type} {R : α → β → Prop} : ∀ {l : List α} {l' : List β}, List.Forall₂ R l l' →
    ∀ b ∈ l', ∃ a ∈ l, R a b
  | _, _, .nil, b, hb => by simp at hb
  | _, _, .cons h hs, b, hb => by
    rcases List.mem_cons.1 hb with rfl | hb
    · exact ⟨_, List.mem_cons_self, h⟩
    · obtain ⟨a, ha, hr⟩ := forall₂_mem_right hs b hb
      exact ⟨a, List.mem_cons_of_mem _ ha, hr⟩

theorem pixel_uniform (r g b : ℕ) : (imageOf 2 2 (Texture.uniformTexture [r, g, b])).pixel 0 0 = ⟨r, g, b⟩ := by
  simp [imageOf, Texture.uniformTexture]

theorem texel_origin (r g b : ℕ) : texelVU (imageOf 2 2 (Texture.uniformTexture [r, g, b])) 0 0 = ⟨r, g, b⟩ := by
  unfold texelVU
  have : wrap ⌊(0 : ℝ) * ((imageOf 2 2 (Texture.uniformTexture [r, g, b])).rows : ℕ)⌋
      (imageOf 2 2 (Texture.uniformTexture [r, g, b])).rows = 0 := by simp [wrap]
  rw [this]
  have : wrap ⌊(0 : ℝ) * ((imageOf 2 2 (Texture.uniformTexture [r, g, b])).cols : ℕ)⌋
      (imageOf 2 2 (Texture.uniformTexture [r, g, b])).cols = 0 := by simp [wrap]
  rw [this, pixel_uniform]

theorem combine {α β γ : ℝ} (h : α + β + γ = 1) (c : Vec3 ℝ) : Vec3.smul α c + Vec3.smul β c + Vec3.smul γ c = c := by
  ext
  · simp [Vec3.smul]; linear_combination c.x * h
  · simp [Vec3.smul]; linear_combination c.y * h
  · simp [Vec3.smul]; linear_combination c.z * h

/-! ### C171 -/

/-- **C171.** A mesh with complete triangles and indices in range can be coloured with any colour of three entries; the result has the
geometry of the mesh; and however it is placed and sampled, every sample has exactly that colour, and the samples are those of the
triangles of the mesh. -/
theorem C171_colored (m : Mesh ℝ) (h3 : 3 ∣ m.indices.length) (hv : m.vertices.length = m.normals.length)
    (hi : MeshSpec.InRange m.vertices.length m.indices) (r g b : ℕ) :
    ∃ t, fromMesh m [r, g, b] = .ok t ∧ t.indices = m.indices ∧ t.vertices = m.vertices ∧ t.normals = m.normals ∧
      ∀ (rnd : ℕ → ℝ × ℝ) (_ : ∀ k, (0 ≤ (rnd k).1 ∧ (rnd k).1 ≤ 1) ∧ 0 ≤ (rnd k).2 ∧ (rnd k).2 ≤ 1) (pose : Pose3 ℝ) (density : ℝ),
        ∃ samples faces, sampleElement rnd [.textured t] pose density = .ok samples ∧
          List.Forall₂ (fun i (p : ColorPoint) => (∃ v, m.vertices[i]? = some v ∧ p.pos = pose.R.mulVec v + pose.t) ∧ p.color = ⟨r, g, b⟩)
            m.indices faces ∧
          SamplesAll density faces samples ∧ ∀ s ∈ samples, s.color = ⟨r, g, b⟩ := by
  refine ⟨⟨⟨m.indices, m.vertices, m.normals, TexturedMesh.defaultMaterial (!RgbImage.isEmpty defaultRoughness)⟩,
    List.replicate m.vertices.length (0, 0), imageOf 2 2 (Texture.uniformTexture [r, g, b]), defaultRoughness⟩, ?_, rfl, rfl, rfl, ?_⟩
  · unfold fromMesh TexturedMesh.fromMesh TexturedMesh.create
    rw [if_neg (by simpa using hv), if_neg (by simp)]
  intro rnd hr pose density
  obtain ⟨samples, faces, h1, h2, h4⟩ := C57_sample_element rnd hr [.textured ⟨⟨m.indices, m.vertices, m.normals,
    TexturedMesh.defaultMaterial (!RgbImage.isEmpty defaultRoughness)⟩, List.replicate m.vertices.length (0, 0),
    imageOf 2 2 (Texture.uniformTexture [r, g, b]), defaultRoughness⟩] pose density (by simp) (by
      intro m' hm'
      rw [List.mem_singleton] at hm'
      subst hm'
      exact ⟨h3, hv, by simp, hi⟩)
  have hf : List.Forall₂ (fun i (p : ColorPoint) => (∃ v, m.vertices[i]? = some v ∧ p.pos = pose.R.mulVec v + pose.t) ∧
      p.color = ⟨r, g, b⟩) m.indices faces := by
    unfold allCorners at h2
    simp only [List.flatMap_cons, List.flatMap_nil, List.append_nil, PrimMesh.indices, List.forall₂_map_left_iff] at h2
    refine h2.imp ?_
    rintro i p ⟨hp, hc⟩
    refine ⟨hp, ?_⟩
    simp only [VertexColor] at hc
    rw [if_neg (by simp [imageOf])] at hc
    obtain ⟨u, v, huv, hcol⟩ := hc
    have h0 : (u, v) = ((0, 0) : ℝ × ℝ) := List.eq_of_mem_replicate (List.mem_of_getElem? huv)
    rw [Prod.mk.injEq] at h0
    rw [hcol, h0.1, h0.2, texel_origin]
  refine ⟨samples, faces, h1, hf, h4, fun s hs => ?_⟩
  obtain ⟨blocks, rfl, hb⟩ := h4
  obtain ⟨t, ht, α, β, γ, -, -, -, hsum, -, hcol⟩ := mem_blocks hb s hs
  obtain ⟨t', -, ⟨-, e1⟩, ⟨-, e2⟩, -, e3⟩ := forall₂_mem_right (triples_forall₂ hf) t ht
  rw [hcol, e1, e2, e3, combine hsum]

/-- **C171.** The textured mesh of a box is its mesh, coloured. -/
theorem C171_box_mesh (b : Box3d ℝ) (out : Bool) (color : List ℕ) :
    ∃ m, boxMesh b out = .ok m ∧ boxTexturedMesh b out color = fromMesh m color ∧ 3 ∣ m.indices.length ∧
      m.vertices.length = m.normals.length ∧ MeshSpec.InRange m.vertices.length m.indices := by
  have hn : (Box3d.meshNormals (K := ℝ) out).length = 24 := by cases out <;> rfl
  refine ⟨⟨Box3d.meshIndices out, b.meshVertices, Box3d.meshNormals out, .empty⟩, ?_, rfl, ?_, hn.symm, ?_⟩
  · exact if_pos hn.symm
  · show 3 ∣ (Box3d.meshIndices out).length
    cases out <;> decide
  · show ∀ i ∈ Box3d.meshIndices out, i < 24
    cases out <;> decide

/-- The faces of the triangles of the mesh of a box: 0 and 1 for the smallest and largest `x`, 2 and 3 for `y`, 4 and 5 for `z`. -/
def onFace (b : Box3d ℝ) (q : Vec3 ℝ) : ℕ → Prop
  | 0 => q.x = b.minCorner.x
  | 1 => q.x = b.maxCorner.x
  | 2 => q.y = b.minCorner.y
  | 3 => q.y = b.maxCorner.y
  | 4 => q.z = b.minCorner.z
  | _ => q.z = b.maxCorner.z

/-- The face of corner `c` of the box, in the same numbers. -/
def cornerFaces : ℕ → List ℕ
  | 0 => [0, 2, 5] | 1 => [1, 2, 5] | 2 => [1, 3, 5] | 3 => [0, 3, 5]
  | 4 => [0, 2, 4] | 5 => [1, 2, 4] | 6 => [1, 3, 4] | _ => [0, 3, 4]

theorem vertex_on (b : Box3d ℝ) (ho : BoxSpec.Ordered b) {i : ℕ} {v : Vec3 ℝ} (h : b.meshVertices[i]? = some v) :
    BoxSpec.Mem b v ∧ ∀ f, ∀ c, Box3d.vertLut[i]? = some c → f ∈ cornerFaces c → onFace b v f := by
  have hi : i < 24 := (List.getElem?_eq_some_iff.1 h).1
  obtain ⟨h1, h2, h3⟩ := ho
  unfold Box3d.meshVertices at h
  rw [List.getElem?_map] at h
  obtain ⟨c, hc, rfl⟩ := Option.map_eq_some_iff.1 h
  have hc8 : c < 8 := by
    have := List.mem_of_getElem? hc
    revert this
    have : ∀ c ∈ Box3d.vertLut, c < 8 := by decide
    exact this c
  refine ⟨?_, fun f c' hc' hf => ?_⟩
  · interval_cases c <;> simp [Box3d.corners, BoxSpec.Mem, h1, h2, h3]
  · rw [hc] at hc'
    cases hc'
    interval_cases c <;> simp [cornerFaces] at hf <;> rcases hf with rfl | rfl | rfl <;> simp [Box3d.corners, onFace]

theorem triples_on_face (out : Bool) : ∀ t ∈ MeshSpec.triples (Box3d.meshIndices out), ∃ f < 6,
    ∀ i ∈ [t.1, t.2.1, t.2.2], ∃ c, Box3d.vertLut[i]? = some c ∧ f ∈ cornerFaces c := by
  have key : ∀ t ∈ MeshSpec.triples (Box3d.meshIndices out), (List.range 6).any (fun f =>
      [t.1, t.2.1, t.2.2].all fun i => match Box3d.vertLut[i]? with | some c => decide (f ∈ cornerFaces c) | none => false) = true := by
    cases out <;> decide
  intro t ht
  obtain ⟨f, hf, h⟩ := List.any_eq_true.1 (key t ht)
  refine ⟨f, List.mem_range.1 hf, fun i hi => ?_⟩
  have := List.all_eq_true.1 h i hi
  revert this
  cases Box3d.vertLut[i]? with
  | none => simp
  | some c => intro hd; exact ⟨c, rfl, by simpa using hd⟩

theorem rigid_combine (pose : Pose3 ℝ) {α β γ : ℝ} (h : α + β + γ = 1) (u v w : Vec3 ℝ) :
    Vec3.smul α (pose.R.mulVec u + pose.t) + Vec3.smul β (pose.R.mulVec v + pose.t) + Vec3.smul γ (pose.R.mulVec w + pose.t) =
      pose.R.mulVec (Vec3.smul α u + Vec3.smul β v + Vec3.smul γ w) + pose.t := by
  ext
  · simp [Vec3.smul, Mat3.mulVec]; linear_combination pose.t.x * h
  · simp [Vec3.smul, Mat3.mulVec]; linear_combination pose.t.y * h
  · simp [Vec3.smul, Mat3.mulVec]; linear_combination pose.t.z * h

theorem surface_combine (b : Box3d ℝ) {α β γ : ℝ} (hα : 0 ≤ α) (hβ : 0 ≤ β) (hγ : 0 ≤ γ) (h : α + β + γ = 1) {u v w : Vec3 ℝ}
    (hu : BoxSpec.Mem b u) (hv : BoxSpec.Mem b v) (hw : BoxSpec.Mem b w) {f : ℕ} (hf : f < 6) (fu : onFace b u f) (fv : onFace b v f)
    (fw : onFace b w f) : OnSurface b (Vec3.smul α u + Vec3.smul β v + Vec3.smul γ w) := by
  have lo : ∀ {l x y z : ℝ}, l ≤ x → l ≤ y → l ≤ z → l ≤ α * x + β * y + γ * z := by
    intro l x y z hx hy hz
    have e : l = α * l + β * l + γ * l := by linear_combination (-l) * h
    rw [e]
    exact add_le_add (add_le_add (mul_le_mul_of_nonneg_left hx hα) (mul_le_mul_of_nonneg_left hy hβ)) (mul_le_mul_of_nonneg_left hz hγ)
  have hi : ∀ {l x y z : ℝ}, x ≤ l → y ≤ l → z ≤ l → α * x + β * y + γ * z ≤ l := by
    intro l x y z hx hy hz
    have e : l = α * l + β * l + γ * l := by linear_combination (-l) * h
    rw [e]
    exact add_le_add (add_le_add (mul_le_mul_of_nonneg_left hx hα) (mul_le_mul_of_nonneg_left hy hβ)) (mul_le_mul_of_nonneg_left hz hγ)
  have eq : ∀ {l x y z : ℝ}, x = l → y = l → z = l → α * x + β * y + γ * z = l := by
    intro l x y z hx hy hz
    rw [hx, hy, hz]
    linear_combination l * h
  obtain ⟨⟨u1, u2⟩, ⟨u3, u4⟩, u5, u6⟩ := hu
  obtain ⟨⟨v1, v2⟩, ⟨v3, v4⟩, v5, v6⟩ := hv
  obtain ⟨⟨w1, w2⟩, ⟨w3, w4⟩, w5, w6⟩ := hw
  refine ⟨⟨⟨lo u1 v1 w1, hi u2 v2 w2⟩, ⟨lo u3 v3 w3, hi u4 v4 w4⟩, lo u5 v5 w5, hi u6 v6 w6⟩, ?_⟩
  interval_cases f
  · exact .inl (eq fu fv fw)
  · exact .inr (.inl (eq fu fv fw))
  · exact .inr (.inr (.inl (eq fu fv fw)))
  · exact .inr (.inr (.inr (.inl (eq fu fv fw))))
  · exact .inr (.inr (.inr (.inr (.inl (eq fu fv fw)))))
  · exact .inr (.inr (.inr (.inr (.inr (eq fu fv fw)))))

/-- **C171.** A box converted to a textured mesh of a colour of three entries can be placed and sampled; every sample lies on the surface
of the placed box and has that colour. -/
theorem C171_box (b : Box3d ℝ) (ho : BoxSpec.Ordered b) (out : Bool) (r g c : ℕ) (rnd : ℕ → ℝ × ℝ)
    (hr : ∀ k, (0 ≤ (rnd k).1 ∧ (rnd k).1 ≤ 1) ∧ 0 ≤ (rnd k).2 ∧ (rnd k).2 ≤ 1) (pose : Pose3 ℝ) (density : ℝ) :
    ∃ t samples, boxTexturedMesh b out [r, g, c] = .ok t ∧ sampleElement rnd [.textured t] pose density = .ok samples ∧
      12 ≤ samples.length ∧
      ∀ s ∈ samples, s.color = ⟨r, g, c⟩ ∧ ∃ q, OnSurface b q ∧ s.pos = pose.R.mulVec q + pose.t := by
  obtain ⟨m, hm, hbt, h3, hv, hi⟩ := C171_box_mesh b out [r, g, c]
  obtain ⟨t, ht, -, -, -, hs⟩ := C171_colored m h3 hv hi r g c
  obtain ⟨samples, faces, h1, h2, h4, h5⟩ := hs rnd hr pose density
  have hmi : m.indices = Box3d.meshIndices out ∧ m.vertices = b.meshVertices := by
    have hn : (Box3d.meshNormals (K := ℝ) out).length = 24 := by cases out <;> rfl
    have e : boxMesh b out = .ok ⟨Box3d.meshIndices out, b.meshVertices, Box3d.meshNormals out, .empty⟩ := if_pos hn.symm
    rw [e] at hm
    cases hm
    exact ⟨rfl, rfl⟩
  rw [hmi.1, hmi.2] at h2
  refine ⟨t, samples, hbt.trans ht, h1, ?_, fun s hss => ⟨h5 s hss, ?_⟩⟩
  · obtain ⟨blocks, rfl, hb⟩ := h4
    have hl : blocks.length = 12 := by
      rw [← hb.length_eq, ← (triples_forall₂ h2).length_eq]
      cases out <;> rfl
    have hle : ∀ (ts : List (ColorPoint × ColorPoint × ColorPoint)) (bs : List (List ColorPoint)),
        List.Forall₂ (SamplesOf density) ts bs → bs.length ≤ bs.flatten.length := by
      intro ts bs h
      induction h with
      | nil => simp
      | cons h _ ih =>
        rw [List.flatten_cons, List.length_append, List.length_cons]
        have := h.1
        omega
    rw [← hl]
    exact hle _ _ hb
  · obtain ⟨blocks, rfl, hb⟩ := h4
    obtain ⟨T, hT, α, β, γ, hα, hβ, hγ, hsum, hpos, -⟩ := mem_blocks hb s hss
    obtain ⟨T', hT', ⟨⟨u, hu, eu⟩, -⟩, ⟨⟨v, hv', ev⟩, -⟩, ⟨w, hw, ew⟩, -⟩ := forall₂_mem_right (triples_forall₂ h2) T hT
    obtain ⟨f, hf6, hf⟩ := triples_on_face out T' hT'
    refine ⟨Vec3.smul α u + Vec3.smul β v + Vec3.smul γ w, ?_, by rw [hpos, eu, ev, ew, rigid_combine pose hsum]⟩
    obtain ⟨c1, k1, f1⟩ := hf T'.1 (by simp)
    obtain ⟨c2, k2, f2⟩ := hf T'.2.1 (by simp)
    obtain ⟨c3, k3, f3⟩ := hf T'.2.2 (by simp)
    exact surface_combine b hα hβ hγ hsum (vertex_on b ho hu).1 (vertex_on b ho hv').1 (vertex_on b ho hw).1 hf6
      ((vertex_on b ho hu).2 f c1 k1 f1) ((vertex_on b ho hv').2 f c2 k2 f2) ((vertex_on b ho hw).2 f c3 k3 f3)

/-- Non-vacuity. -/
example : BoxSpec.Ordered (⟨⟨0, 0, 0⟩, ⟨1, 2, 3⟩⟩ : Box3d ℝ) := by unfold BoxSpec.Ordered; norm_num

end Uniform
end Sumo
