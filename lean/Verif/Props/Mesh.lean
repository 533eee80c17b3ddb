import Verif.Lemmas.Mesh
import Verif.Lemmas.Dict
import Verif.Lemmas.Box
import Mathlib.Tactic.IntervalCases

/-!
# Meshes (C51–C55, C58, C82–C88)
-/

set_option linter.unusedSectionVars false

namespace Sumo
open MeshSpec

variable {K I : Type}

/-! ### Merge -/

/-- **C51** The vertices after a merge: those of the mesh, then those of the other from number `k` on. -/
theorem C51_vertices (m m2 : Mesh K) (k : ℕ) (h2 : m2.normals.length = m2.vertices.length) :
    (m.merge m2 k).vertices = m.vertices ++ m2.vertices.drop k ∧
    (m.merge m2 k).normals = m.normals ++ m2.normals.drop k ∧ (m.merge m2 k).material = m.material :=
  ⟨merge_vertices m m2 k, merge_normals m m2 k h2, merge_material m m2 k⟩

/-- **C51** If the first `k` vertices of both meshes coincide, the merged mesh describes the triangles of the first followed
by those of the second: same positions and normals at every corner. -/
theorem C51_corners (m m2 : Mesh K) (k : ℕ) (hk : k ≤ m.vertices.length) (hm : InRange m.vertices.length m.indices)
    (h1 : m.normals.length = m.vertices.length) (h2 : m2.normals.length = m2.vertices.length)
    (hv : ∀ i < k, m2.vertices[i]? = m.vertices[i]?) (hn : ∀ i < k, m2.normals[i]? = m.normals[i]?) :
    corners (m.merge m2 k).vertices (m.merge m2 k).indices = corners m.vertices m.indices ++ corners m2.vertices m2.indices ∧
    corners (m.merge m2 k).normals (m.merge m2 k).indices = corners m.normals m.indices ++ corners m2.normals m2.indices := by
  rw [merge_vertices, merge_normals m m2 k h2, merge_indices]
  refine ⟨corners_merge _ _ _ _ _ hk hm hv, ?_⟩
  rw [← h1]
  exact corners_merge _ _ _ _ _ (by omega) (by rw [h1]; exact hm) hn

/-- **C51** Without any assumption on the common vertices: triangles of the first mesh keep their positions, and each index
of the second mesh that is not among the first `k` still refers to the same position and normal. -/
theorem C51_uncommon (m m2 : Mesh K) (k : ℕ) (hk : k ≤ m.vertices.length) (hm : InRange m.vertices.length m.indices)
    (h1 : m.normals.length = m.vertices.length) (h2 : m2.normals.length = m2.vertices.length) :
    ∃ idx', (m.merge m2 k).indices = m.indices ++ idx' ∧ idx'.length = m2.indices.length ∧
      corners (m.merge m2 k).vertices m.indices = corners m.vertices m.indices ∧
      corners (m.merge m2 k).normals m.indices = corners m.normals m.indices ∧
      ∀ p : ℕ, ∀ i, m2.indices[p]? = some i → k ≤ i →
        ∃ i', idx'[p]? = some i' ∧ (m.merge m2 k).vertices[i']? = m2.vertices[i]? ∧
          (m.merge m2 k).normals[i']? = m2.normals[i]? := by
  rw [merge_vertices, merge_normals m m2 k h2, merge_indices]
  refine ⟨_, rfl, by simp, ?_, ?_, ?_⟩
  · unfold corners
    exact List.map_congr_left fun i hi => List.getElem?_append_left (hm i hi)
  · unfold corners
    exact List.map_congr_left fun i hi => List.getElem?_append_left (h1 ▸ hm i hi)
  · intro p i hp hki
    refine ⟨i + m.vertices.length - k, ?_, ?_, ?_⟩
    · rw [List.getElem?_map, hp, Option.map_some, if_neg (by omega)]
    · rw [List.getElem?_append_right (by omega), List.getElem?_drop]
      congr 1; omega
    · rw [List.getElem?_append_right (by omega), List.getElem?_drop]
      congr 1; omega

/-- **C51** Valid indices stay valid, and normals stay in step with vertices. -/
theorem C51_in_range (m m2 : Mesh K) (k : ℕ) (hk : k ≤ m.vertices.length) (hm : InRange m.vertices.length m.indices)
    (hm2 : InRange m2.vertices.length m2.indices)
    (h1 : m.normals.length = m.vertices.length) (h2 : m2.normals.length = m2.vertices.length) :
    InRange (m.merge m2 k).vertices.length (m.merge m2 k).indices ∧
    (m.merge m2 k).normals.length = (m.merge m2 k).vertices.length := by
  rw [merge_vertices, merge_normals m m2 k h2, merge_indices]
  constructor
  · intro i hi
    rw [List.length_append, List.length_drop]
    rcases List.mem_append.1 hi with h | h
    · have := hm i h; omega
    · obtain ⟨j, hj, rfl⟩ := List.mem_map.1 h
      have := hm2 j hj
      split_ifs <;> omega
  · simp [h1, h2]

/-- Two triangles sharing an edge. -/
def meshA : Mesh ℚ := ⟨[0, 1, 2], [⟨0, 0, 0⟩, ⟨1, 0, 0⟩, ⟨0, 1, 0⟩], [⟨0, 0, 1⟩, ⟨0, 0, 1⟩, ⟨0, 0, 1⟩], .empty⟩
/-- The second of them. -/
def meshB : Mesh ℚ := ⟨[1, 0, 2], [⟨0, 0, 0⟩, ⟨1, 0, 0⟩, ⟨0, -1, 0⟩], [⟨0, 0, 1⟩, ⟨0, 0, 1⟩, ⟨0, 0, 1⟩], .empty⟩

example : 2 ≤ meshA.vertices.length ∧ InRange meshA.vertices.length meshA.indices ∧
    InRange meshB.vertices.length meshB.indices ∧
    meshA.normals.length = meshA.vertices.length ∧ meshB.normals.length = meshB.vertices.length ∧
    (∀ i < 2, meshB.vertices[i]? = meshA.vertices[i]?) ∧ (∀ i < 2, meshB.normals[i]? = meshA.normals[i]?) := by
  unfold InRange; decide +kernel

/-- **C82** (partial: as long as the first mesh has as many texture coordinates as vertices) Textured meshes: the merge also
keeps the texture coordinate of each corner, and keeps the textures of the first mesh. -/
theorem C82_textured_merge_partial (m m2 m' : TexturedMesh K I) (k : ℕ) (h : m.merge m2 k = some m')
    (hk : k ≤ m.vertices.length) (hm : InRange m.vertices.length m.indices)
    (hu1 : m.uvCoords.length = m.vertices.length) (hu2 : m2.uvCoords.length ≤ m2.vertices.length)
    (hu : ∀ i < k, m2.uvCoords[i]? = m.uvCoords[i]?) :
    m'.toMesh = m.toMesh.merge m2.toMesh k ∧
    corners m'.uvCoords m'.indices = corners m.uvCoords m.indices ++ corners m2.uvCoords m2.indices ∧
    m'.baseColor = m.baseColor ∧ m'.metallicRoughness = m.metallicRoughness := by
  unfold TexturedMesh.merge at h
  simp only at h
  have key := corners_merge m.uvCoords m2.uvCoords m.indices m2.indices k (by omega) (by rw [hu1]; exact hm) hu
  rw [hu1] at key
  split_ifs at h with h1 h2
  · simp only [Option.some.injEq] at h
    subst h
    refine ⟨rfl, ?_, rfl, rfl⟩
    simp only [merge_indices]
    exact key
  · simp only [Option.some.injEq] at h
    subst h
    refine ⟨rfl, ?_, rfl, rfl⟩
    simp only [merge_indices]
    rw [List.drop_eq_nil_of_le (by omega), List.append_nil] at key
    exact key

/-- **C82** The merge is defined when the second mesh has texture coordinates for all its vertices. -/
theorem C82_defined (m m2 : TexturedMesh K I) (k : ℕ) (hu2 : m2.uvCoords.length = m2.vertices.length) :
    ∃ m', m.merge m2 k = some m' := by
  unfold TexturedMesh.merge
  simp only
  split_ifs with h1 h2
  · omega
  · exact ⟨_, rfl⟩
  · exact ⟨_, rfl⟩

/-- A textured mesh without texture coordinates (the constructor allows fewer of them than vertices). -/
def texA : TexturedMesh ℚ Unit := ⟨meshA, [], (), ()⟩
/-- A textured mesh with them. -/
def texB : TexturedMesh ℚ Unit := ⟨meshB, [(0, 0), (1, 0), (0, 1)], (), ()⟩

/-- **C82** is false without that: the texture coordinates of the second mesh are attached to the wrong vertices. -/
theorem C82_false : TexturedMesh.create (fun _ => true) texA.indices texA.vertices texA.normals texA.uvCoords () () =
      .ok { texA with material := TexturedMesh.defaultMaterial false } ∧
    (∃ m', texA.merge texB 0 = some m' ∧ corners m'.uvCoords m'.indices ≠
      corners texA.uvCoords texA.indices ++ corners texB.uvCoords texB.indices) := by
  refine ⟨by decide +kernel, ⟨_, rfl, by decide +kernel⟩⟩

example : ∃ m', texB.merge texB 2 = some m' ∧ 2 ≤ texB.vertices.length ∧
    texB.uvCoords.length = texB.vertices.length := ⟨_, rfl, by decide, by decide⟩

/-! ### Renumbering -/

/-- **C52** (partial: all indices are among the renumbered vertices, or none is renumbered) Renumbering keeps the position,
normal and texture coordinate of every corner, and the number of triangles. -/
theorem C52_renumber_partial {jv : Vec3 K} {ju : K × K} {m m' : TexturedMesh K I} {n : ℕ} {r : List ℕ}
    (h : m.renumber jv ju n r = some m') (hr : r.Nodup) (hi : InRange r.length m.indices ∨ r = []) :
    corners m'.vertices m'.indices = corners m.vertices m.indices ∧
    corners m'.normals m'.indices = corners m.normals m.indices ∧
    corners m'.uvCoords m'.indices = corners m.uvCoords m.indices ∧
    m'.baseColor = m.baseColor ∧ m'.metallicRoughness = m.metallicRoughness ∧ m'.material = m.material := by
  obtain ⟨h1, h2, h3, h4, h5, h6, h7⟩ := renumber_ok h
  have key : ∀ {α : Type} {junk : α} {b a : List α}, TexturedMesh.assemble junk n r b = some a →
      corners a m'.indices = corners b m.indices := by
    intro α junk b a hab
    obtain ⟨e1, e2, -⟩ := assemble_spec hab hr
    rw [h4]
    unfold corners
    rw [List.map_map]
    apply List.map_congr_left
    intro i him
    simp only [Function.comp]
    rcases hi with hi | rfl
    · have hlt := hi i him
      rw [if_pos hlt]
      have : r[i]? = some r[i] := List.getElem?_eq_getElem hlt
      rw [this]
      exact e1 i _ this
    · simp only [List.length_nil, Nat.not_lt_zero, if_false]
      rw [Nat.add_comm, e2]
      simp
  exact ⟨key h1, key h2, key h3, h5, h6, h7⟩

/-- **C52** What happens to the other indices: an index past the renumbered block ends up at the vertex that is `r.length`
further on. -/
theorem C52_other_indices {jv : Vec3 K} {ju : K × K} {m m' : TexturedMesh K I} {n : ℕ} {r : List ℕ}
    (h : m.renumber jv ju n r = some m') (hr : r.Nodup) {p i : ℕ} (hp : m.indices[p]? = some i) (hi : r.length ≤ i) :
    ∃ i', m'.indices[p]? = some i' ∧ m'.vertices[i']? = m.vertices[i + r.length]? := by
  obtain ⟨h1, -, -, h4, -⟩ := renumber_ok h
  refine ⟨i + n, ?_, ?_⟩
  · rw [h4, List.getElem?_map, hp, Option.map_some, if_neg (by omega)]
  · rw [Nat.add_comm, (assemble_spec h1 hr).2.1, Nat.add_comm]

/-- **C52** Renumbering is defined whenever there are enough vertices, normals and texture coordinates and all new numbers
are in range. -/
theorem C52_defined (jv : Vec3 K) (ju : K × K) (m : TexturedMesh K I) {n : ℕ} {r : List ℕ}
    (h1 : r.length ≤ m.vertices.length) (h2 : r.length ≤ m.normals.length) (h3 : r.length ≤ m.uvCoords.length)
    (hr : ∀ j ∈ r, j < n) : ∃ m', m.renumber jv ju n r = some m' := by
  obtain ⟨a, ha⟩ := assemble_isSome jv h1 hr
  obtain ⟨b, hb⟩ := assemble_isSome jv h2 hr
  obtain ⟨c, hc⟩ := assemble_isSome ju h3 hr
  unfold TexturedMesh.renumber
  simp only [ha, hb, hc, Option.bind_eq_bind, Option.bind_some]
  exact ⟨_, rfl⟩

/-- **C52** is false in general: swapping the first two of three vertices loses the third corner. -/
theorem C52_false : InRange texB.vertices.length texB.indices ∧
    ∃ m', texB.renumber ⟨0, 0, 0⟩ (0, 0) 2 [1, 0] = some m' ∧
      corners m'.vertices m'.indices ≠ corners texB.vertices texB.indices ∧
      ¬ InRange m'.vertices.length m'.indices := by
  refine ⟨by unfold InRange; decide +kernel, ⟨_, rfl, by decide +kernel, ?_⟩⟩
  unfold InRange; decide +kernel

example : ∃ m', texB.renumber ⟨0, 0, 0⟩ (0, 0) 5 [4, 0, 2] = some m' ∧ [4, 0, 2].Nodup ∧
    InRange [4, 0, 2].length texB.indices := ⟨_, rfl, by decide, by unfold InRange; decide +kernel⟩

theorem renumber_of_assemble {jv : Vec3 K} {ju : K × K} {idx : List ℕ} {w x vs ns : List (Vec3 K)}
    {y uv : List (K × K)} {mat : GltfMaterial} {b r0 : I} {n : ℕ} {r : List ℕ}
    (h1 : TexturedMesh.assemble jv n r w = some vs) (h2 : TexturedMesh.assemble jv n r x = some ns)
    (h3 : TexturedMesh.assemble ju n r y = some uv) :
    TexturedMesh.renumber jv ju ⟨⟨idx, w, x, mat⟩, y, b, r0⟩ n r = some ⟨⟨idx.map (fun index =>
      if index < r.length then r[index]?.getD 0 else index + n), vs, ns, mat⟩, uv, b, r0⟩ := by
  unfold TexturedMesh.renumber
  simp only [h1, h2, h3, Option.bind_eq_bind, Option.bind_some]

theorem textured_merge_eq {idx idx2 : List ℕ} {w x w2 x2 : List (Vec3 K)}
    {y y2 : List (K × K)} {mat mat2 : GltfMaterial} {b r0 b2 r2 : I} {k : ℕ} (h : k < w2.length) (h' : k ≤ y2.length) :
    TexturedMesh.merge ⟨⟨idx, w, x, mat⟩, y, b, r0⟩ ⟨⟨idx2, w2, x2, mat2⟩, y2, b2, r2⟩ k = some ⟨⟨idx ++ idx2.map (fun i =>
      if i < k then i else i + w.length - k), w ++ w2.drop k, x ++ x2.drop k, mat⟩, y ++ y2.drop k, b, r0⟩ := by
  unfold TexturedMesh.merge Mesh.merge
  simp only
  rw [if_pos h, if_neg (by omega), if_pos h]

/-- **C53** (partial: for quadrants of exactly four vertices) Merging four quads with the documented numbering gives one mesh
with the nine vertices in order, whose triangles are those of the four quads in turn; normals and texture coordinates of the
corners are kept too if the quads agree on the shared ones. -/
theorem C53_quadrants_partial (jv : Vec3 K) (ju : K × K) (m0 m1 m2 m3 : TexturedMesh K I)
    (v0 v1 v2 v3 v4 v5 v6 v7 v8 : Vec3 K)
    (hv0 : m0.vertices = [v0, v5, v4, v6]) (hv1 : m1.vertices = [v5, v1, v6, v8])
    (hv2 : m2.vertices = [v4, v6, v2, v7]) (hv3 : m3.vertices = [v6, v8, v7, v3])
    (n0 n1 n2 n3 n4 n5 n6 n7 n8 : Vec3 K)
    (hn0 : m0.normals = [n0, n5, n4, n6]) (hn1 : m1.normals = [n5, n1, n6, n8])
    (hn2 : m2.normals = [n4, n6, n2, n7]) (hn3 : m3.normals = [n6, n8, n7, n3])
    (u0 u1 u2 u3 u4 u5 u6 u7 u8 : K × K)
    (hu0 : m0.uvCoords = [u0, u5, u4, u6]) (hu1 : m1.uvCoords = [u5, u1, u6, u8])
    (hu2 : m2.uvCoords = [u4, u6, u2, u7]) (hu3 : m3.uvCoords = [u6, u8, u7, u3])
    (h0 : InRange 4 m0.indices) (h1 : InRange 4 m1.indices) (h2 : InRange 4 m2.indices) (h3 : InRange 4 m3.indices) :
    ∃ m, TexturedMesh.mergeQuadrantMeshes jv ju m0 m1 m2 m3 = some m ∧
      m.vertices = [v0, v1, v2, v3, v4, v5, v6, v7, v8] ∧ m.normals = [n0, n1, n2, n3, n4, n5, n6, n7, n8] ∧
      m.uvCoords = [u0, u1, u2, u3, u4, u5, u6, u7, u8] ∧
      corners m.vertices m.indices = corners m0.vertices m0.indices ++ corners m1.vertices m1.indices ++
        corners m2.vertices m2.indices ++ corners m3.vertices m3.indices ∧
      corners m.normals m.indices = corners m0.normals m0.indices ++ corners m1.normals m1.indices ++
        corners m2.normals m2.indices ++ corners m3.normals m3.indices ∧
      corners m.uvCoords m.indices = corners m0.uvCoords m0.indices ++ corners m1.uvCoords m1.indices ++
        corners m2.uvCoords m2.indices ++ corners m3.uvCoords m3.indices ∧
      m.baseColor = m0.baseColor ∧ m.metallicRoughness = m0.metallicRoughness ∧ m.material = m0.material := by
  obtain ⟨⟨i0, w0, x0, mat0⟩, y0, b0, r0⟩ := m0
  obtain ⟨⟨i1, w1, x1, mat1⟩, y1, b1, r1⟩ := m1
  obtain ⟨⟨i2, w2, x2, mat2⟩, y2, b2, r2⟩ := m2
  obtain ⟨⟨i3, w3, x3, mat3⟩, y3, b3, r3⟩ := m3
  simp only at *
  subst hv0 hv1 hv2 hv3 hn0 hn1 hn2 hn3 hu0 hu1 hu2 hu3
  have key : ∀ (f0 f1 f2 f3 : ℕ → ℕ) (l : List ℕ), l = i0.map f0 ++ i1.map f1 ++ i2.map f2 ++ i3.map f3 →
      (∀ i < 4, some (f0 i) = [0, 5, 4, 6][i]?) → (∀ i < 4, some (f1 i) = [5, 1, 6, 8][i]?) →
      (∀ i < 4, some (f2 i) = [4, 6, 2, 7][i]?) → (∀ i < 4, some (f3 i) = [6, 8, 7, 3][i]?) →
      ∀ {α : Type} (a0 a1 a2 a3 a4 a5 a6 a7 a8 : α),
        corners [a0, a1, a2, a3, a4, a5, a6, a7, a8] l = corners [a0, a5, a4, a6] i0 ++ corners [a5, a1, a6, a8] i1 ++
          corners [a4, a6, a2, a7] i2 ++ corners [a6, a8, a7, a3] i3 := by
    rintro f0 f1 f2 f3 l rfl g0 g1 g2 g3 α a0 a1 a2 a3 a4 a5 a6 a7 a8
    unfold corners
    simp only [List.map_append, List.map_map]
    congr 1
    · congr 1
      · congr 1
        · apply List.map_congr_left
          intro i hi
          have := h0 i hi
          have := g0 i this
          simp only [Function.comp]
          interval_cases i <;> simp at this <;> rw [this] <;> rfl
        · apply List.map_congr_left
          intro i hi
          have := h1 i hi
          have := g1 i this
          simp only [Function.comp]
          interval_cases i <;> simp at this <;> rw [this] <;> rfl
      · apply List.map_congr_left
        intro i hi
        have := h2 i hi
        have := g2 i this
        simp only [Function.comp]
        interval_cases i <;> simp at this <;> rw [this] <;> rfl
    · apply List.map_congr_left
      intro i hi
      have := h3 i hi
      have := g3 i this
      simp only [Function.comp]
      interval_cases i <;> simp at this <;> rw [this] <;> rfl
  obtain ⟨m, hm, e1, e2, e3, e4, e5, e6, f0, f1, f2, f3, hidx, g0, g1, g2, g3⟩ :
      ∃ m, TexturedMesh.mergeQuadrantMeshes jv ju
        ⟨⟨i0, [v0, v5, v4, v6], [n0, n5, n4, n6], mat0⟩, [u0, u5, u4, u6], b0, r0⟩
        ⟨⟨i1, [v5, v1, v6, v8], [n5, n1, n6, n8], mat1⟩, [u5, u1, u6, u8], b1, r1⟩
        ⟨⟨i2, [v4, v6, v2, v7], [n4, n6, n2, n7], mat2⟩, [u4, u6, u2, u7], b2, r2⟩
        ⟨⟨i3, [v6, v8, v7, v3], [n6, n8, n7, n3], mat3⟩, [u6, u8, u7, u3], b3, r3⟩ = some m ∧
      m.vertices = [v0, v1, v2, v3, v4, v5, v6, v7, v8] ∧ m.normals = [n0, n1, n2, n3, n4, n5, n6, n7, n8] ∧
      m.uvCoords = [u0, u1, u2, u3, u4, u5, u6, u7, u8] ∧ m.baseColor = b0 ∧ m.metallicRoughness = r0 ∧
      m.material = mat0 ∧ ∃ f0 f1 f2 f3 : ℕ → ℕ, m.indices = i0.map f0 ++ i1.map f1 ++ i2.map f2 ++ i3.map f3 ∧
      (∀ i < 4, some (f0 i) = [0, 5, 4, 6][i]?) ∧ (∀ i < 4, some (f1 i) = [5, 1, 6, 8][i]?) ∧
      (∀ i < 4, some (f2 i) = [4, 6, 2, 7][i]?) ∧ (∀ i < 4, some (f3 i) = [6, 8, 7, 3][i]?) := by
    unfold TexturedMesh.mergeQuadrantMeshes
    rw [renumber_of_assemble (vs := [v5, v6, v0, v4]) (ns := [n5, n6, n0, n4]) (uv := [u5, u6, u0, u4]) rfl rfl rfl]
    rw [renumber_of_assemble (vs := [v5, v6, v1, v8]) (ns := [n5, n6, n1, n8]) (uv := [u5, u6, u1, u8]) rfl rfl rfl]
    rw [renumber_of_assemble (vs := [v6, v7, v2, v4]) (ns := [n6, n7, n2, n4]) (uv := [u6, u7, u2, u4]) rfl rfl rfl]
    rw [renumber_of_assemble (vs := [v6, v7, v3, v8]) (ns := [n6, n7, n3, n8]) (uv := [u6, u7, u3, u8]) rfl rfl rfl]
    simp only [Option.bind_eq_bind, Option.bind_some]
    rw [textured_merge_eq (by simp) (by simp), textured_merge_eq (by simp) (by simp)]
    simp only [Option.bind_some, List.length_cons, List.length_nil, List.drop_succ_cons, List.drop_zero, List.cons_append,
      List.nil_append]
    rw [renumber_of_assemble (vs := [v4, v6, v8, v0, v5, v1]) (ns := [n4, n6, n8, n0, n5, n1])
      (uv := [u4, u6, u8, u0, u5, u1]) rfl rfl rfl]
    rw [renumber_of_assemble (vs := [v4, v6, v8, v2, v7, v3]) (ns := [n4, n6, n8, n2, n7, n3])
      (uv := [u4, u6, u8, u2, u7, u3]) rfl rfl rfl]
    simp only [Option.bind_some]
    rw [textured_merge_eq (by simp) (by simp)]
    simp only [Option.bind_some, List.length_cons, List.length_nil, List.drop_succ_cons, List.drop_zero, List.cons_append,
      List.nil_append]
    rw [renumber_of_assemble (vs := [v0, v1, v2, v3, v4, v5, v6, v7, v8]) (ns := [n0, n1, n2, n3, n4, n5, n6, n7, n8])
      (uv := [u0, u1, u2, u3, u4, u5, u6, u7, u8]) rfl rfl rfl]
    refine ⟨_, rfl, rfl, rfl, rfl, rfl, rfl, rfl, ?_⟩
    simp only [List.map_append, List.map_map]
    refine ⟨_, _, _, _, by rw [← List.append_assoc], ?_, ?_, ?_, ?_⟩ <;> decide
  refine ⟨m, hm, e1, e2, e3, ?_, ?_, ?_, e4, e5, e6⟩
  · rw [e1]; exact key f0 f1 f2 f3 _ hidx g0 g1 g2 g3 ..
  · rw [e2]; exact key f0 f1 f2 f3 _ hidx g0 g1 g2 g3 ..
  · rw [e3]; exact key f0 f1 f2 f3 _ hidx g0 g1 g2 g3 ..

/-- A quad with one interior vertex: four triangles around it. -/
def fan (a b c d e : Vec3 ℚ) : TexturedMesh ℚ Unit :=
  ⟨⟨[0, 1, 4, 1, 3, 4, 3, 2, 4, 2, 0, 4], [a, b, c, d, e], [a, b, c, d, e], .empty⟩,
    [(0, 0), (1, 0), (0, 1), (1, 1), (0, 0)], (), ()⟩

/-- **C53** is false for quadrants with further vertices: indices past the end result. -/
theorem C53_false : ∃ m, TexturedMesh.mergeQuadrantMeshes ⟨0, 0, 0⟩ (0, 0)
      (fan ⟨0, 0, 0⟩ ⟨2, 0, 0⟩ ⟨0, 2, 0⟩ ⟨2, 2, 0⟩ ⟨1, 1, 0⟩) (fan ⟨2, 0, 0⟩ ⟨4, 0, 0⟩ ⟨2, 2, 0⟩ ⟨4, 2, 0⟩ ⟨3, 1, 0⟩)
      (fan ⟨0, 2, 0⟩ ⟨2, 2, 0⟩ ⟨0, 4, 0⟩ ⟨2, 4, 0⟩ ⟨1, 3, 0⟩) (fan ⟨2, 2, 0⟩ ⟨4, 2, 0⟩ ⟨2, 4, 0⟩ ⟨4, 4, 0⟩ ⟨3, 3, 0⟩) =
        some m ∧ ¬ InRange m.vertices.length m.indices := by
  refine ⟨_, rfl, ?_⟩
  unfold InRange; decide +kernel

/-! ### Clean-up -/

section
open Classical

theorem keepAt_iff {keep : Vec3 K → Vec3 K → Vec3 K → Bool} {P : Vec3 K → Vec3 K → Vec3 K → Prop}
    (hP : ∀ a b c, keep a b c = true ↔ P a b c) (vs : List (Vec3 K)) (t : ℕ × ℕ × ℕ) :
    keepAt keep vs t = true ↔ OnCorners vs t P := by
  unfold keepAt OnCorners
  rcases vs[t.1]? with _ | a
  · simp
  rcases vs[t.2.1]? with _ | b
  · simp
  rcases vs[t.2.2]? with _ | c
  · simp
  simp [hP]

theorem cleanup_idem {keep : Vec3 K → Vec3 K → Vec3 K → Bool} {vs : List (Vec3 K)} {idx new : List ℕ}
    (hr : InRange vs.length idx) (h : Mesh.cleanupLoop keep vs idx = some new) :
    Mesh.cleanupLoop keep vs new = some new := by
  obtain ⟨e1, e2, e3⟩ := cleanupLoop_spec keep idx new h
  obtain ⟨new', h'⟩ := cleanupLoop_some keep new (fun i hi => hr i (e3 i hi))
  obtain ⟨f1, f2, -⟩ := cleanupLoop_spec keep new new' h'
  rw [h', triples_inj new' new f2 e2]
  rw [f1, e1, List.filter_filter]
  simp

theorem norm_sub_eq_dist (a b : Vec3 ℝ) : (a - b).norm = PointSpec.dist a b := by
  unfold Vec3.norm PointSpec.dist Vec3.normSq Vec3.dot
  congr 1
  simp
  ring

/-- **C54** `cleanup_long_edges` keeps, in order, exactly the triangles whose three edges are at most the threshold long,
changes nothing but the triangle list, leaves indices valid, and doing it again changes nothing. -/
theorem C54_long_edges (m : Mesh ℝ) (l : ℝ) (h : InRange m.vertices.length m.indices) :
    ∃ m', m.cleanupLongEdges l = some m' ∧
      triples m'.indices = (triples m.indices).filter (fun t => decide (OnCorners m.vertices t (ShortEdges l))) ∧
      m'.indices.length % 3 = 0 ∧
      m'.vertices = m.vertices ∧ m'.normals = m.normals ∧ m'.material = m.material ∧
      InRange m'.vertices.length m'.indices ∧ m'.cleanupLongEdges l = some m' := by
  unfold Mesh.cleanupLongEdges
  generalize hk : (fun a b c : Vec3 ℝ => decide ((a - b).norm ≤ l) && decide ((b - c).norm ≤ l) &&
    decide ((c - a).norm ≤ l)) = keep
  have hP : ∀ a b c, keep a b c = true ↔ ShortEdges l a b c := by
    intro a b c
    rw [← hk]
    simp [ShortEdges, norm_sub_eq_dist, and_assoc]
  obtain ⟨new, hn⟩ := cleanupLoop_some keep m.indices h
  obtain ⟨e1, e2, e3⟩ := cleanupLoop_spec keep _ _ hn
  refine ⟨{ m with indices := new }, by simp [hn], ?_, e2, rfl, rfl, rfl, fun i hi => h i (e3 i hi), ?_⟩
  · simp only
    rw [e1]
    apply List.filter_congr
    intro t _
    rw [Bool.eq_iff_iff, keepAt_iff hP, decide_eq_true_iff]
  · simp [cleanup_idem h hn]

/-- **C54** `cleanup_edges_to_origin` keeps, in order, exactly the triangles none of whose corners is the origin (all
coordinates within the precision), changes nothing else, and doing it again changes nothing. -/
theorem C54_edges_to_origin {K : Type} [Field K] [LinearOrder K] (m : Mesh K) (e : K)
    (h : InRange m.vertices.length m.indices) :
    ∃ m', m.cleanupEdgesToOrigin e = some m' ∧
      triples m'.indices = (triples m.indices).filter (fun t => decide (OnCorners m.vertices t (AwayFromOrigin e))) ∧
      m'.indices.length % 3 = 0 ∧
      m'.vertices = m.vertices ∧ m'.normals = m.normals ∧ m'.material = m.material ∧
      InRange m'.vertices.length m'.indices ∧ m'.cleanupEdgesToOrigin e = some m' := by
  unfold Mesh.cleanupEdgesToOrigin
  generalize hk : (fun a b c : Vec3 K => !(Mesh.isZero a e || Mesh.isZero b e || Mesh.isZero c e)) = keep
  have hz : ∀ v : Vec3 K, Mesh.isZero v e = false ↔ (e < |v.x| ∨ e < |v.y| ∨ e < |v.z|) := by
    intro v
    unfold Mesh.isZero
    rw [Bool.and_eq_false_iff, Bool.and_eq_false_iff, or_assoc]
    simp only [decide_eq_false_iff_not, not_le]
  have hP : ∀ a b c, keep a b c = true ↔ AwayFromOrigin e a b c := by
    intro a b c
    rw [← hk]
    simp [AwayFromOrigin, hz, and_assoc]
  obtain ⟨new, hn⟩ := cleanupLoop_some keep m.indices h
  obtain ⟨e1, e2, e3⟩ := cleanupLoop_spec keep _ _ hn
  refine ⟨{ m with indices := new }, by simp [hn], ?_, e2, rfl, rfl, rfl, fun i hi => h i (e3 i hi), ?_⟩
  · simp only
    rw [e1]
    apply List.filter_congr
    intro t _
    rw [Bool.eq_iff_iff, keepAt_iff hP, decide_eq_true_iff]
  · simp [cleanup_idem h hn]

example : ∃ m', meshA.cleanupEdgesToOrigin 0 = some m' ∧ m'.indices = [] := ⟨_, rfl, by decide +kernel⟩
example : InRange meshA.vertices.length meshA.indices := by unfold InRange; decide +kernel
end

/-! ### Normals -/

section
open Mesh

theorem normalized_isDirection (v : Vec3 ℝ) : IsDirection v (normalized v) := by
  by_cases h : v = 0
  · left; exact ⟨h, by rw [h, normalized_zero]⟩
  · right; exact normalized_unit h

/-- **C55** Each face normal is the direction of the cross product of two edges from the first corner (right-hand rule),
so it is orthogonal to the face, and a unit vector unless the face is degenerate. -/
theorem C55_face_normals (vs : List (Vec3 ℝ)) (idx : List ℕ) (h : InRange vs.length idx) :
    ∃ ns, faceNormals vs idx = some ns ∧
      List.Forall₂ (fun t n => OnCorners vs t (fun a b c => IsDirection ((b - a).cross (c - a)) n ∧
        n.dot (b - a) = 0 ∧ n.dot (c - a) = 0 ∧ n.dot (c - b) = 0)) (triples idx) ns := by
  obtain ⟨ns, hns⟩ := faceNormals_some idx h
  refine ⟨ns, hns, (faceNormals_spec idx ns hns).imp ?_⟩
  rintro t n ⟨a, b, c, ha, hb, hc, rfl⟩
  refine ⟨a, b, c, ha, hb, hc, normalized_isDirection _, ?_⟩
  have hd : ∀ s u w : Vec3 ℝ, IsDirection s u → s.dot w = 0 → u.dot w = 0 := by
    intro s u w hs hsw
    rcases hs with ⟨-, rfl⟩ | ⟨-, c, -, rfl⟩
    · simp [Vec3.dot]
    · unfold Vec3.dot Vec3.smul at *
      simp only
      linear_combination c * hsw
  refine ⟨hd _ _ _ (normalized_isDirection _) ?_, hd _ _ _ (normalized_isDirection _) ?_,
    hd _ _ _ (normalized_isDirection _) ?_⟩ <;> simp [Vec3.dot, Vec3.cross] <;> ring

/-- **C55** `estimate_normals` gives vertex `v` the direction of the sum of the normals of the faces it is a corner of. -/
theorem C55_vertex_normals (vs : List (Vec3 ℝ)) (idx : List ℕ) (h : InRange vs.length idx) :
    ∃ fs ns, faceNormals vs idx = some fs ∧ estimateNormals idx vs = some ns ∧ ns.length = vs.length ∧
      ∀ v < vs.length, ∃ n, ns[v]? = some n ∧
        IsDirection (vsum (List.zipWith (share v) (triples idx) fs)) n := by
  obtain ⟨fs, hfs⟩ := faceNormals_some idx h
  refine ⟨fs, (addNormals (List.replicate vs.length 0) idx fs).map normalized, hfs, by simp [estimateNormals, hfs],
    by simp [addNormals_length], ?_⟩
  intro v hv
  have hlen := (faceNormals_spec idx fs hfs).length_eq
  rw [List.getElem?_map, addNormals_spec fs idx _ v 0 (by simp [hv]) hlen]
  refine ⟨_, rfl, ?_⟩
  rw [vzero_add]
  exact normalized_isDirection _

theorem modify_map_mulVec (R : Mat3 ℝ) (l : List (Vec3 ℝ)) (i : ℕ) (n : Vec3 ℝ) :
    (l.modify i (· + n)).map R.mulVec = (l.map R.mulVec).modify i (· + R.mulVec n) := by
  apply List.ext_getElem?
  intro j
  simp only [List.getElem?_map, List.getElem?_modify]
  rcases l[j]? with _ | x
  · rfl
  · simp only [Option.map_eq_map, Option.map_some]
    split_ifs
    · rw [mulVec_add]
    · rfl

theorem addNormals_rotate (R : Mat3 ℝ) : ∀ (ns : List (Vec3 ℝ)) (idx : List ℕ) (l : List (Vec3 ℝ)),
    addNormals (l.map R.mulVec) idx (ns.map R.mulVec) = (addNormals l idx ns).map R.mulVec
  | [], idx, l => by
    have : ∀ l : List (Vec3 ℝ), addNormals l idx [] = l := by intro l; unfold addNormals; split <;> simp_all
    rw [List.map_nil, this, this]
  | n :: ns, [], l => rfl
  | n :: ns, [_], l => rfl
  | n :: ns, [_, _], l => rfl
  | n :: ns, i :: j :: k :: rest, l => by
    rw [List.map_cons, addNormals, addNormals, ← addNormals_rotate R ns rest]
    rw [modify_map_mulVec, modify_map_mulVec, modify_map_mulVec]

/-- **C55** Moving the mesh by a rotation and a translation rotates face normals and estimated vertex normals. -/
theorem C55_equivariant (R : Mat3 ℝ) (hR : IsRotation R) (t : Vec3 ℝ) (vs : List (Vec3 ℝ)) (idx : List ℕ) :
    faceNormals (vs.map (fun v => R.mulVec v + t)) idx = (faceNormals vs idx).map (List.map R.mulVec) ∧
    estimateNormals idx (vs.map (fun v => R.mulVec v + t)) = (estimateNormals idx vs).map (List.map R.mulVec) := by
  refine ⟨faceNormals_rotate hR t idx, ?_⟩
  unfold estimateNormals
  rw [faceNormals_rotate hR t idx]
  rcases faceNormals vs idx with _ | fs
  · rfl
  · simp only [Option.map_some, Option.bind_eq_bind, Option.bind_some, Option.some.injEq, List.length_map]
    have e : (List.replicate vs.length (0 : Vec3 ℝ)) = (List.replicate vs.length 0).map R.mulVec := by
      rw [List.map_replicate, mulVec_zero]
    conv_lhs => rw [e, addNormals_rotate]
    rw [List.map_map, List.map_map]
    apply List.map_congr_left
    intro v _
    exact normalized_mulVec hR.1 v

example : InRange (exampleVertices (1 : ℝ)).length (exampleIndices true) := by
  unfold InRange; decide
end

/-! ### Replacing geometry -/

/-- **C58** (partial: the two are different objects) `replace_geometry` gives the mesh the geometry of the argument and leaves
its material and everything else, including the argument, alone. -/
theorem C58_replace_partial (h : ℕ → Mesh K) (i j : ℕ) (hij : i ≠ j)
    (hn : (h j).normals.length = (h j).vertices.length) :
    (Mesh.replaceGeometry h i j) i = ⟨(h j).indices, (h j).vertices, (h j).normals, (h i).material⟩ ∧
      ∀ l, l ≠ i → Mesh.replaceGeometry h i j l = h l := by
  unfold Mesh.replaceGeometry
  constructor
  · rw [Function.update_self, Function.update_self, Function.update_of_ne (Ne.symm hij)]
    unfold Mesh.merge Mesh.cleared
    by_cases hv : (h j).vertices = []
    · have hn' : (h j).normals = [] := List.eq_nil_of_length_eq_zero (by rw [hn, hv]; rfl)
      simp [hv, hn']
    · rw [if_pos (List.length_pos_iff.2 hv)]
      simp
  · intro l hl
    rw [Function.update_of_ne hl, Function.update_of_ne hl]

/-- **C58** (partial, textured) The same with texture coordinates; both textures stay. -/
theorem C58_replace_textured_partial (h : ℕ → TexturedMesh K I) (i j : ℕ) (hij : i ≠ j)
    (hn : (h j).normals.length = (h j).vertices.length) (hu : (h j).uvCoords.length ≤ (h j).vertices.length) :
    ∃ h', TexturedMesh.replaceGeometry h i j = some h' ∧
      h' i = ⟨⟨(h j).indices, (h j).vertices, (h j).normals, (h i).material⟩, (h j).uvCoords, (h i).baseColor,
        (h i).metallicRoughness⟩ ∧
      ∀ l, l ≠ i → h' l = h l := by
  unfold TexturedMesh.replaceGeometry
  simp only
  rw [Function.update_self, Function.update_of_ne (Ne.symm hij)]
  unfold TexturedMesh.merge
  simp only [if_neg (Nat.not_lt_zero _)]
  by_cases hv : (h j).vertices.length > 0
  · rw [if_pos hv]
    refine ⟨_, rfl, ?_, ?_⟩
    · simp [Mesh.merge, TexturedMesh.cleared, hv]
    · intro l hl
      rw [Function.update_of_ne hl, Function.update_of_ne hl]
  · rw [if_neg hv]
    have h0 : (h j).vertices = [] := List.eq_nil_of_length_eq_zero (by omega)
    have h1 : (h j).normals = [] := List.eq_nil_of_length_eq_zero (by omega)
    have h2 : (h j).uvCoords = [] := List.eq_nil_of_length_eq_zero (by omega)
    refine ⟨_, rfl, ?_, ?_⟩
    · simp [Mesh.merge, TexturedMesh.cleared, h0, h1, h2]
    · intro l hl
      rw [Function.update_of_ne hl, Function.update_of_ne hl]

/-- **C58** is false of `m.replace_geometry(m)`: the mesh loses its geometry. -/
theorem C58_false : ∃ h : ℕ → Mesh ℚ, (h 0).vertices ≠ [] ∧ (Mesh.replaceGeometry h 0 0 0).vertices = [] ∧
    (Mesh.replaceGeometry h 0 0 0).indices = [] :=
  ⟨fun _ => meshA, by decide +kernel, by simp [Mesh.replaceGeometry, Mesh.merge, Mesh.cleared],
    by simp [Mesh.replaceGeometry, Mesh.merge, Mesh.cleared]⟩

example : ((fun i => if i = 0 then texA else texB) 1).normals.length = ((fun i => if i = 0 then texA else texB) 1).vertices.length := by
  decide

/-! ### Rigid motions of meshes -/

section
variable [CommRing K]

/-- **C83** Transforming a mesh moves each corner by the pose and turns its normal; the triangles, texture coordinates and
textures are the same. -/
theorem C83_transform (T : Pose3 K) (isEmpty : I → Bool) (m : TexturedMesh K I)
    (hn : m.normals.length = m.vertices.length) (hu : m.uvCoords.length ≤ m.vertices.length) :
    (∃ m', m.toMesh.transform T = .ok m' ∧ m'.indices = m.indices ∧
      corners m'.vertices m'.indices = (corners m.vertices m.indices).map (Option.map (fun p => T.R.mulVec p + T.t)) ∧
      corners m'.normals m'.indices = (corners m.normals m.indices).map (Option.map T.R.mulVec)) ∧
    (∃ m', m.transform isEmpty T = .ok m' ∧ m'.indices = m.indices ∧
      corners m'.vertices m'.indices = (corners m.vertices m.indices).map (Option.map (fun p => T.R.mulVec p + T.t)) ∧
      corners m'.normals m'.indices = (corners m.normals m.indices).map (Option.map T.R.mulVec) ∧
      m'.uvCoords = m.uvCoords ∧ m'.baseColor = m.baseColor ∧ m'.metallicRoughness = m.metallicRoughness) := by
  unfold Mesh.transform TexturedMesh.transform Mesh.create TexturedMesh.create
  have e1 : (T.transformAllFrom m.vertices).length = (T.R.applyAll m.normals).length := by
    simp [Pose3.transformAllFrom, Rot3.applyAll, hn]
  have e2 : ¬ (T.transformAllFrom m.vertices).length < m.uvCoords.length := by
    simp [Pose3.transformAllFrom, Rot3.applyAll]; omega
  rw [if_pos e1, if_neg (by simp [e1]), if_neg e2]
  have c1 : corners (T.transformAllFrom m.vertices) m.indices =
      (corners m.vertices m.indices).map (Option.map (fun p => T.R.mulVec p + T.t)) := by
    unfold corners
    rw [List.map_map]
    apply List.map_congr_left
    intro i _
    simp only [Pose3.transformAllFrom, Rot3.applyAll, Function.comp, List.getElem?_map, Option.map_map]
    rfl
  have c2 : corners (T.R.applyAll m.normals) m.indices = (corners m.normals m.indices).map (Option.map T.R.mulVec) := by
    unfold corners
    rw [List.map_map]
    apply List.map_congr_left
    intro i _
    simp [Rot3.applyAll, Function.comp]
  exact ⟨⟨_, rfl, rfl, c1, c2⟩, ⟨_, rfl, rfl, c1, c2, rfl, rfl, rfl⟩⟩

/-- **C83** Transforming by two poses in turn is transforming by their composition; the identity changes no geometry; and
`rotate` is the transform without translation. -/
theorem C83_action (S T : Pose3 K) (R : Rot3 K) (m m1 m2 : Mesh K) (h1 : m.transform T = .ok m1)
    (h2 : m1.transform S = .ok m2) :
    m.transform (S.compose T) = .ok m2 ∧
    (∀ m0, m.transform Pose3.identity = .ok m0 → m0.indices = m.indices ∧ m0.vertices = m.vertices ∧
      m0.normals = m.normals) ∧
    m.rotate R = m.transform ⟨R, 0⟩ := by
  unfold Mesh.transform Mesh.create at h1
  split_ifs at h1 with g1
  simp only [Except.ok.injEq] at h1
  subst h1
  unfold Mesh.transform Mesh.create at h2
  split_ifs at h2 with g2
  simp only [Except.ok.injEq] at h2
  subst h2
  have hlen : m.vertices.length = m.normals.length := by
    simpa [Pose3.transformAllFrom, Rot3.applyAll] using g1
  refine ⟨?_, ?_, ?_⟩
  · unfold Mesh.transform Mesh.create
    rw [if_pos (by simp [Pose3.transformAllFrom, Rot3.applyAll, hlen])]
    simp only [Pose3.transformAllFrom, Rot3.applyAll, Pose3.compose, Rot3.compose, Rot3.apply, List.map_map]
    congr 2
    · apply List.map_congr_left
      intro v _
      simp only [Function.comp, mulVec_mul, mulVec_add, vadd_assoc]
    · apply List.map_congr_left
      intro v _
      simp only [Function.comp, mulVec_mul]
  · intro m0 h0
    unfold Mesh.transform Mesh.create at h0
    split_ifs at h0
    simp only [Except.ok.injEq] at h0
    subst h0
    refine ⟨rfl, ?_, ?_⟩
    · simp [Pose3.transformAllFrom, Rot3.applyAll, Pose3.identity, Rot3.identity, mulVec_one, vadd_zero]
      exact (List.map_congr_left fun v _ => mulVec_one v).trans (List.map_id _)
    · simp only [Rot3.applyAll, Pose3.identity, Rot3.identity]
      exact (List.map_congr_left fun v _ => mulVec_one v).trans (List.map_id _)
  · unfold Mesh.transform Mesh.rotate
    simp only [Pose3.transformAllFrom]
    congr 1
    exact ((List.map_congr_left fun v _ => vadd_zero v).trans (List.map_id _)).symm

/-- **C83** A transform can be undone. -/
theorem C83_inverse (T : Pose3 K) (hT : IsRotation T.R) (m m1 : Mesh K) (h1 : m.transform T = .ok m1) :
    ∃ m2, m1.transform T.inverse = .ok m2 ∧ m2.indices = m.indices ∧ m2.vertices = m.vertices ∧ m2.normals = m.normals := by
  unfold Mesh.transform Mesh.create at h1
  split_ifs at h1 with g1
  simp only [Except.ok.injEq] at h1
  subst h1
  unfold Mesh.transform Mesh.create
  have hlen : m.vertices.length = m.normals.length := by
    simpa [Pose3.transformAllFrom, Rot3.applyAll] using g1
  rw [if_pos (by simp [Pose3.transformAllFrom, Rot3.applyAll, hlen])]
  have key : ∀ v : Vec3 K, T.R.transpose.mulVec (T.R.mulVec v) = v := by
    intro v; rw [← mulVec_mul, hT.1.left, mulVec_one]
  refine ⟨_, rfl, rfl, ?_, ?_⟩
  · simp only [Pose3.transformAllFrom, Rot3.applyAll, Pose3.inverse, Rot3.inverse, Rot3.apply, List.map_map]
    refine (List.map_congr_left fun v _ => ?_).trans (List.map_id _)
    simp only [Function.comp, mulVec_add, key]
    ext <;> simp
  · simp only [Rot3.applyAll, Pose3.inverse, Rot3.inverse, List.map_map]
    refine (List.map_congr_left fun v _ => ?_).trans (List.map_id _)
    simp only [Function.comp, key, id]
end

example : ∃ m1 m2, meshA.transform ⟨Rot3.identity, ⟨1, 2, 3⟩⟩ = .ok m1 ∧ m1.transform ⟨⟨0, -1, 0, 1, 0, 0, 0, 0, 1⟩, ⟨1, 0, 0⟩⟩ = .ok m2 :=
  ⟨_, _, rfl, rfl⟩

/-- **C84** (partial: geometry, textures and, for meshes as constructed, materials) Copying keeps the geometry. -/
theorem C84_copy_partial (m : Mesh K) : m.copy.indices = m.indices ∧ m.copy.vertices = m.vertices ∧
    m.copy.normals = m.normals ∧ (m.material = .empty → m.copy = m) := by
  refine ⟨rfl, rfl, rfl, ?_⟩
  intro h
  unfold Mesh.copy
  rw [← h]

/-- **C84** is false of the code: a mesh with a material (as loaded from a file) loses it when copied, transformed or rotated,
and a textured mesh has its material reset. -/
theorem C84_false :
    (∃ m : Mesh ℚ, m.hasSameMaterial m.copy = false) ∧
    (∃ m m' : Mesh ℚ, m.transform Pose3.identity = .ok m' ∧ m.hasSameMaterial m' = false) ∧
    (∃ m m' : TexturedMesh ℚ Unit, m.transform (fun _ => false) Pose3.identity = .ok m' ∧
      m.toMesh.hasSameMaterial m'.toMesh = false) := by
  refine ⟨⟨{ meshA with material := ⟨"wood", [], []⟩ }, by decide +kernel⟩,
    ⟨{ meshA with material := ⟨"wood", [], []⟩ }, _, rfl, by decide +kernel⟩,
    ⟨{ texB with material := ⟨"wood", [], []⟩ }, _, rfl, by decide +kernel⟩⟩

/-! ### The example meshes -/

section
variable {K : Type} [Field K] [LinearOrder K] [IsStrictOrderedRing K]
open BoxSpec Mesh

/-- The triangles of the example mesh as corner numbers. -/
def exampleTris (inward : Bool) : List (ℕ × ℕ × ℕ) := triples (exampleIndices inward)

/-- **C85** `Mesh.example` is a closed surface of twelve triangles around a cube of the given side length, centred at the origin;
its winding is outward or inward as asked. -/
theorem C85_example (length : K) (inward : Bool) :
    ∃ ts, triangles (exampleVertices length) (exampleIndices inward) = some ts ∧ ts.length = 12 ∧ Closed ts ∧
      volume6 ts = (if inward then -6 else 6) * length ^ 3 ∧
      (∀ v ∈ exampleVertices length, (v.x = length / 2 ∨ v.x = -(length / 2)) ∧
        (v.y = length / 2 ∨ v.y = -(length / 2)) ∧ (v.z = length / 2 ∨ v.z = -(length / 2))) := by
  have hv : ∀ v ∈ exampleVertices length, (v.x = length / 2 ∨ v.x = -(length / 2)) ∧
        (v.y = length / 2 ∨ v.y = -(length / 2)) ∧ (v.z = length / 2 ∨ v.z = -(length / 2)) := by
    simp [exampleVertices]
  have hc : ∃ ts, triangles (List.range 8) (exampleIndices inward) = some ts ∧ Closed ts := by
    unfold Closed
    cases inward
    · exact ⟨_, rfl, by decide +kernel⟩
    · exact ⟨_, rfl, by decide +kernel⟩
  obtain ⟨ts0, h0, hcl⟩ := hc
  have hmap : exampleVertices length = (List.range 8).map (fun i => (exampleVertices length)[i]?.getD 0) := rfl
  have ht := triangles_map (fun i => (exampleVertices length)[i]?.getD 0) _ _ _ h0
  rw [← hmap] at ht
  refine ⟨_, ht, ?_, closed_map (fun i => (exampleVertices length)[i]?.getD 0) _ hcl, ?_, hv⟩
  · cases inward
    · obtain rfl := Option.some.inj (h0.symm.trans rfl); rfl
    · obtain rfl := Option.some.inj (h0.symm.trans rfl); rfl
  · cases inward
    · obtain rfl := Option.some.inj (h0.symm.trans rfl)
      simp [volume6, Vec3.dot, Vec3.cross, exampleVertices]
      ring
    · obtain rfl := Option.some.inj (h0.symm.trans rfl)
      simp [volume6, Vec3.dot, Vec3.cross, exampleVertices]
      ring

/-- **C85** `Mesh.example` succeeds, with the vertices and triangles of `C85_example` and one normal per vertex. -/
theorem C85_normals (length : ℝ) (inward : Bool) : ∃ m, Mesh.example' length inward = some m ∧
    m.vertices = exampleVertices length ∧ m.indices = exampleIndices inward ∧
    estimateNormals m.indices m.vertices = some m.normals ∧ m.normals.length = m.vertices.length := by
  have hr : InRange (exampleVertices length).length (exampleIndices inward) := by
    have : (exampleVertices length).length = 8 := rfl
    rw [this]
    unfold InRange
    cases inward <;> decide
  obtain ⟨fs, ns, -, hns, hl, -⟩ := C55_vertex_normals _ _ hr
  unfold Mesh.example'
  rw [hns]
  exact ⟨_, rfl, rfl, rfl, hns, hl⟩

/-- **C86** `TexturedMesh.cube` is a closed surface of twelve triangles around the cube with corners ±1, seen from inside: the
winding and the stored normals point to the centre.  Texture coordinates are in [0, 1], and each of the six faces has its own sixth
of the texture. -/
theorem C86_cube {I : Type} (isEmpty : I → Bool) (rows : ℕ) (hr : 0 < rows) (tex mr : I) :
    ∃ m : TexturedMesh K I, TexturedMesh.cube isEmpty rows (6 * rows) tex mr = .ok m ∧
      m.baseColor = tex ∧ m.metallicRoughness = mr ∧
      (∃ ts, triangles (m.vertices.zip m.normals) m.indices = some ts ∧ ts.length = 12 ∧
        Closed (ts.map fun t => (t.1.1, t.2.1.1, t.2.2.1)) ∧
        volume6 (ts.map fun t => (t.1.1, t.2.1.1, t.2.2.1)) = -48 ∧
        ∀ t ∈ ts, t.2.1.2 = t.1.2 ∧ t.2.2.2 = t.1.2 ∧ t.1.2.normSq = 1 ∧
          (t.2.1.1 - t.1.1).cross (t.2.2.1 - t.1.1) = Vec3.smul 4 t.1.2 ∧ t.1.2.dot t.1.1 = -1) ∧
      m.uvCoords.length = 24 ∧ (∀ uv ∈ m.uvCoords, 0 ≤ uv.1 ∧ uv.1 ≤ 1 ∧ 0 ≤ uv.2 ∧ uv.2 ≤ 1) ∧
      (∀ f : ℕ, f < 6 → ∀ v : ℕ, v < 24 → v / 4 = f → ∃ uv, m.uvCoords[v]? = some uv ∧ (f : K) / 6 ≤ uv.1 ∧ uv.1 ≤ ((f : K) + 1) / 6) := by
  have hK : (rows : K) ≠ 0 := by exact_mod_cast hr.ne'
  have huv : TexturedMesh.cubeUv (rows : K) = (List.range 6).flatMap fun (i : ℕ) =>
      [((i : K) / 6, (1 : K)), (((i : K) + 1) / 6, 1), ((i : K) / 6, 0), (((i : K) + 1) / 6, 0)] := by
    unfold TexturedMesh.cubeUv
    congr 1
    funext i
    simp only [List.cons.injEq, Prod.mk.injEq, and_true]
    refine ⟨⟨?_, ?_⟩, ⟨?_, ?_⟩, ⟨?_, ?_⟩, ?_, ?_⟩ <;> field_simp <;> simp
  unfold TexturedMesh.cube TexturedMesh.create
  rw [if_neg (by simp), if_neg (by simp [cubeVertices, cubeNormals]),
    if_neg (by rw [huv]; simp [cubeVertices, List.range_succ])]
  refine ⟨_, rfl, rfl, rfl, ?_, ?_, ?_, ?_⟩
  · have hc : ∃ ts, triangles (cubeVertices (K := ℤ)) TexturedMesh.cubeIndices = some ts ∧ Closed ts := by
      unfold Closed
      exact ⟨_, rfl, by decide +kernel⟩
    obtain ⟨ts0, h0, hcl⟩ := hc
    have hcl' := closed_map (fun v : Vec3 ℤ => (⟨(v.x : K), (v.y : K), (v.z : K)⟩ : Vec3 K)) _ hcl
    refine ⟨_, rfl, rfl, ?_, ?_, ?_⟩
    · obtain rfl := Option.some.inj (h0.symm.trans rfl)
      simp only [List.map_cons, List.map_nil] at hcl' ⊢
      norm_num at hcl'
      exact hcl'
    · simp [volume6, Vec3.dot, Vec3.cross]
      norm_num
    · simp only [List.forall_mem_cons, List.not_mem_nil, false_imp_iff, implies_true, and_true]
      refine ⟨?_, ?_, ?_, ?_, ?_, ?_, ?_, ?_, ?_, ?_, ?_, ?_⟩ <;>
        (refine ⟨by simp, by simp, by simp [Vec3.normSq, Vec3.dot], ?_, by simp [Vec3.dot]⟩
         ext <;> simp [Vec3.cross, Vec3.smul] <;> norm_num)
  · simp only [huv]
    simp [List.range_succ]
  · simp only [huv]
    intro uv h
    simp only [List.mem_flatMap, List.mem_range, List.mem_cons, List.not_mem_nil, or_false] at h
    obtain ⟨i, hi, h⟩ := h
    have hi' : (i : K) + 1 ≤ 6 := by exact_mod_cast hi
    have hi0 : (0 : K) ≤ i := Nat.cast_nonneg i
    have g1 : 0 ≤ (i : K) / 6 := by positivity
    have g2 : ((i : K) + 1) / 6 ≤ 1 := by rw [div_le_one (by norm_num)]; exact hi'
    have g3 : (i : K) / 6 ≤ ((i : K) + 1) / 6 := by
      apply div_le_div_of_nonneg_right _ (by norm_num); linarith
    rcases h with rfl | rfl | rfl | rfl <;> refine ⟨?_, ?_, ?_, ?_⟩ <;> simp only <;> first | linarith | norm_num
  · intro f hf v hv hvf
    simp only [huv]
    have g : ∀ i : ℕ, (i : K) / 6 ≤ ((i : K) + 1) / 6 := by
      intro i; apply div_le_div_of_nonneg_right _ (by norm_num); linarith
    subst hvf
    interval_cases v <;> exact ⟨_, rfl, by first | exact le_refl _ | exact g _, by first | exact le_refl _ | exact g _⟩

/-- **C87** (partial: vertices and normals only) `Mesh.cube` has the vertices and normals of the cube. -/
theorem C87_mesh_cube_partial (uninit : List ℕ) : ∃ m : Mesh K, Mesh.cube uninit = .ok m ∧
    m.vertices.length = 24 ∧ m.normals.length = 24 ∧
    (∀ v ∈ m.vertices, (v.x = 1 ∨ v.x = -1) ∧ (v.y = 1 ∨ v.y = -1) ∧ (v.z = 1 ∨ v.z = -1)) ∧
    (∀ p ∈ m.vertices.zip m.normals, p.2.normSq = 1 ∧ p.2.dot p.1 = -1) := by
  unfold Mesh.cube Mesh.create
  rw [if_pos (by simp [cubeVertices, cubeNormals])]
  refine ⟨_, rfl, rfl, rfl, ?_, ?_⟩
  · simp [cubeVertices]
  · simp [cubeVertices, cubeNormals, Vec3.normSq, Vec3.dot]

end

/-- **C87** is false of the code: the index array is never filled in, so its content need not describe a closed surface. -/
theorem C87_false : ∃ (uninit : List ℕ) (m : Mesh ℚ), uninit.length = 36 ∧ Mesh.cube uninit = .ok m ∧
    ∃ ts, BoxSpec.triangles m.vertices m.indices = some ts ∧ BoxSpec.volume6 ts = 0 ∧
      ∀ t ∈ ts, t.1 = t.2.1 :=
  ⟨List.replicate 36 0, _, rfl, rfl, _, rfl, by decide +kernel, by decide +kernel⟩

/-! ### Dual-texture materials -/

/-- **C88** A newly built textured mesh has a dual-texture material exactly if its metallic/roughness texture is non-empty. -/
theorem C88_dual_texture (isEmpty : I → Bool) (idx : List ℕ) (vs ns : List (Vec3 K)) (uv : List (K × K)) (c r : I)
    (m : TexturedMesh K I) (h : TexturedMesh.create isEmpty idx vs ns uv c r = .ok m) :
    m.hasDualTextureMaterial = .ok (!isEmpty r) := by
  unfold TexturedMesh.create at h
  split_ifs at h
  simp only [Except.ok.injEq] at h
  subst h
  unfold TexturedMesh.hasDualTextureMaterial TexturedMesh.defaultMaterial
  cases isEmpty r
  · rfl
  · rfl

/-- **C88** Merging, renumbering and replacing the geometry do not change that. -/
theorem C88_kept (m m2 m' : TexturedMesh K I) (k n : ℕ) (r : List ℕ) (jv : Vec3 K) (ju : K × K) :
    (m.merge m2 k = some m' → m'.hasDualTextureMaterial = m.hasDualTextureMaterial) ∧
    (m.renumber jv ju n r = some m' → m'.hasDualTextureMaterial = m.hasDualTextureMaterial) := by
  constructor
  · intro h
    have : m'.material = m.material := by
      unfold TexturedMesh.merge at h
      simp only at h
      split_ifs at h <;> simp only [Option.some.injEq] at h <;> subst h <;> simp only [merge_material]
    unfold TexturedMesh.hasDualTextureMaterial
    rw [this]
  · intro h
    obtain ⟨-, -, -, -, -, -, h7⟩ := renumber_ok h
    unfold TexturedMesh.hasDualTextureMaterial
    rw [h7]

example : ∃ m, TexturedMesh.create (fun b : Bool => b) [0, 1, 2] meshA.vertices meshA.normals [] true false = .ok m ∧
    m.hasDualTextureMaterial = .ok true := ⟨_, rfl, rfl⟩

end Sumo
