import Verif.Lemmas.Box

/-!
# Boxes (C39, C40, C41, C43)
-/

set_option linter.unusedSectionVars false

namespace Sumo
open BoxSpec
variable {K : Type} [Field K] [LinearOrder K] [IsStrictOrderedRing K]

/-- **C39** The corners are the eight points whose coordinates are extreme, front (`+z`) first; the centre is
their mean; the interior test is strict. -/
theorem C39_corners (b : Box3d K) :
    b.corners.length = 8 ∧
    (∀ v, v ∈ b.corners ↔ (v.x = b.minCorner.x ∨ v.x = b.maxCorner.x) ∧
      (v.y = b.minCorner.y ∨ v.y = b.maxCorner.y) ∧ (v.z = b.minCorner.z ∨ v.z = b.maxCorner.z)) ∧
    (Positive b → b.corners.Nodup) ∧
    (∀ v ∈ b.corners.take 4, v.z = b.maxCorner.z) ∧ (∀ v ∈ b.corners.drop 4, v.z = b.minCorner.z) ∧
    (b.center.x = (b.corners.map Vec3.x).sum / 8 ∧ b.center.y = (b.corners.map Vec3.y).sum / 8 ∧
      b.center.z = (b.corners.map Vec3.z).sum / 8) ∧
    (∀ p, b.pointInBox p = true ↔ (b.minCorner.x < p.x ∧ p.x < b.maxCorner.x) ∧
      (b.minCorner.y < p.y ∧ p.y < b.maxCorner.y) ∧ (b.minCorner.z < p.z ∧ p.z < b.maxCorner.z)) := by
  refine ⟨rfl, ?_, ?_, ?_, ?_, ?_, ?_⟩
  · intro v
    simp only [Box3d.corners, List.mem_cons, Vec3.ext_iff, List.not_mem_nil, or_false]
    constructor
    · rintro (h | h | h | h | h | h | h | h) <;> simp [h]
    · rintro ⟨h1 | h1, h2 | h2, h3 | h3⟩ <;> simp [h1, h2, h3]
  · rintro ⟨h1, h2, h3⟩
    simp [Box3d.corners, h1.ne, h2.ne, h1.ne', h2.ne', h3.ne']
  · simp [Box3d.corners]
  · simp [Box3d.corners]
  · refine ⟨?_, ?_, ?_⟩ <;> simp [Box3d.corners, Box3d.center] <;> ring
  · intro p
    simp only [Box3d.pointInBox, decide_eq_true_eq]
    tauto

/-- **C39** The constructor's corners may be given in any order: the box is the least one containing both, its volume is
the product of the edge lengths, and is never negative. -/
theorem C39_constructor (c1 c2 : Vec3 K) :
    Box3d.mk' c1 c2 = Box3d.mk' c2 c1 ∧
    (∀ p, Mem (Box3d.mk' c1 c2) p ↔ (min c1.x c2.x ≤ p.x ∧ p.x ≤ max c1.x c2.x) ∧
      (min c1.y c2.y ≤ p.y ∧ p.y ≤ max c1.y c2.y) ∧ (min c1.z c2.z ≤ p.z ∧ p.z ≤ max c1.z c2.z)) ∧
    (Box3d.mk' c1 c2).volume = |c1.x - c2.x| * |c1.y - c2.y| * |c1.z - c2.z| ∧
    0 ≤ (Box3d.mk' c1 c2).volume ∧
    (∀ b : Box3d K, Ordered b → Box3d.mk' b.minCorner b.maxCorner = b) := by
  have hv : (Box3d.mk' c1 c2).volume = |c1.x - c2.x| * |c1.y - c2.y| * |c1.z - c2.z| := by
    simp [Box3d.volume, Box3d.mk', Vec3.vmin, Vec3.vmax, max_sub_min_eq_abs']
  refine ⟨?_, ?_, hv, ?_, fun b hb => mk'_of_ordered hb⟩
  · ext <;> simp [Box3d.mk', Vec3.vmin, Vec3.vmax, min_comm, max_comm]
  · intro p
    simp only [Mem, Box3d.mk', Vec3.vmin, Vec3.vmax]
  · rw [hv]; positivity

example : Positive (Box3d.mk' (⟨1, 0, 3⟩ : Vec3 ℚ) ⟨0, 2, 1⟩) ∧
    (Box3d.mk' (⟨1, 0, 3⟩ : Vec3 ℚ) ⟨0, 2, 1⟩).volume = 4 := by
  unfold Positive; decide +kernel

/-- **C40** `merge` of a non-empty list of boxes contains each of them and is contained in every box that does. -/
theorem C40_merge_least (bs : List (Box3d K)) (hne : bs ≠ []) (ho : ∀ b ∈ bs, Ordered b) :
    (∀ b ∈ bs, ∀ p, Mem b p → Mem (Box3d.merge bs) p) ∧
    (∀ c : Box3d K, (∀ b ∈ bs, ∀ p, Mem b p → Mem c p) → ∀ p, Mem (Box3d.merge bs) p → Mem c p) ∧
    Ordered (Box3d.merge bs) := by
  match bs, hne with
  | b :: bs, _ =>
    have hb := ho b (by simp)
    have hmin := amin_spec b.minCorner (bs.map Box3d.minCorner)
    have hmax := amax_spec b.maxCorner (bs.map Box3d.maxCorner)
    have e := merge_cons b bs hb
    rw [show b.minCorner :: bs.map Box3d.minCorner = (b :: bs).map Box3d.minCorner from rfl] at hmin
    rw [show b.maxCorner :: bs.map Box3d.maxCorner = (b :: bs).map Box3d.maxCorner from rfl] at hmax
    rw [e]
    refine ⟨?_, ?_, ?_⟩
    · intro c hc p hp
      have h1 := hmin.1 _ (List.mem_map_of_mem hc)
      have h2 := hmax.1 _ (List.mem_map_of_mem hc)
      exact ⟨⟨h1.1.trans hp.1.1, hp.1.2.trans h2.1⟩, ⟨h1.2.1.trans hp.2.1.1, hp.2.1.2.trans h2.2.1⟩,
        ⟨h1.2.2.trans hp.2.2.1, hp.2.2.2.trans h2.2.2⟩⟩
    · intro c hc p hp
      have hmem : ∀ a ∈ b :: bs, Mem c a.minCorner ∧ Mem c a.maxCorner := fun a ha =>
        ⟨hc a ha _ ⟨⟨le_refl _, (ho a ha).1⟩, ⟨le_refl _, (ho a ha).2.1⟩, ⟨le_refl _, (ho a ha).2.2⟩⟩,
          hc a ha _ ⟨⟨(ho a ha).1, le_refl _⟩, ⟨(ho a ha).2.1, le_refl _⟩, ⟨(ho a ha).2.2, le_refl _⟩⟩⟩
      obtain ⟨-, ⟨x1, hx1, ex1⟩, ⟨y1, hy1, ey1⟩, ⟨z1, hz1, ez1⟩⟩ := hmin
      obtain ⟨-, ⟨x2, hx2, ex2⟩, ⟨y2, hy2, ey2⟩, ⟨z2, hz2, ez2⟩⟩ := hmax
      obtain ⟨a1, ha1, rfl⟩ := List.mem_map.1 hx1
      obtain ⟨a2, ha2, rfl⟩ := List.mem_map.1 hx2
      obtain ⟨a3, ha3, rfl⟩ := List.mem_map.1 hy1
      obtain ⟨a4, ha4, rfl⟩ := List.mem_map.1 hy2
      obtain ⟨a5, ha5, rfl⟩ := List.mem_map.1 hz1
      obtain ⟨a6, ha6, rfl⟩ := List.mem_map.1 hz2
      obtain ⟨⟨p1, p2⟩, ⟨p3, p4⟩, ⟨p5, p6⟩⟩ := hp
      simp only at p1 p2 p3 p4 p5 p6
      rw [← ex1] at p1
      rw [← ex2] at p2
      rw [← ey1] at p3
      rw [← ey2] at p4
      rw [← ez1] at p5
      rw [← ez2] at p6
      exact ⟨⟨(hmem a1 ha1).1.1.1.trans p1, p2.trans (hmem a2 ha2).2.1.2⟩,
        ⟨(hmem a3 ha3).1.2.1.1.trans p3, p4.trans (hmem a4 ha4).2.2.1.2⟩,
        ⟨(hmem a5 ha5).1.2.2.1.trans p5, p6.trans (hmem a6 ha6).2.2.2.2⟩⟩
    · have h1 := hmin.1 b.minCorner (by simp)
      have h2 := hmax.1 b.maxCorner (by simp)
      exact ⟨(h1.1.trans hb.1).trans h2.1, (h1.2.1.trans hb.2.1).trans h2.2.1,
        (h1.2.2.trans hb.2.2).trans h2.2.2⟩

/-- Ordered boxes with the same points are equal. -/
theorem box_ext_of_mem {a b : Box3d K} (ha : Ordered a) (hb : Ordered b) (h : ∀ p, Mem a p ↔ Mem b p) :
    a = b := by
  have a1 := (h a.minCorner).1 ⟨⟨le_refl _, ha.1⟩, ⟨le_refl _, ha.2.1⟩, ⟨le_refl _, ha.2.2⟩⟩
  have a2 := (h a.maxCorner).1 ⟨⟨ha.1, le_refl _⟩, ⟨ha.2.1, le_refl _⟩, ⟨ha.2.2, le_refl _⟩⟩
  have b1 := (h b.minCorner).2 ⟨⟨le_refl _, hb.1⟩, ⟨le_refl _, hb.2.1⟩, ⟨le_refl _, hb.2.2⟩⟩
  have b2 := (h b.maxCorner).2 ⟨⟨hb.1, le_refl _⟩, ⟨hb.2.1, le_refl _⟩, ⟨hb.2.2, le_refl _⟩⟩
  ext
  · exact le_antisymm b1.1.1 a1.1.1
  · exact le_antisymm b1.2.1.1 a1.2.1.1
  · exact le_antisymm b1.2.2.1 a1.2.2.1
  · exact le_antisymm a2.1.2 b2.1.2
  · exact le_antisymm a2.2.1.2 b2.2.1.2
  · exact le_antisymm a2.2.2.2 b2.2.2.2

/-- **C40** hence `merge` depends neither on the order or multiplicity of the boxes nor on how they are grouped. -/
theorem C40_merge_order_grouping (bs cs : List (Box3d K)) (hb : bs ≠ []) (hc : cs ≠ [])
    (hob : ∀ b ∈ bs, Ordered b) (hoc : ∀ b ∈ cs, Ordered b) :
    ((∀ b, b ∈ bs ↔ b ∈ cs) → Box3d.merge bs = Box3d.merge cs) ∧
    Box3d.merge [Box3d.merge bs, Box3d.merge cs] = Box3d.merge (bs ++ cs) ∧
    (∀ b : Box3d K, Ordered b → Box3d.merge [b] = b) := by
  obtain ⟨b1, b2, b3⟩ := C40_merge_least bs hb hob
  obtain ⟨c1, c2, c3⟩ := C40_merge_least cs hc hoc
  refine ⟨fun h => ?_, ?_, fun b hb => ?_⟩
  · refine box_ext_of_mem b3 c3 fun p => ⟨?_, ?_⟩
    · exact b2 _ (fun a ha => c1 a ((h a).1 ha)) p
    · exact c2 _ (fun a ha => b1 a ((h a).2 ha)) p
  · obtain ⟨d1, d2, d3⟩ := C40_merge_least [Box3d.merge bs, Box3d.merge cs] (by simp)
      (by simp [b3, c3])
    obtain ⟨e1, e2, e3⟩ := C40_merge_least (bs ++ cs) (by simp [hb])
      (by intro b h; rcases List.mem_append.1 h with h | h; exacts [hob b h, hoc b h])
    refine box_ext_of_mem d3 e3 fun p => ⟨?_, ?_⟩
    · refine d2 _ ?_ p
      intro a ha q hq
      rcases List.mem_pair.1 ha with rfl | rfl
      · exact b2 _ (fun a ha => e1 a (by simp [ha])) q hq
      · exact c2 _ (fun a ha => e1 a (by simp [ha])) q hq
    · refine e2 _ ?_ p
      intro a ha q hq
      rcases List.mem_append.1 ha with ha | ha
      · exact d1 _ (by simp) q (b1 a ha q hq)
      · exact d1 _ (by simp) q (c1 a ha q hq)
  · exact mk'_of_ordered hb

example : Box3d.merge [Box3d.mk' (⟨0, 0, 0⟩ : Vec3 ℚ) ⟨1, 1, 1⟩, Box3d.mk' ⟨3, -1, 0⟩ ⟨2, 0, 5⟩]
    = ⟨⟨0, -1, 0⟩, ⟨3, 1, 5⟩⟩ := by decide +kernel

/-- **C41** the box of a non-empty point cloud (or of the vertices of a mesh) contains every point, and each of its faces
touches one. -/
theorem C41_bbox_tight (ps : List (Vec3 K)) (hne : ps ≠ []) :
    (∀ p ∈ ps, Mem (bboxOfPoints ps) p) ∧ Tight (bboxOfPoints ps) ps := by
  match ps, hne with
  | p :: ps, _ =>
    rw [bboxOfPoints_cons]
    obtain ⟨h1, h2, h3, h4⟩ := amin_spec p ps
    obtain ⟨g1, g2, g3, g4⟩ := amax_spec p ps
    exact ⟨fun q hq => ⟨⟨(h1 q hq).1, (g1 q hq).1⟩, ⟨(h1 q hq).2.1, (g1 q hq).2.1⟩,
      ⟨(h1 q hq).2.2, (g1 q hq).2.2⟩⟩, h2, g2, h3, g3, h4, g4⟩

/-- **C41** the box of a non-empty list of non-empty meshes is the box of all their vertices. -/
theorem C41_bbox_meshes (ms : List (List (Vec3 K))) (hne : ms ≠ []) (hm : ∀ m ∈ ms, m ≠ []) :
    bboxOfMeshes ms = bboxOfPoints ms.flatten ∧
    (∀ m ∈ ms, ∀ p ∈ m, Mem (bboxOfMeshes ms) p) ∧ Tight (bboxOfMeshes ms) ms.flatten := by
  have hord : ∀ m ∈ ms, Ordered (bboxOfPoints m) := by
    intro m h
    cases m with
    | nil => exact mk'_ordered _ _
    | cons p ps => exact mk'_ordered _ _
  obtain ⟨h1, h2, h3⟩ := C40_merge_least (ms.map bboxOfPoints) (by simpa using hne)
    (by intro b hb; obtain ⟨m, hm, rfl⟩ := List.mem_map.1 hb; exact hord m hm)
  have hfl : ms.flatten ≠ [] := by
    obtain ⟨m, ms', rfl⟩ := List.exists_cons_of_ne_nil hne
    simp [hm m (by simp)]
  obtain ⟨g1, g2⟩ := C41_bbox_tight ms.flatten hfl
  have hordF : Ordered (bboxOfPoints ms.flatten) := by
    cases ms.flatten with
    | nil => exact mk'_ordered _ _
    | cons p ps => exact mk'_ordered _ _
  have hcont : ∀ m ∈ ms, ∀ p ∈ m, Mem (bboxOfMeshes ms) p := fun m hmem p hp =>
    h1 (bboxOfPoints m) (List.mem_map_of_mem hmem) p ((C41_bbox_tight m (hm m hmem)).1 p hp)
  have hsub : ∀ m ∈ ms, ∀ q, Mem (bboxOfPoints m) q → Mem (bboxOfPoints ms.flatten) q := by
    intro m hmem q hq
    obtain ⟨-, ⟨a, ha, ea⟩, ⟨b, hb, eb⟩, ⟨c, hc, ec⟩, ⟨d, hd, ed⟩, ⟨e, he, ee⟩, ⟨f, hf, ef⟩⟩ :=
      C41_bbox_tight m (hm m hmem)
    have mm : ∀ v ∈ m, Mem (bboxOfPoints ms.flatten) v := fun v hv =>
      g1 v (List.mem_flatten.2 ⟨m, hmem, hv⟩)
    obtain ⟨⟨q1, q2⟩, ⟨q3, q4⟩, ⟨q5, q6⟩⟩ := hq
    rw [← ea] at q1
    rw [← eb] at q2
    rw [← ec] at q3
    rw [← ed] at q4
    rw [← ee] at q5
    rw [← ef] at q6
    exact ⟨⟨(mm a ha).1.1.trans q1, q2.trans (mm b hb).1.2⟩,
      ⟨(mm c hc).2.1.1.trans q3, q4.trans (mm d hd).2.1.2⟩,
      ⟨(mm e he).2.2.1.trans q5, q6.trans (mm f hf).2.2.2⟩⟩
  have heq : bboxOfMeshes ms = bboxOfPoints ms.flatten := by
    refine box_ext_of_mem h3 hordF fun p => ⟨?_, ?_⟩
    · refine h2 _ ?_ p
      intro b hb q hq
      obtain ⟨m, hmem, rfl⟩ := List.mem_map.1 hb
      exact hsub m hmem q hq
    · intro hp
      obtain ⟨⟨a, ha, ea⟩, ⟨b, hb, eb⟩, ⟨c, hc, ec⟩, ⟨d, hd, ed⟩, ⟨e, he, ee⟩, ⟨f, hf, ef⟩⟩ := g2
      have mm : ∀ v ∈ ms.flatten, Mem (bboxOfMeshes ms) v := by
        intro v hv
        obtain ⟨m, hmem, hv⟩ := List.mem_flatten.1 hv
        exact hcont m hmem v hv
      obtain ⟨⟨q1, q2⟩, ⟨q3, q4⟩, ⟨q5, q6⟩⟩ := hp
      rw [← ea] at q1
      rw [← eb] at q2
      rw [← ec] at q3
      rw [← ed] at q4
      rw [← ee] at q5
      rw [← ef] at q6
      exact ⟨⟨(mm a ha).1.1.trans q1, q2.trans (mm b hb).1.2⟩,
        ⟨(mm c hc).2.1.1.trans q3, q4.trans (mm d hd).2.1.2⟩,
        ⟨(mm e he).2.2.1.trans q5, q6.trans (mm f hf).2.2.2⟩⟩
  exact ⟨heq, hcont, heq ▸ g2⟩

example : bboxOfMeshes [[(⟨1, 2, 3⟩ : Vec3 ℚ), ⟨4, 0, 3⟩], [⟨2, 5, 7⟩]] = ⟨⟨1, 0, 3⟩, ⟨4, 5, 7⟩⟩ := by
  decide +kernel

/-- **C80** (false of the code) One empty mesh in the list pulls the box to the origin: the box of a list with an empty mesh
is not the box of the vertices. -/
theorem C80_empty_mesh_counterexample :
    bboxOfMeshes [[(⟨1, 2, 3⟩ : Vec3 ℚ)], []] = ⟨⟨0, 0, 0⟩, ⟨1, 2, 3⟩⟩ ∧
    bboxOfPoints [[(⟨1, 2, 3⟩ : Vec3 ℚ)], []].flatten = ⟨⟨1, 2, 3⟩, ⟨1, 2, 3⟩⟩ := by decide +kernel

/-- **C80** What holds in general: the box of any list of meshes contains all vertices, and it is the box of the vertices
together with the origin when some mesh is empty. -/
theorem C80_empty_meshes_partial (ms : List (List (Vec3 K))) (hne : ms ≠ []) :
    (∀ m ∈ ms, ∀ p ∈ m, Mem (bboxOfMeshes ms) p) ∧
    bboxOfMeshes ms = bboxOfPoints (ms.map fun m => if m = [] then [0] else m).flatten := by
  have e : bboxOfMeshes ms = bboxOfMeshes (ms.map fun m => if m = [] then [0] else m) := by
    unfold bboxOfMeshes
    congr 1
    rw [List.map_map]
    apply List.map_congr_left
    intro m _
    cases m with
    | nil => simp [bboxOfPoints, Box3d.amin, Box3d.amax]
    | cons p ps => simp
  have h := C41_bbox_meshes (ms.map fun m => if m = [] then [0] else m) (by simpa using hne) (by
    intro m hm
    obtain ⟨m', -, rfl⟩ := List.mem_map.1 hm
    split <;> simp_all)
  refine ⟨?_, e.trans h.1⟩
  intro m hm p hp
  rw [e]
  refine h.2.1 m ?_ p hp
  refine List.mem_map.2 ⟨m, hm, ?_⟩
  rw [if_neg]
  rintro rfl
  simp at hp

/-- The triangles of the box mesh as corner numbers. -/
def boxTris (out : Bool) : List (ℕ × ℕ × ℕ) := (triangles Box3d.vertLut (Box3d.meshIndices out)).getD []

theorem boxTris_closed (out : Bool) : Closed (boxTris out) ∧ (edges (boxTris out)).Nodup ∧
    (∀ e ∈ edges (boxTris out), e.1 < 8 ∧ e.2 < 8) := by
  unfold Closed
  cases out <;> decide +kernel

/-- The corner with a given number. -/
def cornerAt (b : Box3d K) (i : ℕ) : Vec3 K := (b.corners)[i]?.getD 0

theorem cornerAt_injOn (b : Box3d K) (h : Positive b) (i j : ℕ) (hi : i < 8) (hj : j < 8)
    (e : cornerAt b i = cornerAt b j) : i = j := by
  have hn := (C39_corners b).2.2.1 h
  have hl : b.corners.length = 8 := rfl
  unfold cornerAt at e
  rw [List.getElem?_eq_getElem (by omega), List.getElem?_eq_getElem (by omega)] at e
  exact (List.Nodup.getElem_inj_iff hn).1 (by simpa using e)

/-- **C43** The mesh of a box: 12 triangles, closed, every oriented edge once, lying on the faces of the box, with the
stored vertex normals and the winding pointing outward (inward if requested), enclosing the volume of the box. -/
theorem C43_box_mesh (b : Box3d K) (h : Positive b) (out : Bool) :
    ∃ ts, triangles ((b.toMeshHelper out).1.zip (b.toMeshHelper out).2.2) (b.toMeshHelper out).2.1 = some ts ∧
      ts.length = 12 ∧
      Closed (ts.map fun t => (t.1.1, t.2.1.1, t.2.2.1)) ∧
      (edges (ts.map fun t => (t.1.1, t.2.1.1, t.2.2.1))).Nodup ∧
      (∀ t ∈ ts, t.2.1.2 = t.1.2 ∧ t.2.2.2 = t.1.2 ∧ t.1.2.normSq = 1 ∧
        (∃ k : K, 0 < k ∧ Vec3.cross (t.2.1.1 - t.1.1) (t.2.2.1 - t.1.1) = Vec3.smul k t.1.2) ∧
        (∀ q, Mem b q →
          if out then Vec3.dot t.1.2 q ≤ Vec3.dot t.1.2 t.1.1 else Vec3.dot t.1.2 t.1.1 ≤ Vec3.dot t.1.2 q)) ∧
      volume6 (ts.map fun t => (t.1.1, t.2.1.1, t.2.2.1)) = (if out then 6 else -6) * b.volume := by
  have key : ∀ ps : List (Vec3 K × Vec3 K × Vec3 K),
      ps = (boxTris out).map (fun t => (cornerAt b t.1, cornerAt b t.2.1, cornerAt b t.2.2)) →
      Closed ps ∧ (edges ps).Nodup := by
    rintro ps rfl
    obtain ⟨h1, h2, h3⟩ := boxTris_closed out
    refine ⟨closed_map _ _ h1, ?_⟩
    have e : edges ((boxTris out).map (fun t => (cornerAt b t.1, cornerAt b t.2.1, cornerAt b t.2.2)))
        = (edges (boxTris out)).map fun p => (cornerAt b p.1, cornerAt b p.2) := by
      simp [edges, List.flatMap_map, List.map_flatMap]
    rw [e]
    refine List.Nodup.map_on ?_ h2
    intro x hx y hy hxy
    have := h3 x hx
    have := h3 y hy
    simp only [Prod.mk.injEq] at hxy
    exact Prod.ext (cornerAt_injOn b h _ _ (h3 x hx).1 (h3 y hy).1 hxy.1)
      (cornerAt_injOn b h _ _ (h3 x hx).2 (h3 y hy).2 hxy.2)
  obtain ⟨hx, hy, hz⟩ := h
  rw [← sub_pos] at hx hy hz
  have hxy := mul_pos hx hy
  have hyz := mul_pos hy hz
  have hxz := mul_pos hx hz
  cases out
  · refine ⟨_, rfl, rfl, (key _ rfl).1, (key _ rfl).2, ?_, ?_⟩
    · simp only [List.forall_mem_cons, List.not_mem_nil, false_imp_iff, implies_true, and_true]
      refine ⟨?_, ?_, ?_, ?_, ?_, ?_, ?_, ?_, ?_, ?_, ?_, ?_⟩ <;>
        (refine ⟨by simp, by simp, by simp [Vec3.normSq, Vec3.dot], ?_, ?_⟩
         · first
           | (refine ⟨_, hxy, ?_⟩; ext <;> simp [Vec3.cross, Vec3.smul, Box3d.corners] <;> ring1)
           | (refine ⟨_, hyz, ?_⟩; ext <;> simp [Vec3.cross, Vec3.smul, Box3d.corners] <;> ring1)
           | (refine ⟨_, hxz, ?_⟩; ext <;> simp [Vec3.cross, Vec3.smul, Box3d.corners] <;> ring1)
         · rintro q ⟨⟨q1, q2⟩, ⟨q3, q4⟩, ⟨q5, q6⟩⟩
           simp [Vec3.dot, Box3d.corners, q1, q2, q3, q4, q5, q6])
    · simp [volume6, Vec3.dot, Vec3.cross, Box3d.volume, Box3d.corners]
      ring
  · refine ⟨_, rfl, rfl, (key _ rfl).1, (key _ rfl).2, ?_, ?_⟩
    · simp only [List.forall_mem_cons, List.not_mem_nil, false_imp_iff, implies_true, and_true]
      refine ⟨?_, ?_, ?_, ?_, ?_, ?_, ?_, ?_, ?_, ?_, ?_, ?_⟩ <;>
        (refine ⟨by simp, by simp, by simp [Vec3.normSq, Vec3.dot], ?_, ?_⟩
         · first
           | (refine ⟨_, hxy, ?_⟩; ext <;> simp [Vec3.cross, Vec3.smul, Box3d.corners] <;> ring1)
           | (refine ⟨_, hyz, ?_⟩; ext <;> simp [Vec3.cross, Vec3.smul, Box3d.corners] <;> ring1)
           | (refine ⟨_, hxz, ?_⟩; ext <;> simp [Vec3.cross, Vec3.smul, Box3d.corners] <;> ring1)
         · rintro q ⟨⟨q1, q2⟩, ⟨q3, q4⟩, ⟨q5, q6⟩⟩
           simp [Vec3.dot, Box3d.corners, q1, q2, q3, q4, q5, q6])
    · simp [volume6, Vec3.dot, Vec3.cross, Box3d.volume, Box3d.corners]
      ring

example : Positive (⟨⟨0, 0, 0⟩, ⟨1, 2, 3⟩⟩ : Box3d ℚ) := by unfold Positive; decide +kernel

end Sumo
