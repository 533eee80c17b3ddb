import Verif.Model.BBox
import Verif.Lemmas.Geometry
import Verif.Props.Box

/-!
# The bounding-box track (C32, C76)
-/

set_option linter.unusedSectionVars false

namespace Sumo
open BoxSpec
variable {K : Type} [Field K] [LinearOrder K] [IsStrictOrderedRing K]

/-- The solid an element occupies: its bounds moved by its pose. -/
def PosedMem (e : BoxedElement K) (q : Vec3 K) : Prop :=
  ∃ p, Mem e.bounds p ∧ q = e.pose.transformFrom p

theorem corner_mul_le (a lo hi x : K) (h1 : lo ≤ x) (h2 : x ≤ hi) : ∃ v, (v = lo ∨ v = hi) ∧ a * x ≤ a * v := by
  rcases le_total 0 a with h | h
  · exact ⟨hi, .inr rfl, mul_le_mul_of_nonneg_left h2 h⟩
  · exact ⟨lo, .inl rfl, mul_le_mul_of_nonpos_left h1 h⟩

/-- An affine function on a box is at most its value at some corner. -/
theorem exists_corner (b : Box3d K) (a0 a1 a2 t : K) (p : Vec3 K) (hp : Mem b p) :
    ∃ v ∈ b.corners, a0 * p.x + a1 * p.y + a2 * p.z + t ≤ a0 * v.x + a1 * v.y + a2 * v.z + t := by
  obtain ⟨⟨x1, x2⟩, ⟨y1, y2⟩, ⟨z1, z2⟩⟩ := hp
  obtain ⟨x, hx, ex⟩ := corner_mul_le a0 _ _ _ x1 x2
  obtain ⟨y, hy, ey⟩ := corner_mul_le a1 _ _ _ y1 y2
  obtain ⟨z, hz, ez⟩ := corner_mul_le a2 _ _ _ z1 z2
  refine ⟨⟨x, y, z⟩, ((C39_corners b).2.1 _).2 ⟨hx, hy, hz⟩, ?_⟩
  simp only
  linarith

/-- The posed bounding box encloses the posed solid. -/
theorem posedBbox_contains (e : BoxedElement K) (q : Vec3 K) (hq : PosedMem e q) : Mem (posedBbox e) q := by
  obtain ⟨p, hp, rfl⟩ := hq
  have hne : e.pose.transformAllFrom e.bounds.corners ≠ [] := by
    simp [Pose3.transformAllFrom, Rot3.applyAll, Box3d.corners]
  have h := (C41_bbox_tight _ hne).1
  have hm : ∀ v ∈ e.bounds.corners, Mem (posedBbox e) (e.pose.transformFrom v) := by
    intro v hv
    apply h
    simp only [Pose3.transformAllFrom, Rot3.applyAll, List.map_map]
    exact List.mem_map.2 ⟨v, hv, rfl⟩
  have low : ∀ a0 a1 a2 t : K, ∃ v ∈ e.bounds.corners,
      a0 * v.x + a1 * v.y + a2 * v.z + t ≤ a0 * p.x + a1 * p.y + a2 * p.z + t := by
    intro a0 a1 a2 t
    obtain ⟨v, hv, h⟩ := exists_corner e.bounds (-a0) (-a1) (-a2) (-t) p hp
    exact ⟨v, hv, by linarith⟩
  refine ⟨⟨?_, ?_⟩, ⟨?_, ?_⟩, ⟨?_, ?_⟩⟩
  · obtain ⟨v, hv, h⟩ := low e.pose.R.m00 e.pose.R.m01 e.pose.R.m02 e.pose.t.x
    exact (hm v hv).1.1.trans h
  · obtain ⟨v, hv, h⟩ := exists_corner e.bounds e.pose.R.m00 e.pose.R.m01 e.pose.R.m02 e.pose.t.x p hp
    exact h.trans (hm v hv).1.2
  · obtain ⟨v, hv, h⟩ := low e.pose.R.m10 e.pose.R.m11 e.pose.R.m12 e.pose.t.y
    exact (hm v hv).2.1.1.trans h
  · obtain ⟨v, hv, h⟩ := exists_corner e.bounds e.pose.R.m10 e.pose.R.m11 e.pose.R.m12 e.pose.t.y p hp
    exact h.trans (hm v hv).2.1.2
  · obtain ⟨v, hv, h⟩ := low e.pose.R.m20 e.pose.R.m21 e.pose.R.m22 e.pose.t.z
    exact (hm v hv).2.2.1.trans h
  · obtain ⟨v, hv, h⟩ := exists_corner e.bounds e.pose.R.m20 e.pose.R.m21 e.pose.R.m22 e.pose.t.z p hp
    exact h.trans (hm v hv).2.2.2

/-- **C32** The quick rejection is sound, for any poses (even sheared ones): if it fires, the similarity is 0 and the
posed boxes have no point in common. It fires exactly when the axis-aligned boxes of the posed boxes are disjoint. -/
theorem C32_quick_reject_sound (e1 e2 : BoxedElement K) (he1 : ∃ q, PosedMem e1 q) (he2 : ∃ q, PosedMem e2 q) :
    (bbReject (posedBbox e1) (posedBbox e2) = true →
      (∀ iv, bbSimilarity iv e1 e2 = some 0) ∧ ¬ ∃ q, PosedMem e1 q ∧ PosedMem e2 q) ∧
    (bbReject (posedBbox e1) (posedBbox e2) = true ↔ ¬ ∃ q, Mem (posedBbox e1) q ∧ Mem (posedBbox e2) q) := by
  obtain ⟨q1, hq1⟩ := he1
  obtain ⟨q2, hq2⟩ := he2
  have m1 := posedBbox_contains e1 q1 hq1
  have m2 := posedBbox_contains e2 q2 hq2
  have hiff : bbReject (posedBbox e1) (posedBbox e2) = true ↔
      ¬ ∃ q, Mem (posedBbox e1) q ∧ Mem (posedBbox e2) q := by
    rw [← not_iff_not, not_not]
    simp only [bbReject, List.any_cons, List.any_nil, Bool.or_false, Bool.or_eq_true, decide_eq_true_eq, gt_iff_lt,
      not_or, not_lt]
    constructor
    · rintro ⟨⟨a1, a2⟩, ⟨a3, a4⟩, ⟨a5, a6⟩⟩
      refine ⟨⟨max (posedBbox e1).minCorner.x (posedBbox e2).minCorner.x,
        max (posedBbox e1).minCorner.y (posedBbox e2).minCorner.y,
        max (posedBbox e1).minCorner.z (posedBbox e2).minCorner.z⟩, ?_, ?_⟩
      · exact ⟨⟨le_max_left _ _, max_le (m1.1.1.trans m1.1.2) a2⟩,
          ⟨le_max_left _ _, max_le (m1.2.1.1.trans m1.2.1.2) a4⟩,
          ⟨le_max_left _ _, max_le (m1.2.2.1.trans m1.2.2.2) a6⟩⟩
      · exact ⟨⟨le_max_right _ _, max_le a1 (m2.1.1.trans m2.1.2)⟩,
          ⟨le_max_right _ _, max_le a3 (m2.2.1.1.trans m2.2.1.2)⟩,
          ⟨le_max_right _ _, max_le a5 (m2.2.2.1.trans m2.2.2.2)⟩⟩
    · rintro ⟨q, h1, h2⟩
      exact ⟨⟨h1.1.1.trans h2.1.2, h2.1.1.trans h1.1.2⟩, ⟨h1.2.1.1.trans h2.2.1.2, h2.2.1.1.trans h1.2.1.2⟩,
        ⟨h1.2.2.1.trans h2.2.2.2, h2.2.2.1.trans h1.2.2.2⟩⟩
  refine ⟨fun h => ⟨fun iv => by simp [bbSimilarity, h], ?_⟩, hiff⟩
  rintro ⟨q, h1, h2⟩
  exact hiff.1 h ⟨q, posedBbox_contains e1 q h1, posedBbox_contains e2 q h2⟩

theorem bbReject_comm (b1 b2 : Box3d K) : bbReject b1 b2 = bbReject b2 b1 := by
  simp [bbReject, Bool.or_comm]

/-- **C32** The ratio: if the intersection solid is no larger than either solid and one of them has non-zero volume, the
similarity is a number in `[0, 1]`; it is 1 for equal solids that are their own intersection; it is symmetric when the
intersection volume is. -/
theorem C32_similarity_range (iv : List (Vec3 K) × List ℕ → List (Vec3 K) × List ℕ → K) (e1 e2 : BoxedElement K)
    (h1 : |iv (bbox2pymesh e1) (bbox2pymesh e2)| ≤ |meshVolume (bbox2pymesh e1).1 (bbox2pymesh e1).2|)
    (h2 : |iv (bbox2pymesh e1) (bbox2pymesh e2)| ≤ |meshVolume (bbox2pymesh e2).1 (bbox2pymesh e2).2|)
    (hpos : meshVolume (bbox2pymesh e1).1 (bbox2pymesh e1).2 ≠ 0) :
    (∃ s, bbSimilarity iv e1 e2 = some s ∧ 0 ≤ s ∧ s ≤ 1) ∧
    (|iv (bbox2pymesh e1) (bbox2pymesh e2)| = |iv (bbox2pymesh e2) (bbox2pymesh e1)| →
      bbSimilarity iv e1 e2 = bbSimilarity iv e2 e1) := by
  have hp : 0 < |meshVolume (bbox2pymesh e1).1 (bbox2pymesh e1).2| := abs_pos.2 hpos
  have h0 : 0 ≤ |iv (bbox2pymesh e1) (bbox2pymesh e2)| := abs_nonneg _
  constructor
  · unfold bbSimilarity
    by_cases hr : bbReject (posedBbox e1) (posedBbox e2) = true
    · exact ⟨0, by simp [hr], le_refl _, zero_le_one⟩
    · simp only [hr, Bool.false_eq_true, if_false]
      have hu : 0 < |meshVolume (bbox2pymesh e1).1 (bbox2pymesh e1).2|
          + |meshVolume (bbox2pymesh e2).1 (bbox2pymesh e2).2| - |iv (bbox2pymesh e1) (bbox2pymesh e2)| := by
        linarith
      rw [if_neg hu.ne']
      refine ⟨_, rfl, div_nonneg h0 hu.le, ?_⟩
      rw [div_le_one hu]
      linarith
  · intro hs
    unfold bbSimilarity
    simp only [bbReject_comm (posedBbox e2) (posedBbox e1), hs,
      add_comm |meshVolume (bbox2pymesh e2).1 (bbox2pymesh e2).2|]

/-- **C76** (false of the code) For every box and every pose the solid built by `_bbox2pymesh` encloses only five sixths of the
volume of the box. -/
theorem C76_solid_volume_partial (e : BoxedElement K) (hR : IsRotation e.pose.R) :
    meshVolume (bbox2pymesh e).1 (bbox2pymesh e).2 = 5 / 6 * e.bounds.volume := by
  have hd := ((isRotation_iff _).1 hR).2
  simp only [Mat3.det] at hd
  obtain ⟨⟨⟨lx, ly, lz⟩, ⟨hx, hy, hz⟩⟩, ⟨⟨a, b, c, d, e', f, g, h, i⟩, ⟨tx, ty, tz⟩⟩⟩ := e
  simp only at hd
  simp [meshVolume, bbox2pymesh, bboxFaces, Box3d.corners, Pose3.transformAllFrom, Rot3.applyAll, Mat3.mulVec,
    Vec3.dot, Vec3.cross, Box3d.volume]
  linear_combination (5 / 6 * ((hx - lx) * (hy - ly) * (hz - lz))) * hd

/-- **C76** (false of the code) Its surface leaves the faces of the box: for every box of positive size, the solid has a face
whose centroid is a point of the interior of the box. -/
theorem C76_surface_inside_partial (e : BoxedElement K) (h : Positive e.bounds) :
    ∃ ts, triangles e.bounds.corners (bbox2pymesh e).2 = some ts ∧ ts.length = 12 ∧ Closed ts ∧
      ∃ t ∈ ts, e.bounds.pointInBox (Vec3.smul (1 / 3) (t.1 + t.2.1 + t.2.2)) = true := by
  have hcl : Closed ((triangles (List.range 8) bboxFaces).getD []) := by unfold Closed; decide +kernel
  refine ⟨_, rfl, rfl, ?_, _, List.mem_cons_of_mem _ (List.mem_cons_of_mem _ (List.mem_cons_of_mem _
    (List.mem_cons_of_mem _ (List.mem_cons_of_mem _ (List.mem_cons_of_mem _ (List.mem_cons_of_mem _
    (List.mem_cons_of_mem _ (List.mem_cons_of_mem _ (List.mem_cons_of_mem _ List.mem_cons_self))))))))), ?_⟩
  · exact closed_map (cornerAt e.bounds) _ hcl
  · rw [(C39_corners e.bounds).2.2.2.2.2.2]
    obtain ⟨h1, h2, h3⟩ := h
    simp only [Vec3.smul, Vec3.add_x, Vec3.add_y, Vec3.add_z]
    refine ⟨⟨?_, ?_⟩, ⟨?_, ?_⟩, ⟨?_, ?_⟩⟩ <;> linarith

/-- A unit box turned by a quarter about z and shifted: the solid has volume 5/6. -/
def exampleBoxed : BoxedElement ℚ := ⟨⟨⟨0, 0, 0⟩, ⟨1, 1, 1⟩⟩, ⟨⟨0, -1, 0, 1, 0, 0, 0, 0, 1⟩, ⟨1, 2, 3⟩⟩⟩

/-- **C76** concrete witness: the unit box has volume 1, its solid 5/6. -/
theorem C76_false : exampleBoxed.bounds.volume = 1 ∧
    meshVolume (bbox2pymesh exampleBoxed).1 (bbox2pymesh exampleBoxed).2 = 5 / 6 := by decide +kernel

example : IsRotation exampleBoxed.pose.R ∧ Positive exampleBoxed.bounds ∧ PosedMem exampleBoxed ⟨1, 2, 3⟩ ∧
    meshVolume (bbox2pymesh exampleBoxed).1 (bbox2pymesh exampleBoxed).2 ≠ 0 := by
  refine ⟨by rw [isRotation_iff]; decide +kernel, by unfold Positive; decide +kernel,
    ⟨⟨0, 0, 0⟩, by unfold Mem; decide +kernel, by decide +kernel⟩, by decide +kernel⟩

example : bbReject (posedBbox exampleBoxed) (posedBbox { exampleBoxed with pose := ⟨⟨1, 0, 0, 0, 1, 0, 0, 0, 1⟩, ⟨5, 0, 0⟩⟩ })
    = true := by decide +kernel

end Sumo
