import Verif.Lemmas.FloatPose

/-!
# Posed points and boxes in double precision (C150)

The early exit of `points_iou` is only right if the points lie in the boxes.  In the voxel track the points and the corners of the
box are moved by separate rounded products.  The boxes still contain the points, whatever the pose, because of the half voxel
around the centres.
-/

namespace Sumo
open FloatPoseSpec FloatPointsSpec Fl

/-- **C150** the posed bounding box of a voxel element contains its posed points, for every matrix and translation, and every
accurate matrix product, if the grid is not absurdly far from its origin.  Only a grid without voxels raises. -/
theorem C150_inside {mul : Mat3 ℚ → List (Vec3 ℚ) → List (Vec3 ℚ)} (hm : Accurate mul) (R : Mat3 ℚ) (t : Vec3 ℚ) {g : Fl.Grid}
    (hs : 0 < Fl.voxelSize g) (hg : NearOrigin g) (hne : g.grid.voxels ≠ []) :
    ∃ pts b, Fl.posedVoxels mul R t g = .ok (pts, b) ∧ pts.length = g.grid.voxels.length ∧ InsideF pts b ∧ DoubleCorner b ∧
      FloatPointsSpec.Ordered b := by
  obtain ⟨B, hB, ⟨a1, m1, e1⟩, ⟨a2, m2, e2⟩, ⟨a3, m3, e3⟩, ⟨a4, m4, e4⟩, ⟨a5, m5, e5⟩, ⟨a6, m6, e6⟩, hall⟩ := bounds_shape hs hne
  refine ⟨_, _, by unfold Fl.posedVoxels; rw [hB], ?_, ?_, bbox_corner (posed_isDouble _ _ _ _), bbox_ordered _⟩
  · unfold Fl.transformAllFrom
    rw [List.length_map, ← (hm R (Fl.voxelCenters g)).length_eq]
    simp [Fl.voxelCenters]
  apply inside_of_products
  set s := Fl.voxelSize g with hsd
  have size := centers_size hs.le hg
  have lx : |B.minCorner.x| ≤ 2 ^ 46 * s := e1 ▸ (face_margin hs (size a1 m1).1).2.2.1
  have ly : |B.minCorner.y| ≤ 2 ^ 46 * s := e2 ▸ (face_margin hs (size a2 m2).2.1).2.2.1
  have lz : |B.minCorner.z| ≤ 2 ^ 46 * s := e3 ▸ (face_margin hs (size a3 m3).2.2).2.2.1
  have ux : |B.maxCorner.x| ≤ 2 ^ 46 * s := e4 ▸ (face_margin hs (size a4 m4).1).2.2.2
  have uy : |B.maxCorner.y| ≤ 2 ^ 46 * s := e5 ▸ (face_margin hs (size a5 m5).2.1).2.2.2
  have uz : |B.maxCorner.z| ≤ 2 ^ 46 * s := e6 ▸ (face_margin hs (size a6 m6).2.2).2.2.2
  obtain ⟨back, -⟩ := forall₂_exists (hm R (Fl.voxelCenters g))
  obtain ⟨-, forth⟩ := forall₂_exists (hm R B.corners)
  intro v hv
  obtain ⟨p, hp, d1, d2, d3⟩ := back v hv
  obtain ⟨p1, p2, p3⟩ := size p hp
  obtain ⟨⟨x1, x2⟩, ⟨y1, y2⟩, z1, z2⟩ := hall p hp
  have fx := face_margin hs p1
  have fy := face_margin hs p2
  have fz := face_margin hs p3
  have grow : ∀ {x : ℚ}, |x| ≤ 2 ^ 45 * s → |x| ≤ 2 ^ 46 * s := fun h => h.trans (by linarith)
  have up : ∀ a b c x : ℚ, Dotted a b c p x → ∀ y, Dotted a b c ⟨towards a B.minCorner.x B.maxCorner.x,
      towards b B.minCorner.y B.maxCorner.y, towards c B.minCorner.z B.maxCorner.z⟩ y → x ≤ y := fun a b c x hx y hy =>
    dotted_le (m := s / 4) (B := 2 ^ 46 * s) (by linarith) (grow p1) (grow p2) (grow p3) lx ly lz ux uy uz
      (by linarith [fx.1]) (by linarith [fx.2.1]) (by linarith [fy.1]) (by linarith [fy.2.1]) (by linarith [fz.1]) (by linarith [fz.2.1]) hx hy
  have down : ∀ a b c x : ℚ, Dotted a b c p x → ∀ y, Dotted a b c ⟨towards (-a) B.minCorner.x B.maxCorner.x,
      towards (-b) B.minCorner.y B.maxCorner.y, towards (-c) B.minCorner.z B.maxCorner.z⟩ y → y ≤ x := fun a b c x hx y hy =>
    neg_le_neg_iff.1 (up (-a) (-b) (-c) (-x) (dotted_neg hx) (-y) (dotted_neg hy))
  have mem := fun a b c => forth _ (towards_mem a b c B)
  refine ⟨?_, ?_, ?_, ?_, ?_, ?_⟩
  · obtain ⟨w, hw, q⟩ := mem (-R.m00) (-R.m01) (-R.m02)
    exact ⟨w, hw, down _ _ _ _ d1 _ q.1⟩
  · obtain ⟨w, hw, q⟩ := mem R.m00 R.m01 R.m02
    exact ⟨w, hw, up _ _ _ _ d1 _ q.1⟩
  · obtain ⟨w, hw, q⟩ := mem (-R.m10) (-R.m11) (-R.m12)
    exact ⟨w, hw, down _ _ _ _ d2 _ q.2.1⟩
  · obtain ⟨w, hw, q⟩ := mem R.m10 R.m11 R.m12
    exact ⟨w, hw, up _ _ _ _ d2 _ q.2.1⟩
  · obtain ⟨w, hw, q⟩ := mem (-R.m20) (-R.m21) (-R.m22)
    exact ⟨w, hw, down _ _ _ _ d3 _ q.2.2⟩
  · obtain ⟨w, hw, q⟩ := mem R.m20 R.m21 R.m22
    exact ⟨w, hw, up _ _ _ _ d3 _ q.2.2⟩

/-- **C150** the same without any limit on the distance from the origin, if the product computes every entry alike and rounds
monotonically. -/
theorem C150_inside_uniform {mul : Mat3 ℚ → List (Vec3 ℚ) → List (Vec3 ℚ)} (hm : Uniform mul) (R : Mat3 ℚ) (t : Vec3 ℚ) {g : Fl.Grid}
    (hs : 0 < Fl.voxelSize g) (hne : g.grid.voxels ≠ []) :
    ∃ pts b, Fl.posedVoxels mul R t g = .ok (pts, b) ∧ pts.length = g.grid.voxels.length ∧ InsideF pts b ∧ DoubleCorner b ∧
      FloatPointsSpec.Ordered b := by
  obtain ⟨B, hB, -, -, -, -, -, -, hall⟩ := bounds_shape hs hne
  obtain ⟨dot, mono, hd⟩ := hm
  refine ⟨_, _, by unfold Fl.posedVoxels; rw [hB], ?_, ?_, bbox_corner (posed_isDouble _ _ _ _), bbox_ordered _⟩
  · unfold Fl.transformAllFrom
    simp [hd, Fl.voxelCenters]
  apply inside_of_products
  intro v hv
  rw [hd] at hv ⊢
  obtain ⟨p, hp, rfl⟩ := List.mem_map.1 hv
  obtain ⟨i1, i2, i3⟩ := centers_isDouble g p hp
  obtain ⟨⟨x1, x2⟩, ⟨y1, y2⟩, z1, z2⟩ := hall p hp
  have lo : ∀ {x B : ℚ}, IsDouble x → B ≤ double (x - Fl.voxelSize g / 2) → B + 0 ≤ x := fun hx h => by
    rw [add_zero]; exact h.trans (double_le (by linarith) hx)
  have hi : ∀ {x B : ℚ}, IsDouble x → double (x + Fl.voxelSize g / 2) ≤ B → x + 0 ≤ B := fun hx h => by
    rw [add_zero]; exact (le_double (by linarith) hx).trans h
  have up : ∀ a b c : ℚ, ∃ q ∈ B.corners, a * p.x ≤ a * q.x ∧ b * p.y ≤ b * q.y ∧ c * p.z ≤ c * q.z := fun a b c =>
    ⟨_, towards_mem a b c B, by simpa using towards_gain (a := a) (lo i1 x1) (hi i1 x2),
      by simpa using towards_gain (a := b) (lo i2 y1) (hi i2 y2), by simpa using towards_gain (a := c) (lo i3 z1) (hi i3 z2)⟩
  have down : ∀ a b c : ℚ, ∃ q ∈ B.corners, a * q.x ≤ a * p.x ∧ b * q.y ≤ b * p.y ∧ c * q.z ≤ c * p.z := fun a b c => by
    obtain ⟨q, hq, h1, h2, h3⟩ := up (-a) (-b) (-c)
    exact ⟨q, hq, by linarith, by linarith, by linarith⟩
  refine ⟨?_, ?_, ?_, ?_, ?_, ?_⟩
  · obtain ⟨q, hq, h1, h2, h3⟩ := down R.m00 R.m01 R.m02
    exact ⟨_, List.mem_map_of_mem hq, mono _ _ _ _ _ h1 h2 h3⟩
  · obtain ⟨q, hq, h1, h2, h3⟩ := up R.m00 R.m01 R.m02
    exact ⟨_, List.mem_map_of_mem hq, mono _ _ _ _ _ h1 h2 h3⟩
  · obtain ⟨q, hq, h1, h2, h3⟩ := down R.m10 R.m11 R.m12
    exact ⟨_, List.mem_map_of_mem hq, mono _ _ _ _ _ h1 h2 h3⟩
  · obtain ⟨q, hq, h1, h2, h3⟩ := up R.m10 R.m11 R.m12
    exact ⟨_, List.mem_map_of_mem hq, mono _ _ _ _ _ h1 h2 h3⟩
  · obtain ⟨q, hq, h1, h2, h3⟩ := down R.m20 R.m21 R.m22
    exact ⟨_, List.mem_map_of_mem hq, mono _ _ _ _ _ h1 h2 h3⟩
  · obtain ⟨q, hq, h1, h2, h3⟩ := up R.m20 R.m21 R.m22
    exact ⟨_, List.mem_map_of_mem hq, mono _ _ _ _ _ h1 h2 h3⟩

variable {nn : List (Vec3 ℚ) → Vec3 ℚ → ℕ} {mul : Mat3 ℚ → List (Vec3 ℚ) → List (Vec3 ℚ)}

/-- **C150** on the voxel track the early exit never changes a score: unless a distance is nearly the threshold, the point IoU of two
posed elements, computed with their boxes, is the exact IoU of their posed points, rounded once. -/
theorem C150_voxel (h : IsNearestF nn) (hm : Accurate mul) (R1 R2 : Mat3 ℚ) (t1 t2 : Vec3 ℚ) {g1 g2 : Fl.Grid}
    (hs1 : 0 < Fl.voxelSize g1) (hs2 : 0 < Fl.voxelSize g2) (hg1 : NearOrigin g1) (hg2 : NearOrigin g2)
    (hne1 : g1.grid.voxels ≠ []) (hne2 : g2.grid.voxels ≠ []) {t : ℚ} (h0 : 0 < t) :
    ∃ p1 b1 p2 b2, Fl.posedVoxels mul R1 t1 g1 = .ok (p1, b1) ∧ Fl.posedVoxels mul R2 t2 g2 = .ok (p2, b2) ∧
      (Clear p1 p2 t → ∃ v : ℚ, (v : ℝ) = PointSpec.iou (p1.map real) (p2.map real) t ∧
        Fl.pointsIou nn p1 b1 p2 b2 t = double v) := by
  obtain ⟨p1, b1, e1, -, i1, c1, -⟩ := C150_inside hm R1 t1 hs1 hg1 hne1
  obtain ⟨p2, b2, e2, -, i2, c2, -⟩ := C150_inside hm R2 t2 hs2 hg2 hne2
  exact ⟨p1, b1, p2, b2, e1, e2, fun hc => C145_exact h h0 i1 i2 c1 c2 hc⟩

/-- **C150** an element of the voxel track compared with an exact copy of itself has point IoU exactly 1. -/
theorem C150_self (h : IsNearestF nn) (hm : Accurate mul) (R : Mat3 ℚ) (v : Vec3 ℚ) {g : Fl.Grid} (hs : 0 < Fl.voxelSize g)
    (hg : NearOrigin g) (hne : g.grid.voxels ≠ []) {t : ℚ} (ht : 0 ≤ t) :
    ∃ p b, Fl.posedVoxels mul R v g = .ok (p, b) ∧ Fl.pointsIou nn p b p b t = 1 := by
  obtain ⟨p, b, e, l, i, c, o⟩ := C150_inside hm R v hs hg hne
  refine ⟨p, b, e, C145_self h ?_ ht o c⟩
  rintro rfl
  exact hne (List.length_eq_zero_iff.1 l.symm)

/-- **C150** on the mesh track the box of an element is the box of its samples (`metrics/mesh_evaluator.py:143-147`), so there the
early exit never changes a score either. -/
theorem C150_mesh (h : IsNearestF nn) {A B : List (Vec3 ℚ)} (hA : ∀ p ∈ A, IsDouble p.x ∧ IsDouble p.y ∧ IsDouble p.z)
    (hB : ∀ p ∈ B, IsDouble p.x ∧ IsDouble p.y ∧ IsDouble p.z) {t : ℚ} (h0 : 0 < t) (hc : Clear A B t) :
    ∃ v : ℚ, (v : ℝ) = PointSpec.iou (A.map real) (B.map real) t ∧
      Fl.pointsIou nn A (bboxOfPoints A) B (bboxOfPoints B) t = double v :=
  C145_exact h h0 (bbox_inside A) (bbox_inside B) (bbox_corner hA) (bbox_corner hB) hc

namespace FloatPoseExample

/-- A product with every operation rounded, from left to right. -/
def dot (a b c : ℚ) (p : Vec3 ℚ) : ℚ := double (double (double (a * p.x) + double (b * p.y)) + double (c * p.z))

def seq (R : Mat3 ℚ) (l : List (Vec3 ℚ)) : List (Vec3 ℚ) :=
  l.map fun p => ⟨dot R.m00 R.m01 R.m02 p, dot R.m10 R.m11 R.m12 p, dot R.m20 R.m21 R.m22 p⟩

theorem dotted_dot (a b c : ℚ) (p : Vec3 ℚ) : Dotted a b c p (dot a b c p) := by
  unfold Dotted dot
  set x := a * p.x
  set y := b * p.y
  set z := c * p.z
  have e1 := double_err x
  have e2 := double_err y
  have e3 := double_err z
  have e4 := double_err (double x + double y)
  have e5 := double_err (double (double x + double y) + double z)
  have n1 := abs_nonneg x
  have n2 := abs_nonneg y
  have n3 := abs_nonneg z
  have t : ∀ u v : ℚ, |u| ≤ |u - v| + |v| := fun u v => by simpa using abs_add_le (u - v) v
  have t1 := t (double x) x
  have t2 := t (double y) y
  have t3 := t (double z) z
  have t4 := abs_add_le (double x) (double y)
  have t5 := abs_add_le (double (double x + double y)) (double z)
  have t6 := t (double (double x + double y)) (double x + double y)
  have split : double (double (double x + double y) + double z) - (x + y + z) =
      (double (double (double x + double y) + double z) - (double (double x + double y) + double z)) +
      ((double (double x + double y) - (double x + double y)) + ((double x - x) + ((double y - y) + (double z - z)))) := by ring
  rw [split]
  have b1 := abs_add_le (double y - y) (double z - z)
  have b2 := abs_add_le (double x - x) ((double y - y) + (double z - z))
  have b3 := abs_add_le (double (double x + double y) - (double x + double y)) ((double x - x) + ((double y - y) + (double z - z)))
  refine (abs_add_le _ _).trans ?_
  linarith

theorem accurate_seq : Accurate seq := by
  intro R l
  unfold seq
  rw [List.forall₂_map_right_iff]
  exact List.forall₂_same.2 fun p _ => ⟨dotted_dot .., dotted_dot .., dotted_dot ..⟩

theorem uniform_seq : Uniform seq :=
  ⟨dot, fun _ _ _ _ _ h1 h2 h3 => double_mono (add_le_add (double_mono (add_le_add (double_mono h1) (double_mono h2))) (double_mono h3)),
    fun _ _ => rfl⟩

def grid : Fl.Grid := ⟨⟨10, ⟨-1, 0, 3⟩, [⟨0, 0, 0⟩, ⟨3, 1, 2⟩], 4, 2⟩, true⟩

def turn : Mat3 ℚ := ⟨3 / 5, -(4 / 5), 0, 4 / 5, 3 / 5, 0, 0, 0, 1⟩

theorem nearOrigin_grid : NearOrigin grid := by
  have h : (1 : ℚ) / 11 ≤ Fl.voxelSize grid := by decide +kernel
  refine ⟨?_, ?_, ?_, by decide⟩ <;> norm_num [grid] <;> norm_num [grid] at h <;> linarith

/-- The hypotheses of `C150_inside` are met. -/
example : Accurate seq ∧ Uniform seq ∧ 0 < Fl.voxelSize grid ∧ NearOrigin grid ∧ grid.grid.voxels ≠ [] :=
  ⟨accurate_seq, uniform_seq, by decide +kernel, nearOrigin_grid, by decide⟩

/-- Two posed voxels, turned by an angle that is not a right angle. -/
example : ∃ pts b, Fl.posedVoxels seq turn ⟨1, 2, 3⟩ grid = .ok (pts, b) ∧ pts.length = 2 ∧ InsideF pts b := by
  obtain ⟨pts, b, h1, h2, h3, -⟩ := C150_inside accurate_seq turn ⟨1, 2, 3⟩ (g := grid) (by decide +kernel) nearOrigin_grid (by decide)
  exact ⟨pts, b, h1, h2, h3⟩

/-- Accurate, but not the same for one point and for the eight corners. -/
def far (R : Mat3 ℚ) (l : List (Vec3 ℚ)) : List (Vec3 ℚ) := l.map fun p =>
  let k : ℚ := if l.length = 8 then 1 else 1 + 1 / 2 ^ 50
  ⟨(R.m00 * p.x + R.m01 * p.y + R.m02 * p.z) * k, (R.m10 * p.x + R.m11 * p.y + R.m12 * p.z) * k,
    (R.m20 * p.x + R.m21 * p.y + R.m22 * p.z) * k⟩

theorem accurate_far : Accurate far := by
  intro R l
  unfold far
  rw [List.forall₂_map_right_iff]
  have key : ∀ (a b c : ℚ) (p : Vec3 ℚ) (k : ℚ), (k = 1 ∨ k = 1 + 1 / 2 ^ 50) → Dotted a b c p ((a * p.x + b * p.y + c * p.z) * k) := by
    rintro a b c p k (rfl | rfl)
    · unfold Dotted; simp; positivity
    · unfold Dotted
      have e : (a * p.x + b * p.y + c * p.z) * (1 + 1 / 2 ^ 50) - (a * p.x + b * p.y + c * p.z) =
          (a * p.x + b * p.y + c * p.z) / 2 ^ 50 := by ring
      rw [e, abs_div, abs_of_pos (by norm_num : (0 : ℚ) < 2 ^ 50)]
      gcongr
      exact abs_add_three _ _ _
  refine List.forall₂_same.2 fun p _ => ?_
  dsimp only
  split_ifs
  · exact ⟨key _ _ _ _ _ (Or.inl rfl), key _ _ _ _ _ (Or.inl rfl), key _ _ _ _ _ (Or.inl rfl)⟩
  · exact ⟨key _ _ _ _ _ (Or.inr rfl), key _ _ _ _ _ (Or.inr rfl), key _ _ _ _ _ (Or.inr rfl)⟩

end FloatPoseExample
open FloatPoseExample

/-- **C150** the limit on the distance is needed: `2^60` voxels from the origin, an accurate product may move the centre of a voxel out
of the moved box. -/
theorem C150_far : ∃ mul, Accurate mul ∧ ∃ (g : Fl.Grid) (pts : List (Vec3 ℚ)) (b : Box3d ℚ), 0 < Fl.voxelSize g ∧
    Fl.posedVoxels mul ⟨1, 0, 0, 0, 1, 0, 0, 0, 1⟩ 0 g = .ok (pts, b) ∧ ¬ InsideF pts b := by
  refine ⟨far, accurate_far, ⟨⟨1, ⟨2 ^ 60, 0, 0⟩, [⟨0, 0, 0⟩], 1, 1⟩, false⟩, _, _, by decide +kernel, rfl, ?_⟩
  intro h
  have h1 := (h _ (List.mem_cons_self ..)).1.2
  revert h1
  decide +kernel

end Sumo
