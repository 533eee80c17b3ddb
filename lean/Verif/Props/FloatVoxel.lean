import Verif.Lemmas.FloatVoxel

/-!
# Voxel grids in machine precision (C140)

The same statements as C45, C47, C48 and C50, for the program's own arithmetic: coordinates are rounded after every operation.
-/

namespace Sumo
open VoxelSpec

/-- **C140** rounding does not change which points are rejected: an empty batch or a point below the corner raises `ValueError`
and changes nothing, and points above the corner and less than `2^31 - 1` voxels away from it are accepted. -/
theorem C140_rejects {size : ℚ} (hs : 0 < size) (g : Fl.Grid) (hg : g.grid.scale = double (1 / size)) (ps : List (Vec3 ℚ)) :
    (ps = [] ∨ (∃ p ∈ ps, ¬ Above g.grid.minCorner p) → Fl.addPoints g ps = (g, some .valueError)) ∧
    (ps ≠ [] → (∀ p ∈ ps, Above g.grid.minCorner p ∧ Within size g.grid.minCorner (2 ^ 31 - 1) (2 ^ 31 - 1) (2 ^ 31 - 1) p) →
      (Fl.addPoints g ps).2 = none) := by
  have hsc : 0 < double (1 / size) := double_pos (by positivity)
  obtain ⟨⟨sc, m, vs, sx, sy⟩, b⟩ := g
  simp only at hg
  subst hg
  set g0 : VoxelGrid ℚ := ⟨double (1 / size), m, vs, sx, sy⟩ with hg0
  have hsize' : 0 < 1 / double (1 / size) := by positivity
  obtain ⟨h1, h2⟩ := C47_rejects (size := 1 / double (1 / size)) hsize' g0 rfl (ps.map (shifted g0))
  have hfl := addPointsD_eq (g := ⟨g0, b⟩) hsc.ne' ps
  have hneg : ∀ c p : ℚ, c ≤ c + double (double (p - c) * double (1 / size)) / double (1 / size) → c ≤ p := by
    intro c p h
    by_contra hc
    have := rawIndex_neg (size := size) hs (not_le.1 hc)
    unfold rawIndex at this
    rw [Int.floor_lt] at this
    push_cast at this
    have h3 := div_neg_of_neg_of_pos this hsc
    linarith
  have hcorner : ∀ p, Above m (shifted g0 p) → Above m p := by
    rintro p ⟨a, b, c⟩
    exact ⟨hneg _ _ a, hneg _ _ b, hneg _ _ c⟩
  constructor
  · intro h
    have : (g0.addPoints (ps.map (shifted g0))).2 ≠ none := by
      rw [h1]
      rcases h with rfl | ⟨p, hp, h⟩
      · exact Or.inl rfl
      · exact Or.inr ⟨_, List.mem_map_of_mem hp, Or.inl fun h' => h (hcorner p h')⟩
    obtain ⟨e, he⟩ := Option.ne_none_iff_exists'.1 this
    obtain ⟨rfl, h4⟩ := h2 e he
    rw [hfl]
    simp only [he, h4]
  · intro hne hall
    rw [hfl]
    by_contra hcon
    rcases h1.1 hcon with h | ⟨q, hq, h⟩
    · exact hne (List.map_eq_nil_iff.1 h)
    · obtain ⟨p, hp, rfl⟩ := List.mem_map.1 hq
      obtain ⟨ha, hw⟩ := hall p hp
      have key : ∀ c q : ℚ, c ≤ q → q < c + ((2 ^ 31 - 1 : ℤ) : ℚ) * size →
          c ≤ c + double (double (q - c) * double (1 / size)) / double (1 / size) ∧
          c + double (double (q - c) * double (1 / size)) / double (1 / size) < c + ((2 ^ 31 : ℤ) : ℚ) * (1 / double (1 / size)) := by
        intro c q k1 k2
        have r1 := (rawIndex_close hs k1).1
        have r2 := rawIndex_lt hs k1 (by norm_num) k2
        unfold rawIndex at r1 r2
        rw [Int.floor_nonneg] at r1
        rw [Int.floor_lt] at r2
        have d1 := div_nonneg r1 hsc.le
        have d2 := div_lt_div_of_pos_right r2 hsc
        push_cast at d2 ⊢
        constructor
        · linarith
        · have : (2 ^ 31 - 1 + 1 : ℚ) / double (1 / size) = 2 ^ 31 * (1 / double (1 / size)) := by ring
          linarith
      obtain ⟨x1, x2⟩ := key _ _ ha.1 hw.1
      obtain ⟨y1, y2⟩ := key _ _ ha.2.1 hw.2.1
      obtain ⟨z1, z2⟩ := key _ _ ha.2.2 hw.2.2
      rcases h with h | h
      · exact h ⟨x1, y1, z1⟩
      · exact h ⟨x2, y2, z2⟩

/-- **C140** the voxelizer accepts every set of samples that spans less than `2^31 - 1` voxels. -/
theorem C140_voxelizer {size : ℚ} (hs : 0 < size) {ps : List (Vec3 ℚ)} (hne : ps ≠ [])
    (hsmall : ∀ p ∈ ps, ∀ q ∈ ps, q.x - p.x < (2 ^ 31 - 1) * size ∧ q.y - p.y < (2 ^ 31 - 1) * size ∧
      q.z - p.z < (2 ^ 31 - 1) * size) : ∃ g, Fl.voxelizerRun size ps = .ok g := by
  cases ps with
  | nil => exact absurd rfl hne
  | cons p0 ps =>
    have hb : (bboxOfPoints (p0 :: ps)).minCorner = Box3d.amin p0 ps := by rw [bboxOfPoints_cons]
    obtain ⟨l1, ⟨q1, hq1, e1⟩, ⟨q2, hq2, e2⟩, ⟨q3, hq3, e3⟩⟩ := amin_spec p0 ps
    have h := (C140_rejects hs ⟨⟨double (1 / size), Box3d.amin p0 ps, [], 0, 0⟩, false⟩ rfl (p0 :: ps)).2 (by simp) (by
      intro p hp
      refine ⟨l1 p hp, ?_⟩
      have a1 := (hsmall q1 hq1 p hp).1
      have a2 := (hsmall q2 hq2 p hp).2.1
      have a3 := (hsmall q3 hq3 p hp).2.2
      unfold Within
      push_cast
      refine ⟨?_, ?_, ?_⟩
      · simp only [← e1]; linarith
      · simp only [← e2]; linarith
      · simp only [← e3]; linarith)
    unfold Fl.voxelizerRun Fl.init
    rw [if_neg (not_le.2 hs), hb]
    simp only
    rcases hr : Fl.addPoints ⟨⟨double (1 / size), Box3d.amin p0 ps, [], 0, 0⟩, false⟩ (p0 :: ps) with ⟨g', e⟩
    rw [hr] at h
    simp only at h
    subst h
    exact ⟨g', rfl⟩

/-- **C140** a grid made from points occupies one voxel per point, at most `2^-51` of the distance to the corner away from it on
each axis, lists every voxel once, and lists no others. -/
theorem C140_occupied {size : ℚ} (hs : 0 < size) (corner : Vec3 ℚ) (isSingle : Bool) {ps : List (Vec3 ℚ)} (hne : ps ≠ [])
    (ha : ∀ p ∈ ps, Above corner p) {nx ny : ℤ} (hn : (nx + 1) * (ny + 1) < 2 ^ 31)
    (hw : ∀ p ∈ ps, Within size corner nx ny (2 ^ 31 - 1) p) :
    ∃ g, Fl.init size corner isSingle (some ps) = .ok g ∧ g.grid.voxels.Nodup ∧
      (∀ v ∈ g.grid.voxels, ∃ p ∈ ps, NearCell size corner.x v.x p.x ∧ NearCell size corner.y v.y p.y ∧ NearCell size corner.z v.z p.z) ∧
      (∀ p ∈ ps, ∃ v ∈ g.grid.voxels, NearCell size corner.x v.x p.x ∧ NearCell size corner.y v.y p.y ∧ NearCell size corner.z v.z p.z) := by
  obtain ⟨g, h1, -, -, -, h2, h3⟩ := initD_ok hs corner isSingle hne ha hn hw
  have key : ∀ p ∈ ps, NearCell size corner.x (rawCell size corner p).x p.x ∧ NearCell size corner.y (rawCell size corner p).y p.y ∧
      NearCell size corner.z (rawCell size corner p).z p.z := fun p hp =>
    ⟨nearCell_raw hs (ha p hp).1, nearCell_raw hs (ha p hp).2.1, nearCell_raw hs (ha p hp).2.2⟩
  refine ⟨g, h1, h2, ?_, ?_⟩
  · intro v hv
    obtain ⟨p, hp, rfl⟩ := (h3 v).1 hv
    exact ⟨p, hp, key p hp⟩
  · intro p hp
    exact ⟨_, (h3 _).2 ⟨p, hp, rfl⟩, key p hp⟩

/-- **C140 is false** of the bounds: with the default corner and voxels of size 0.1, the bounds of the voxel of the origin do not
contain the origin, because half a voxel is added in `float32`. -/
theorem C140_bounds_false : ∃ (g : Fl.Grid) (b : Box3d ℚ), Fl.init (double (1 / 10)) 0 true (some [0]) = .ok g ∧
    Fl.bounds g = .ok b ∧ ¬ BoxSpec.Mem b 0 ∧ 0 < b.minCorner.x := by
  have h : Fl.init (double (1 / 10)) 0 true (some [0]) = .ok ⟨⟨double (1 / double (1 / 10)), 0, [0], 1, 1⟩, true⟩ := by decide +kernel
  have key : ∃ (g : Fl.Grid) (b : Box3d ℚ), Fl.init (double (1 / 10)) 0 true (some [0]) = .ok g ∧ Fl.bounds g = .ok b ∧
      0 < b.minCorner.x := ⟨_, _, h, rfl, by decide +kernel⟩
  obtain ⟨g, b, h1, h2, h3⟩ := key
  exact ⟨g, b, h1, h2, fun hm => absurd hm.1.1 (not_le.2 h3), h3⟩

/-- **C140 is false** of the bounds also when the corner is a vector of `float64`: the point `(0.3, 0.3, 0.3)` is outside the
bounds of its own voxel of size 0.1. -/
theorem C140_bounds_false_double : ∃ (p : Vec3 ℚ) (g : Fl.Grid) (b : Box3d ℚ), p = ⟨double (3 / 10), double (3 / 10), double (3 / 10)⟩ ∧
    Fl.init (double (1 / 10)) 0 false (some [p]) = .ok g ∧ Fl.bounds g = .ok b ∧ p.x < b.minCorner.x := by
  have h : Fl.init (double (1 / 10)) 0 false (some [⟨double (3 / 10), double (3 / 10), double (3 / 10)⟩]) =
      .ok ⟨⟨double (1 / double (1 / 10)), 0, [⟨3, 3, 3⟩], 4, 4⟩, false⟩ := by decide +kernel
  exact ⟨_, _, _, rfl, h, rfl, by decide +kernel⟩

/-- **C140** `voxel_size` is not always the size given: 49 becomes the next number after 49. -/
theorem C140_voxel_size_false : ∃ g, Fl.init 49 0 true none = .ok g ∧ Fl.voxelSize g = 49 + 1 / 2 ^ 47 := by
  exact ⟨_, rfl, by decide +kernel⟩

/-- **C140** (partial) `voxel_size` is the size given, up to `2^-51` of it; the bounds of a grid made from points contain every
point and are at most one voxel away from a point, every voxel centre is within half a voxel of a point and every point of a
centre, all up to `slack`.  Missing: the same without the slack, which is false (`C140_bounds_false`). -/
theorem C140_bounds_partial {size : ℚ} (hs : 0 < size) (corner : Vec3 ℚ) (isSingle : Bool) {ps : List (Vec3 ℚ)} (hne : ps ≠ [])
    (ha : ∀ p ∈ ps, Above corner p) {nx ny : ℤ} (hn : (nx + 1) * (ny + 1) < 2 ^ 31)
    (hw : ∀ p ∈ ps, Within size corner nx ny (2 ^ 31 - 1) p) :
    ∃ g b, Fl.init size corner isSingle (some ps) = .ok g ∧ Fl.bounds g = .ok b ∧
      |Fl.voxelSize g - size| ≤ size / 2 ^ 51 ∧
      (∀ p ∈ ps,
        (b.minCorner.x ≤ p.x + slack isSingle size corner.x p.x ∧ p.x - slack isSingle size corner.x p.x ≤ b.maxCorner.x) ∧
        (b.minCorner.y ≤ p.y + slack isSingle size corner.y p.y ∧ p.y - slack isSingle size corner.y p.y ≤ b.maxCorner.y) ∧
        (b.minCorner.z ≤ p.z + slack isSingle size corner.z p.z ∧ p.z - slack isSingle size corner.z p.z ≤ b.maxCorner.z)) ∧
      ((∃ p ∈ ps, p.x - size - 2 * slack isSingle size corner.x p.x ≤ b.minCorner.x) ∧
       (∃ p ∈ ps, b.maxCorner.x ≤ p.x + size + 2 * slack isSingle size corner.x p.x) ∧
       (∃ p ∈ ps, p.y - size - 2 * slack isSingle size corner.y p.y ≤ b.minCorner.y) ∧
       (∃ p ∈ ps, b.maxCorner.y ≤ p.y + size + 2 * slack isSingle size corner.y p.y) ∧
       (∃ p ∈ ps, p.z - size - 2 * slack isSingle size corner.z p.z ≤ b.minCorner.z) ∧
       (∃ p ∈ ps, b.maxCorner.z ≤ p.z + size + 2 * slack isSingle size corner.z p.z)) ∧
      (∀ c ∈ Fl.voxelCenters g, ∃ p ∈ ps, |c.x - p.x| ≤ size / 2 + slack isSingle size corner.x p.x ∧
        |c.y - p.y| ≤ size / 2 + slack isSingle size corner.y p.y ∧ |c.z - p.z| ≤ size / 2 + slack isSingle size corner.z p.z) ∧
      (∀ p ∈ ps, ∃ c ∈ Fl.voxelCenters g, |c.x - p.x| ≤ size / 2 + slack isSingle size corner.x p.x ∧
        |c.y - p.y| ≤ size / 2 + slack isSingle size corner.y p.y ∧ |c.z - p.z| ≤ size / 2 + slack isSingle size corner.z p.z) := by
  obtain ⟨g, h1, hsi, hsc, hco, h2, h3⟩ := initD_ok hs corner isSingle hne ha hn hw
  set s := double (1 / double (1 / size)) with hsdef
  have hsize : Fl.voxelSize g = s := by unfold Fl.voxelSize; rw [hsc]
  let ctr : Vec3 ℚ → Vec3 ℚ := fun p => ⟨Fl.axisCenter isSingle corner.x s (rawIndex size corner.x p.x),
    Fl.axisCenter isSingle corner.y s (rawIndex size corner.y p.y), Fl.axisCenter isSingle corner.z s (rawIndex size corner.z p.z)⟩
  have hcen : ∀ c, c ∈ Fl.voxelCenters g ↔ ∃ p ∈ ps, c = ctr p := by
    intro c
    unfold Fl.voxelCenters
    simp only [hsize, hco, hsi, List.mem_map]
    constructor
    · rintro ⟨v, hv, rfl⟩
      obtain ⟨p, hp, rfl⟩ := (h3 v).1 hv
      exact ⟨p, hp, rfl⟩
    · rintro ⟨p, hp, rfl⟩
      exact ⟨_, (h3 _).2 ⟨p, hp, rfl⟩, rfl⟩
  have near : ∀ p ∈ ps, |(ctr p).x - p.x| ≤ size / 2 + slack isSingle size corner.x p.x ∧
        |(ctr p).y - p.y| ≤ size / 2 + slack isSingle size corner.y p.y ∧ |(ctr p).z - p.z| ≤ size / 2 + slack isSingle size corner.z p.z :=
    fun p hp => ⟨(axis_close isSingle hs (ha p hp).1).1, (axis_close isSingle hs (ha p hp).2.1).1, (axis_close isSingle hs (ha p hp).2.2).1⟩
  have hsz : |Fl.voxelSize g - size| ≤ size / 2 ^ 51 := by
    have := size_close hs
    rw [hsize]
    have e : size / 2 ^ 51 = 4 * (1 / 2 ^ 53) * size := by ring
    rw [e]; exact this
  rcases hcs : Fl.voxelCenters g with _ | ⟨c, cs⟩
  · obtain ⟨p, hp⟩ := List.exists_mem_of_ne_nil _ hne
    have := (hcen (ctr p)).2 ⟨p, hp, rfl⟩
    rw [hcs] at this; simp at this
  · have hb : Fl.bounds g = .ok (Box3d.mk' ⟨double ((Box3d.amin c cs).x - double (0.5 * s)), double ((Box3d.amin c cs).y - double (0.5 * s)),
        double ((Box3d.amin c cs).z - double (0.5 * s))⟩ ⟨double ((Box3d.amax c cs).x + double (0.5 * s)),
        double ((Box3d.amax c cs).y + double (0.5 * s)), double ((Box3d.amax c cs).z + double (0.5 * s))⟩) := by
      unfold Fl.bounds; rw [hcs]; simp only [hsize]
    obtain ⟨l1, ⟨q1, hq1, e1⟩, ⟨q2, hq2, e2⟩, ⟨q3, hq3, e3⟩⟩ := amin_spec c cs
    obtain ⟨l2, ⟨r1, hr1, f1⟩, ⟨r2, hr2, f2⟩, ⟨r3, hr3, f3⟩⟩ := amax_spec c cs
    have hord := l1 c (by simp)
    have hord' := l2 c (by simp)
    have hh := (half_close hs (size_close hs)).2.1
    rw [mk'_of_le (double_mono (by linarith [hord.1, hord'.1])) (double_mono (by linarith [hord.2.1, hord'.2.1]))
      (double_mono (by linarith [hord.2.2, hord'.2.2]))] at hb
    rw [← hcs] at hq1 hq2 hq3 hr1 hr2 hr3
    refine ⟨g, _, h1, hb, hsz, ?_, ⟨?_, ?_, ?_, ?_, ?_, ?_⟩, ?_, ?_⟩
    · intro p hp
      have hc : ctr p ∈ c :: cs := by rw [← hcs]; exact (hcen _).2 ⟨p, hp, rfl⟩
      obtain ⟨m1, m2, m3⟩ := l1 _ hc
      obtain ⟨n1, n2, n3⟩ := l2 _ hc
      obtain ⟨-, x1, x2⟩ := axis_close isSingle hs (ha p hp).1
      obtain ⟨-, y1, y2⟩ := axis_close isSingle hs (ha p hp).2.1
      obtain ⟨-, z1, z2⟩ := axis_close isSingle hs (ha p hp).2.2
      exact ⟨⟨(double_mono (sub_le_sub_right m1 _)).trans x1, x2.trans (double_mono (add_le_add n1 le_rfl))⟩,
        ⟨(double_mono (sub_le_sub_right m2 _)).trans y1, y2.trans (double_mono (add_le_add n2 le_rfl))⟩,
        (double_mono (sub_le_sub_right m3 _)).trans z1, z2.trans (double_mono (add_le_add n3 le_rfl))⟩
    · obtain ⟨p, hp, rfl⟩ := (hcen _).1 hq1
      exact ⟨p, hp, by simp only [← e1]; exact (faces_near isSingle hs (ha p hp).1).1⟩
    · obtain ⟨p, hp, rfl⟩ := (hcen _).1 hr1
      exact ⟨p, hp, by simp only [← f1]; exact (faces_near isSingle hs (ha p hp).1).2⟩
    · obtain ⟨p, hp, rfl⟩ := (hcen _).1 hq2
      exact ⟨p, hp, by simp only [← e2]; exact (faces_near isSingle hs (ha p hp).2.1).1⟩
    · obtain ⟨p, hp, rfl⟩ := (hcen _).1 hr2
      exact ⟨p, hp, by simp only [← f2]; exact (faces_near isSingle hs (ha p hp).2.1).2⟩
    · obtain ⟨p, hp, rfl⟩ := (hcen _).1 hq3
      exact ⟨p, hp, by simp only [← e3]; exact (faces_near isSingle hs (ha p hp).2.2).1⟩
    · obtain ⟨p, hp, rfl⟩ := (hcen _).1 hr3
      exact ⟨p, hp, by simp only [← f3]; exact (faces_near isSingle hs (ha p hp).2.2).2⟩
    · intro d hd
      obtain ⟨p, hp, rfl⟩ := (hcen _).1 hd
      exact ⟨p, hp, near p hp⟩
    · intro p hp
      exact ⟨_, (hcen _).2 ⟨p, hp, rfl⟩, near p hp⟩

/-! ### The hypotheses are met -/

/-- A point one voxel inside the grid and one at the corner, which is not a round number. -/
def machinePts : List (Vec3 ℚ) := [⟨double (1 / 3), 0, 0⟩, ⟨1, double (7 / 10), double (1 / 5)⟩]

example : machinePts ≠ [] ∧ (∀ p ∈ machinePts, Above ⟨double (1 / 3), 0, 0⟩ p) ∧
    (∀ p ∈ machinePts, Within (double (1 / 10)) ⟨double (1 / 3), 0, 0⟩ 10 10 (2 ^ 31 - 1) p) := by
  unfold Above Within
  decide +kernel

example : ∃ g, Fl.init (double (1 / 10)) ⟨double (1 / 3), 0, 0⟩ false (some machinePts) = .ok g ∧ g.grid.voxels = [⟨0, 0, 0⟩, ⟨6, 7, 2⟩] :=
  ⟨⟨⟨double (1 / double (1 / 10)), ⟨double (1 / 3), 0, 0⟩, [⟨0, 0, 0⟩, ⟨6, 7, 2⟩], 7, 8⟩, false⟩, by decide +kernel, rfl⟩

end Sumo
