import Verif.Lemmas.Voxel
import Verif.Lemmas.Dict
import Mathlib.Data.Rat.Floor

/-!
# Voxel grids (C44–C50, C81)
-/

set_option linter.unusedSectionVars false

namespace Sumo
open VoxelSpec

/-- **C44** a voxel inside the grid survives linearising and vectorising. -/
theorem C44_vectorize_linearize {sx sy : ℤ} (hs : sx * sy < 2 ^ 31) {v : Vec3 ℤ} (hx : 0 ≤ v.x ∧ v.x < sx)
    (hy : 0 ≤ v.y ∧ v.y < sy) (hz : 0 ≤ v.z) : vectorizeVoxel sx sy (linearizeVoxel sx sy v) = v :=
  vectorize_linearize hs ⟨hx, hy, hz⟩

/-- **C44** distinct voxels inside the grid have distinct linear indices. -/
theorem C44_injective {sx sy : ℤ} (hs : sx * sy < 2 ^ 31) {v w : Vec3 ℤ} (hx : 0 ≤ v.x ∧ v.x < sx)
    (hy : 0 ≤ v.y ∧ v.y < sy) (hz : 0 ≤ v.z) (hx' : 0 ≤ w.x ∧ w.x < sx) (hy' : 0 ≤ w.y ∧ w.y < sy) (hz' : 0 ≤ w.z)
    (h : linearizeVoxel sx sy v = linearizeVoxel sx sy w) : v = w := by
  rw [← vectorize_linearize hs (v := v) ⟨hx, hy, hz⟩, h, vectorize_linearize hs ⟨hx', hy', hz'⟩]

/-- **C44** every linear index is the index of the voxel it stands for, and that voxel is inside the grid. -/
theorem C44_linearize_vectorize {sx sy : ℤ} (hsx : 0 < sx) (hsy : 0 < sy) (hs : sx * sy < 2 ^ 31) (i : ℤ)
    (hi : 0 ≤ i) : linearizeVoxel sx sy (vectorizeVoxel sx sy i) = i ∧
      (0 ≤ (vectorizeVoxel sx sy i).x ∧ (vectorizeVoxel sx sy i).x < sx) ∧
      (0 ≤ (vectorizeVoxel sx sy i).y ∧ (vectorizeVoxel sx sy i).y < sy) ∧ 0 ≤ (vectorizeVoxel sx sy i).z := by
  refine ⟨linearize_vectorize hsx hsy hs i, ?_⟩
  unfold vectorizeVoxel
  simp only [Int.fdiv_eq_ediv_of_nonneg _ hsx.le, Int.fmod_eq_emod_of_nonneg _ hsx.le,
    Int.fdiv_eq_ediv_of_nonneg _ hsy.le, Int.fmod_eq_emod_of_nonneg _ hsy.le]
  have h1 := Int.ediv_nonneg hi hsx.le
  exact ⟨⟨Int.emod_nonneg _ hsx.ne', Int.emod_lt_of_pos _ hsx⟩, ⟨Int.emod_nonneg _ hsy.ne', Int.emod_lt_of_pos _ hsy⟩,
    Int.ediv_nonneg h1 hsy.le⟩

example : vectorizeVoxel 3 4 (linearizeVoxel 3 4 ⟨2, 3, 5⟩) = ⟨2, 3, 5⟩ := by decide

section
variable {K : Type} [Field K] [LinearOrder K] [IsStrictOrderedRing K] [FloorRing K]

/-- **C45** adding points to a fresh grid occupies exactly the cells that contain a point, once each. -/
theorem C45_occupied {size : K} (hs : 0 < size) (corner : Vec3 K) {ps : List (Vec3 K)} (hne : ps ≠ [])
    (ha : ∀ p ∈ ps, Above corner p) {nx ny : ℤ} (hn : nx * ny < 2 ^ 31)
    (hw : ∀ p ∈ ps, Within size corner nx ny (2 ^ 31) p) :
    ∃ g, VoxelGrid.init size corner (some ps) = .ok g ∧ g.voxels.Nodup ∧
      ∀ v, v ∈ g.voxels ↔ ∃ p ∈ ps, InCell size corner v p := by
  obtain ⟨h0, h0'⟩ := fresh_holds size corner
  obtain ⟨g', h1, h2, -⟩ := addPoints_holds hs h0 h0' hne hn ha hw (by simp) (Or.inl (by intro a ha; simp at ha))
  refine ⟨g', ?_, h2.2.1, fun v => ?_⟩
  · unfold VoxelGrid.init
    rw [if_neg (not_le.2 hs)]
    simp only [h1]
  · rw [h2.2.2]; simp

/-- The precondition on the extent cannot be dropped: `size_x * size_y` overflows, and two points in different cells
are stored as one voxel (**C45**). -/
theorem C45_overflow : ∃ (ps : List (Vec3 ℚ)) (g : VoxelGrid ℚ), VoxelGrid.init 1 0 (some ps) = .ok g ∧
    g.voxels.length = 1 ∧ (∃ p ∈ ps, InCell 1 0 ⟨65535, 65535, 0⟩ p) ∧ (∃ p ∈ ps, InCell 1 0 ⟨65535, 65535, 1⟩ p) := by
  refine ⟨[⟨65535, 65535, 0⟩, ⟨65535, 65535, 1⟩], ⟨1, 0, [⟨65535, 65535, 0⟩], 65536, 65536⟩, by decide +kernel, rfl, ?_, ?_⟩
  · refine ⟨⟨65535, 65535, 0⟩, by simp, ?_⟩
    norm_num [InCell]
  · refine ⟨⟨65535, 65535, 1⟩, by simp, ?_⟩
    norm_num [InCell]

/-- **C47** `add_points` raises `ValueError` exactly when there are no points, a point is below the corner, or one is
`2^31` or more cells away; the grid is then unchanged. -/
theorem C47_rejects {size : K} (hs : 0 < size) (g : VoxelGrid K) (hscale : g.voxelSize = size) (ps : List (Vec3 K)) :
    ((g.addPoints ps).2 ≠ none ↔ ps = [] ∨ ∃ p ∈ ps, ¬ Above g.minCorner p ∨
      ¬ Within size g.minCorner (2 ^ 31) (2 ^ 31) (2 ^ 31) p) ∧
    ∀ e, (g.addPoints ps).2 = some e → e = .valueError ∧ (g.addPoints ps).1 = g := by
  have hat : GridAt g size g.minCorner := ⟨by
    have : 1 / g.scale = size := hscale
    rw [← this]; simp, rfl⟩
  have key : (ps = [] ∨ ∃ p ∈ ps, ¬ (0 ≤ (g.indexOf p).x ∧ 0 ≤ (g.indexOf p).y ∧ 0 ≤ (g.indexOf p).z)) ↔
      (ps = [] ∨ ∃ p ∈ ps, ¬ Above g.minCorner p ∨ ¬ Within size g.minCorner (2 ^ 31) (2 ^ 31) (2 ^ 31) p) := by
    simp only [indexOf_nonneg hat hs, not_and_or]
  rw [← key]
  by_cases h : (ps = [] ∨ ∃ p ∈ ps, ¬ (0 ≤ (g.indexOf p).x ∧ 0 ≤ (g.indexOf p).y ∧ 0 ≤ (g.indexOf p).z))
  · rw [addPoints_error g ps h]
    exact ⟨⟨fun _ => h, fun _ => by simp⟩, fun e he => ⟨by simpa using he.symm, rfl⟩⟩
  · have hok : (g.addPoints ps).2 = none := by
      unfold VoxelGrid.addPoints VoxelGrid.addVoxels
      cases ps with
      | nil => exact absurd (Or.inl rfl) h
      | cons q qs =>
        simp only [List.map_cons]
        rw [if_neg]
        rw [← List.map_cons (f := g.indexOf), List.any_eq_true]
        rintro ⟨w, hw, hd⟩
        obtain ⟨p, hp, rfl⟩ := List.mem_map.1 hw
        apply h
        right
        refine ⟨p, hp, ?_⟩
        simp only [Bool.or_eq_true, decide_eq_true_eq] at hd
        omega
    rw [hok]
    exact ⟨⟨fun h' => absurd rfl h', fun h' => absurd h' h⟩, fun e he => by cases he⟩

/-- **C47** a voxel size that is not positive is rejected. -/
theorem C47_voxel_size (size : K) (corner : Vec3 K) (ps : Option (List (Vec3 K))) (h : size ≤ 0) :
    VoxelGrid.init size corner ps = .error .valueError := by
  unfold VoxelGrid.init; rw [if_pos h]

/-- Add several batches one after the other, stopping at the first exception. -/
def addBatches (g : VoxelGrid K) : List (List (Vec3 K)) → VoxelGrid K × Option PyErr
  | [] => (g, none)
  | b :: bs => match g.addPoints b with
    | (g', none) => addBatches g' bs
    | (g', some e) => (g', some e)

/-- Each batch reaches at least as far in both x and y as all earlier points, or less far in both. -/
def Nested (size : K) (corner : Vec3 K) : List (Vec3 K) → List (List (Vec3 K)) → Prop
  | _, [] => True
  | pre, b :: bs => (ExtentLe size corner pre b ∨ ExtentLe size corner b pre) ∧ Nested size corner (pre ++ b) bs

theorem batches_holds {size : K} (hs : 0 < size) (corner : Vec3 K) {nx ny : ℤ} (hn : nx * ny < 2 ^ 31)
    (bs : List (List (Vec3 K))) : ∀ (g : VoxelGrid K) (pre : List (Vec3 K)), Holds g size corner pre →
      VoxInv g.voxels g.sizeX g.sizeY → (∀ p ∈ pre, Within size corner nx ny (2 ^ 31) p) →
      (∀ b ∈ bs, b ≠ [] ∧ ∀ p ∈ b, Above corner p ∧ Within size corner nx ny (2 ^ 31) p) →
      Nested size corner pre bs → ∃ g', addBatches g bs = (g', none) ∧ Holds g' size corner (pre ++ bs.flatten) := by
  induction bs with
  | nil => intro g pre h _ _ _ _; exact ⟨g, rfl, by simpa using h⟩
  | cons b bs ih =>
    intro g pre h hi hw hb hnest
    obtain ⟨hne, hp⟩ := hb b (by simp)
    obtain ⟨g1, e1, h1, i1⟩ := addPoints_holds hs h hi hne hn (fun p hpb => (hp p hpb).1) (fun p hpb => (hp p hpb).2) hw
      hnest.1
    obtain ⟨g2, e2, h2⟩ := ih g1 (pre ++ b) h1 i1 (by
      intro p hpm
      rcases List.mem_append.1 hpm with h | h
      · exact hw p h
      · exact (hp p h).2) (fun b' hb' => hb b' (by simp [hb'])) hnest.2
    refine ⟨g2, ?_, ?_⟩
    · simp only [addBatches, e1, e2]
    · simpa using h2

/-- **C46** (partial) after any sequence of `add_points` calls whose x and y extents grow together the occupied voxels are
those of all points, as if added at once.  Missing: extents that do not grow together, where the claim is false
(`C46_false`). -/
theorem C46_union_partial {size : K} (hs : 0 < size) (corner : Vec3 K) {nx ny : ℤ} (hn : nx * ny < 2 ^ 31)
    {bs : List (List (Vec3 K))} (hbs : bs ≠ [])
    (hb : ∀ b ∈ bs, b ≠ [] ∧ ∀ p ∈ b, Above corner p ∧ Within size corner nx ny (2 ^ 31) p)
    (hnest : Nested size corner [] bs) {g : VoxelGrid K} (hg : VoxelGrid.init size corner none = .ok g) :
    ∃ g', addBatches g bs = (g', none) ∧ g'.voxels.Nodup ∧
      (∀ v, v ∈ g'.voxels ↔ ∃ p ∈ bs.flatten, InCell size corner v p) ∧
      ∃ g1, g.addPoints bs.flatten = (g1, none) ∧ ∀ v, v ∈ g'.voxels ↔ v ∈ g1.voxels := by
  rw [init_none hs] at hg
  cases hg
  obtain ⟨h0, h0'⟩ := fresh_holds size corner
  obtain ⟨g', e, h⟩ := batches_holds hs corner hn bs _ [] h0 h0' (by simp) hb hnest
  have hne : bs.flatten ≠ [] := by
    obtain ⟨b, hbm⟩ := List.exists_mem_of_ne_nil _ hbs
    obtain ⟨p, hp⟩ := List.exists_mem_of_ne_nil _ (hb b hbm).1
    intro h
    have : p ∈ bs.flatten := List.mem_flatten.2 ⟨b, hbm, hp⟩
    rw [h] at this; simp at this
  obtain ⟨g1, e1, h1, -⟩ := addPoints_holds hs h0 h0' hne hn
    (fun p hp => by
      obtain ⟨b, hbm, hpb⟩ := List.mem_flatten.1 hp
      exact ((hb b hbm).2 p hpb).1)
    (fun p hp => by
      obtain ⟨b, hbm, hpb⟩ := List.mem_flatten.1 hp
      exact ((hb b hbm).2 p hpb).2) (by simp) (Or.inl (by intro a ha; simp at ha))
  exact ⟨g', e, h.2.1, fun v => by simpa using h.2.2 v, g1, e1, fun v => by rw [h.2.2, h1.2.2]⟩

theorem within_big {size : K} {corner : Vec3 K} {nx ny : ℤ} (hs : 0 < size) (hn : nx * ny < 2 ^ 31) {p : Vec3 K}
    (ha : Above corner p) (hw : Within size corner nx ny (2 ^ 31) p) :
    Within size corner (2 ^ 31) (2 ^ 31) (2 ^ 31) p ∧ (cellOf size corner p).x < 2 ^ 31 - 1 ∧ (cellOf size corner p).y < 2 ^ 31 - 1 := by
  have cx : (cellOf size corner p).x < nx := (floor_range hs nx).2.2 hw.1
  have cy : (cellOf size corner p).y < ny := (floor_range hs ny).2.2 hw.2.1
  have dx : 0 ≤ (cellOf size corner p).x := (floor_range hs nx).1.2 ha.1
  have dy : 0 ≤ (cellOf size corner p).y := (floor_range hs ny).1.2 ha.2.1
  have hnx31 : nx < 2 ^ 31 := by nlinarith
  have hny31 : ny < 2 ^ 31 := by nlinarith
  have a : (nx : K) ≤ ((2 ^ 31 : ℤ) : K) := by exact_mod_cast hnx31.le
  have b : (ny : K) ≤ ((2 ^ 31 : ℤ) : K) := by exact_mod_cast hny31.le
  obtain ⟨h1, h2, h3⟩ := hw
  refine ⟨⟨?_, ?_, h3⟩, by omega, by omega⟩ <;> nlinarith

/-- A batch that reaches further than all earlier points in one direction and less far in the other makes the grid lose a voxel. -/
theorem addPoints_not_holds {g g' : VoxelGrid K} {size : K} {corner : Vec3 K} {pre ps : List (Vec3 K)} (hs : 0 < size)
    (hg : Holds g size corner pre) (hinv : VoxInv g.voxels g.sizeX g.sizeY) (hne : ps ≠ [])
    {nx ny : ℤ} (hn : nx * ny < 2 ^ 31) (ha : ∀ p ∈ ps, Above corner p) (hw : ∀ p ∈ ps, Within size corner nx ny (2 ^ 31) p)
    (hcmp : ¬ (ExtentLe size corner pre ps ∨ ExtentLe size corner ps pre)) (h : g.addPoints ps = (g', none)) :
    ∃ p ∈ pre, ∃ v, InCell size corner v p ∧ v ∉ g'.voxels := by
  obtain ⟨hat, hnd, hmem⟩ := hg
  have hidx : ∀ p ∈ ps, g.indexOf p = cellOf size corner p :=
    fun p hp => indexOf_eq hat hs (ha p hp) (within_big hs hn (ha p hp) (hw p hp)).1
  have h0 : 0 < pre.length := by
    by_contra h0
    have : pre = [] := List.length_eq_zero_iff.1 (by omega)
    subst this
    exact hcmp (Or.inl (by intro a ha; simp at ha))
  rw [not_or] at hcmp
  obtain ⟨h1, h2⟩ := hcmp
  unfold ExtentLe at h1 h2
  push Not at h1 h2
  obtain ⟨a, hap, v, hva, hv⟩ := h1
  obtain ⟨b, hb, w, hwb, hw'⟩ := h2
  refine ⟨a, hap, v, hva, ?_⟩
  refine addPoints_lost hne (fun p hp => (indexOf_nonneg hat hs p).2 ⟨ha p hp, (within_big hs hn (ha p hp) (hw p hp)).1⟩)
    (fun p hp => by rw [hidx p hp]; exact (within_big hs hn (ha p hp) (hw p hp)).2) ⟨b, hb, ?_⟩ ?_ h
  · rw [hidx b hb, ← (inCell_cellOf hs).1 hwb]
    rcases hinv.size with ⟨e, -⟩ | ⟨⟨x, hx, ex⟩, ⟨y, hy, ey⟩⟩
    · have := (hmem v).2 ⟨a, hap, hva⟩
      rw [e] at this
      simp at this
    · obtain ⟨px, hpx, cx⟩ := (hmem x).1 hx
      obtain ⟨py, hpy, cy⟩ := (hmem y).1 hy
      by_cases hc : ∃ b ∈ pre, ∃ u, InCell size corner u b ∧ w.x ≤ u.x
      · have := hw' hc py hpy y cy
        right; omega
      · push Not at hc
        have := hc px hpx x cx
        left; omega
  · by_cases hc : ∃ b ∈ ps, ∃ u, InCell size corner u b ∧ v.x ≤ u.x
    · right
      intro p hp
      rw [hidx p hp]
      exact hv hc p hp _ ((inCell_cellOf hs).2 rfl)
    · push Not at hc
      left
      intro p hp
      rw [hidx p hp]
      exact hc p hp _ ((inCell_cellOf hs).2 rfl)

theorem addBatches_append (g : VoxelGrid K) (bs : List (List (Vec3 K))) (b : List (Vec3 K)) {g' : VoxelGrid K}
    (h : addBatches g bs = (g', none)) : addBatches g (bs ++ [b]) = g'.addPoints b := by
  induction bs generalizing g with
  | nil =>
    simp only [addBatches, Prod.mk.injEq, and_true] at h
    subst h
    simp only [List.nil_append, addBatches]
    rcases g.addPoints b with ⟨g1, _ | e⟩ <;> rfl
  | cons c bs ih =>
    simp only [List.cons_append, addBatches] at h ⊢
    rcases hc : g.addPoints c with ⟨g1, _ | e⟩
    · rw [hc] at h
      exact ih g1 h
    · rw [hc] at h
      simp at h

/-- **C46** exactly: with points above the corner and no more than `2^31` cells, the occupied voxels are those of all points
after every single `add_points` call of a sequence if and only if each batch reaches, in both x and y, at least as far as all
earlier points, or, in both, not further. -/
theorem C46_union_iff {size : K} (hs : 0 < size) (corner : Vec3 K) {nx ny : ℤ} (hn : nx * ny < 2 ^ 31)
    {bs : List (List (Vec3 K))} (hb : ∀ b ∈ bs, b ≠ [] ∧ ∀ p ∈ b, Above corner p ∧ Within size corner nx ny (2 ^ 31) p)
    {g : VoxelGrid K} (hg : VoxelGrid.init size corner none = .ok g) :
    (∀ n, ∃ g', addBatches g (bs.take n) = (g', none) ∧
      ∀ v, v ∈ g'.voxels ↔ ∃ p ∈ (bs.take n).flatten, InCell size corner v p) ↔
    ∀ before b after, bs = before ++ b :: after →
      ExtentLe size corner before.flatten b ∨ ExtentLe size corner b before.flatten := by
  rw [init_none hs] at hg
  cases hg
  obtain ⟨h0, h0'⟩ := fresh_holds size corner
  -- as long as every batch fits, the grid is in a good state
  have key : ∀ cs : List (List (Vec3 K)), (∀ b ∈ cs, b ≠ [] ∧ ∀ p ∈ b, Above corner p ∧ Within size corner nx ny (2 ^ 31) p) →
      (∀ before b after, cs = before ++ b :: after →
        ExtentLe size corner before.flatten b ∨ ExtentLe size corner b before.flatten) →
      ∃ g', addBatches ⟨1 / size, corner, [], 0, 0⟩ cs = (g', none) ∧ Holds g' size corner cs.flatten ∧
        VoxInv g'.voxels g'.sizeX g'.sizeY := by
    intro cs
    induction cs using List.reverseRecOn with
    | nil => intro _ _; exact ⟨_, rfl, h0, h0'⟩
    | append_singleton cs c ih =>
      intro hcs hn'
      obtain ⟨g1, e1, h1, i1⟩ := ih (fun b hb => hcs b (List.mem_append_left _ hb)) fun before b after e =>
        hn' before b (after ++ [c]) (by rw [e]; simp)
      obtain ⟨hne, hp⟩ := hcs c (by simp)
      obtain ⟨g2, e2, h2, i2⟩ := addPoints_holds hs h1 i1 hne hn (fun p hpb => (hp p hpb).1) (fun p hpb => (hp p hpb).2)
        (fun p hpm => by
          obtain ⟨b, hbm, hpb⟩ := List.mem_flatten.1 hpm
          exact ((hcs b (List.mem_append_left _ hbm)).2 p hpb).2) (hn' cs c [] rfl)
      exact ⟨g2, by rw [addBatches_append _ _ _ e1, e2], by simpa using h2, i2⟩
  constructor
  · intro hall before
    induction hk : before.length using Nat.strong_induction_on generalizing before with
    | _ k ih =>
      intro b after e
      have hmem : ∀ x ∈ before ++ [b], x ∈ bs := by
        intro x hx; rw [e]; simp only [List.mem_append, List.mem_cons, List.not_mem_nil, or_false] at hx ⊢; tauto
      obtain ⟨g1, e1, h1, i1⟩ := key before (fun x hx => hb x (hmem x (List.mem_append_left _ hx))) fun before' b' after' e' =>
        ih before'.length (by rw [← hk, e']; simp) before' rfl b' (after' ++ b :: after) (by rw [e, e']; simp)
      by_contra hc
      obtain ⟨g2, e2, h2⟩ := hall (before.length + 1)
      have et : bs.take (before.length + 1) = before ++ [b] := by
        rw [e, List.take_append]; simp
      rw [et, addBatches_append _ _ _ e1] at e2
      obtain ⟨hne, hp⟩ := hb b (hmem b (by simp))
      obtain ⟨p, hpp, v, hv, hlost⟩ := addPoints_not_holds hs h1 i1 hne hn (fun p hpb => (hp p hpb).1)
        (fun p hpb => (hp p hpb).2) hc e2
      rw [et] at h2
      exact hlost ((h2 v).2 ⟨p, by rw [List.flatten_append]; exact List.mem_append_left _ hpp, hv⟩)
  · intro hall n
    obtain ⟨g', e', h', -⟩ := key (bs.take n) (fun b hbm => hb b (List.mem_of_mem_take hbm)) fun before b after e =>
      hall before b (after ++ bs.drop n) (by
        have h := List.take_append_drop n bs
        rw [e] at h
        simpa using h.symm)
    exact ⟨g', e', h'.2.2⟩

/-- Two batches that do not fit, and two that do. -/
example : ¬ (∀ n, ∃ g', addBatches (⟨1, 0, [], 0, 0⟩ : VoxelGrid ℚ) ([[⟨1 / 2, 3 / 2, 1 / 2⟩], [⟨3 / 2, 1 / 2, 1 / 2⟩]].take n) =
    (g', none) ∧ ∀ v, v ∈ g'.voxels ↔
      ∃ p ∈ ([[⟨1 / 2, 3 / 2, 1 / 2⟩], [⟨3 / 2, 1 / 2, 1 / 2⟩]].take n : List (List (Vec3 ℚ))).flatten, InCell 1 0 v p) := by
  rw [C46_union_iff (nx := 2) (ny := 2) (by norm_num) 0 (by norm_num) (by
    simp only [List.mem_cons, List.not_mem_nil, or_false]
    rintro b (rfl | rfl) <;> refine ⟨by simp, ?_⟩ <;> simp only [List.mem_cons, List.not_mem_nil, or_false, forall_eq] <;>
      norm_num [Above, Within]) (by decide +kernel)]
  intro h
  have h' := h [[⟨1 / 2, 3 / 2, 1 / 2⟩]] _ [] rfl
  have c1 : InCell (1 : ℚ) 0 ⟨0, 1, 0⟩ ⟨1 / 2, 3 / 2, 1 / 2⟩ := by norm_num [InCell]
  have c2 : InCell (1 : ℚ) 0 ⟨1, 0, 0⟩ ⟨3 / 2, 1 / 2, 1 / 2⟩ := by norm_num [InCell]
  have one : ∀ {p : Vec3 ℚ} {v w : Vec3 ℤ}, InCell 1 0 v p → InCell 1 0 w p → v = w := fun h h' => by
    rw [inCell_cellOf one_pos] at h h'; rw [h, h']
  rcases h' with h' | h'
  · obtain ⟨-, b, hb, w, hw, hl⟩ := h' ⟨1 / 2, 3 / 2, 1 / 2⟩ (by simp) _ c1
    simp only [List.mem_cons, List.not_mem_nil, or_false] at hb
    subst hb
    rw [one hw c2] at hl
    norm_num at hl
  · obtain ⟨⟨b, hb, w, hw, hl⟩, -⟩ := h' ⟨3 / 2, 1 / 2, 1 / 2⟩ (by simp) _ c2
    simp only [List.flatten_cons, List.flatten_nil, List.append_nil, List.mem_cons, List.not_mem_nil, or_false] at hb
    subst hb
    rw [one hw c1] at hl
    norm_num at hl

/-- **C46 is false** of the code: a point in cell (0,1,0), then one in cell (1,0,0); the first voxel becomes
(0,0,1), because both sizes are replaced when one of them grows (`threedee/voxel_grid.py:129-130`). -/
theorem C46_false : ∃ (g : VoxelGrid ℚ) (p q : Vec3 ℚ), VoxelGrid.init 1 0 (some [p]) = .ok g ∧
    InCell 1 0 ⟨0, 1, 0⟩ p ∧ InCell 1 0 ⟨1, 0, 0⟩ q ∧ ∃ g', g.addPoints [q] = (g', none) ∧
    (⟨0, 1, 0⟩ : Vec3 ℤ) ∉ g'.voxels ∧ (⟨0, 0, 1⟩ : Vec3 ℤ) ∈ g'.voxels ∧ ¬ InCell 1 0 ⟨0, 0, 1⟩ p ∧
    ¬ InCell 1 0 ⟨0, 0, 1⟩ q := by
  refine ⟨⟨1, 0, [⟨0, 1, 0⟩], 1, 2⟩, ⟨1 / 2, 3 / 2, 1 / 2⟩, ⟨3 / 2, 1 / 2, 1 / 2⟩, by decide +kernel, ?_, ?_,
    ⟨1, 0, [⟨1, 0, 0⟩, ⟨0, 0, 1⟩], 2, 1⟩, by decide +kernel, ?_, ?_, ?_, ?_⟩
  · norm_num [InCell]
  · norm_num [InCell]
  · decide +kernel
  · decide +kernel
  · norm_num [InCell]
  · norm_num [InCell]

/-- Within half a voxel on each axis. -/
def HalfVoxel (size : K) (c p : Vec3 K) : Prop :=
  |c.x - p.x| ≤ size / 2 ∧ |c.y - p.y| ≤ size / 2 ∧ |c.z - p.z| ≤ size / 2

theorem center_near {size : K} {corner p : Vec3 K} {v : Vec3 ℤ} (h : InCell size corner v p) :
    HalfVoxel size ⟨v.x * size + (corner.x + 0.5 * size), v.y * size + (corner.y + 0.5 * size),
      v.z * size + (corner.z + 0.5 * size)⟩ p := by
  have e : (0.5 : K) = 1 / 2 := by norm_num
  obtain ⟨⟨h1, h2⟩, ⟨h3, h4⟩, ⟨h5, h6⟩⟩ := h
  unfold HalfVoxel
  simp only [abs_le, e]
  refine ⟨⟨?_, ?_⟩, ⟨?_, ?_⟩, ?_, ?_⟩ <;> linarith

/-- **C48** after adding points to a fresh grid: `bounds()` contains every point, no face of it is more than one voxel
away from a point, every voxel centre is within half a voxel of a point, and every point of a centre. -/
theorem C48_bounds {size : K} (hs : 0 < size) (corner : Vec3 K) {ps : List (Vec3 K)} (hne : ps ≠ [])
    (ha : ∀ p ∈ ps, Above corner p) {nx ny : ℤ} (hn : nx * ny < 2 ^ 31)
    (hw : ∀ p ∈ ps, Within size corner nx ny (2 ^ 31) p) :
    ∃ g b, VoxelGrid.init size corner (some ps) = .ok g ∧ g.bounds = .ok b ∧
      (∀ p ∈ ps, BoxSpec.Mem b p) ∧
      ((∃ p ∈ ps, p.x - size < b.minCorner.x) ∧ (∃ p ∈ ps, b.maxCorner.x ≤ p.x + size) ∧
       (∃ p ∈ ps, p.y - size < b.minCorner.y) ∧ (∃ p ∈ ps, b.maxCorner.y ≤ p.y + size) ∧
       (∃ p ∈ ps, p.z - size < b.minCorner.z) ∧ (∃ p ∈ ps, b.maxCorner.z ≤ p.z + size)) ∧
      (∀ c ∈ g.voxelCenters, ∃ p ∈ ps, HalfVoxel size c p) ∧ (∀ p ∈ ps, ∃ c ∈ g.voxelCenters, HalfVoxel size c p) := by
  obtain ⟨h0, h0'⟩ := fresh_holds size corner
  obtain ⟨g, h1, ⟨⟨hsc, hco⟩, hnd, hmem⟩, -⟩ :=
    addPoints_holds hs h0 h0' hne hn ha hw (by simp) (Or.inl (by intro a ha; simp at ha))
  rw [List.nil_append] at hmem
  have hsize : g.voxelSize = size := by unfold VoxelGrid.voxelSize; rw [hsc]; simp
  have e05 : (0.5 : K) = 1 / 2 := by norm_num
  let ctr : Vec3 ℤ → Vec3 K := fun v => ⟨v.x * size + (corner.x + 0.5 * size), v.y * size + (corner.y + 0.5 * size),
    v.z * size + (corner.z + 0.5 * size)⟩
  have hcen : g.voxelCenters = g.voxels.map ctr := by
    unfold VoxelGrid.voxelCenters; simp only [hsize, hco, ctr]
  have hinit : VoxelGrid.init size corner (some ps) = .ok g := by
    unfold VoxelGrid.init; rw [if_neg (not_le.2 hs)]; simp only [h1]
  have hvox : g.voxels ≠ [] := by
    obtain ⟨p, hp⟩ := List.exists_mem_of_ne_nil _ hne
    intro h
    have := (hmem (cellOf size corner p)).2 ⟨p, hp, (inCell_cellOf hs).2 rfl⟩
    rw [h] at this; simp at this
  have hcp : ∀ c ∈ g.voxelCenters, ∃ p ∈ ps, ∃ v, InCell size corner v p ∧ c = ctr v := by
    intro c hc
    rw [hcen] at hc
    obtain ⟨v, hv, rfl⟩ := List.mem_map.1 hc
    obtain ⟨p, hp, hin⟩ := (hmem v).1 hv
    exact ⟨p, hp, v, hin, rfl⟩
  have hpc : ∀ p ∈ ps, ∃ v, InCell size corner v p ∧ ctr v ∈ g.voxelCenters := by
    intro p hp
    refine ⟨cellOf size corner p, (inCell_cellOf hs).2 rfl, ?_⟩
    rw [hcen]
    exact List.mem_map_of_mem ((hmem _).2 ⟨p, hp, (inCell_cellOf hs).2 rfl⟩)
  have hhalf1 : ∀ c ∈ g.voxelCenters, ∃ p ∈ ps, HalfVoxel size c p := by
    intro c hc
    obtain ⟨p, hp, v, hin, rfl⟩ := hcp c hc
    exact ⟨p, hp, center_near hin⟩
  have hhalf2 : ∀ p ∈ ps, ∃ c ∈ g.voxelCenters, HalfVoxel size c p := by
    intro p hp
    obtain ⟨v, hin, hc⟩ := hpc p hp
    exact ⟨_, hc, center_near hin⟩
  rcases hcs : g.voxelCenters with _ | ⟨c, cs⟩
  · rw [hcen] at hcs
    exact absurd (List.map_eq_nil_iff.1 hcs) hvox
  · have hb : g.bounds = .ok (Box3d.mk' ⟨(Box3d.amin c cs).x - 0.5 * size, (Box3d.amin c cs).y - 0.5 * size,
        (Box3d.amin c cs).z - 0.5 * size⟩ ⟨(Box3d.amax c cs).x + 0.5 * size, (Box3d.amax c cs).y + 0.5 * size,
        (Box3d.amax c cs).z + 0.5 * size⟩) := by
      unfold VoxelGrid.bounds; rw [hcs]; simp only [hsize]
    obtain ⟨l1, ⟨q1, hq1, e1⟩, ⟨q2, hq2, e2⟩, ⟨q3, hq3, e3⟩⟩ := amin_spec c cs
    obtain ⟨l2, ⟨r1, hr1, f1⟩, ⟨r2, hr2, f2⟩, ⟨r3, hr3, f3⟩⟩ := amax_spec c cs
    have hord := l1 c (by simp)
    have hord' := l2 c (by simp)
    rw [mk'_of_le (by simp only; rw [e05]; linarith [hord.1, hord'.1])
      (by simp only; rw [e05]; linarith [hord.2.1, hord'.2.1])
      (by simp only; rw [e05]; linarith [hord.2.2, hord'.2.2])] at hb
    rw [← hcs] at hq1 hq2 hq3 hr1 hr2 hr3
    refine ⟨g, _, hinit, hb, ?_, ⟨?_, ?_, ?_, ?_, ?_, ?_⟩, hhalf1, hhalf2⟩
    · intro p hp
      obtain ⟨d, hd, hh⟩ := hhalf2 p hp
      rw [hcs] at hd
      have a := l1 d hd
      have b := l2 d hd
      unfold HalfVoxel at hh
      simp only [abs_le] at hh
      unfold BoxSpec.Mem
      simp only [e05]
      refine ⟨⟨?_, ?_⟩, ⟨?_, ?_⟩, ?_, ?_⟩ <;> linarith [a.1, a.2.1, a.2.2, b.1, b.2.1, b.2.2, hh.1.1, hh.1.2, hh.2.1.1,
        hh.2.1.2, hh.2.2.1, hh.2.2.2]
    · obtain ⟨p, hp, v, hin, hc⟩ := hcp q1 hq1
      refine ⟨p, hp, ?_⟩
      simp only [← e1, hc, ctr, e05]
      linarith [hin.1.2]
    · obtain ⟨p, hp, v, hin, hc⟩ := hcp r1 hr1
      refine ⟨p, hp, ?_⟩
      simp only [← f1, hc, ctr, e05]
      linarith [hin.1.1]
    · obtain ⟨p, hp, v, hin, hc⟩ := hcp q2 hq2
      refine ⟨p, hp, ?_⟩
      simp only [← e2, hc, ctr, e05]
      linarith [hin.2.1.2]
    · obtain ⟨p, hp, v, hin, hc⟩ := hcp r2 hr2
      refine ⟨p, hp, ?_⟩
      simp only [← f2, hc, ctr, e05]
      linarith [hin.2.1.1]
    · obtain ⟨p, hp, v, hin, hc⟩ := hcp q3 hq3
      refine ⟨p, hp, ?_⟩
      simp only [← e3, hc, ctr, e05]
      linarith [hin.2.2.2]
    · obtain ⟨p, hp, v, hin, hc⟩ := hcp r3 hr3
      refine ⟨p, hp, ?_⟩
      simp only [← f3, hc, ctr, e05]
      linarith [hin.2.2.1]

/-- **C49** a saved grid whose voxel indices fit in `int32` loads as the same grid (so the same voxels, centres and bounds,
and the same behaviour of later calls), and other files are untouched. -/
theorem C49_save_load (fs : Dict String (VoxelGrid.H5 K)) (name : String) (g : VoxelGrid K)
    (h32 : ∀ v ∈ g.voxels, (0 ≤ v.x ∧ v.x < 2 ^ 31) ∧ (0 ≤ v.y ∧ v.y < 2 ^ 31) ∧ (0 ≤ v.z ∧ v.z < 2 ^ 31)) :
    ∃ fs', g.save true fs name = .ok fs' ∧ VoxelGrid.load fs' name = .ok g ∧
      ∀ other, other ≠ name → fs'.get? other = fs.get? other := by
  refine ⟨_, rfl, ?_, ?_⟩
  · unfold VoxelGrid.load
    rw [Dict.get?_set]
    simp only [if_true]
    congr 1
    cases g with
    | mk sc mc vs sx sy =>
      congr 1
      simp only at h32
      conv_rhs => rw [← List.map_id vs]
      apply List.map_congr_left
      intro v hv
      obtain ⟨hx, hy, hz⟩ := h32 v hv
      simp only [toInt32_of hx.1 hx.2, toInt32_of hy.1 hy.2, toInt32_of hz.1 hz.2, id]
  · intro other ho
    rw [Dict.get?_set, if_neg ho.symm]

/-- **C49** in particular every grid made from points as in C45 survives. -/
theorem C49_built_grid {size : K} (hs : 0 < size) (corner : Vec3 K) {ps : List (Vec3 K)} (hne : ps ≠ [])
    (ha : ∀ p ∈ ps, Above corner p) {nx ny : ℤ} (hn : nx * ny < 2 ^ 31)
    (hw : ∀ p ∈ ps, Within size corner nx ny (2 ^ 31) p) (fs : Dict String (VoxelGrid.H5 K)) (name : String) :
    ∃ g fs', VoxelGrid.init size corner (some ps) = .ok g ∧ g.save true fs name = .ok fs' ∧
      VoxelGrid.load fs' name = .ok g := by
  obtain ⟨g, h1, -, h3⟩ := C45_occupied hs corner hne ha hn hw
  have hnx : 0 < nx ∧ 0 < ny := by
    obtain ⟨p, hp⟩ := List.exists_mem_of_ne_nil _ hne
    constructor
    · have := (floor_range (size := size) (c := corner.x) (q := p.x) hs nx).1.2 (ha p hp).1
      have := (floor_range (size := size) (c := corner.x) (q := p.x) hs nx).2.2 (hw p hp).1
      omega
    · have := (floor_range (size := size) (c := corner.y) (q := p.y) hs ny).1.2 (ha p hp).2.1
      have := (floor_range (size := size) (c := corner.y) (q := p.y) hs ny).2.2 (hw p hp).2.1
      omega
  obtain ⟨fs', h4, h5, -⟩ := C49_save_load fs name g (by
    intro v hv
    obtain ⟨p, hp, hin⟩ := (h3 v).1 hv
    rw [(inCell_cellOf hs).1 hin]
    have a := ha p hp
    have b := hw p hp
    have bx := (floor_range hs nx).2.2 b.1
    have byy := (floor_range hs ny).2.2 b.2.1
    have bz := (floor_range hs (2 ^ 31)).2.2 b.2.2
    have nx31 : nx < 2 ^ 31 := by nlinarith [hnx.1, hnx.2]
    have ny31 : ny < 2 ^ 31 := by nlinarith [hnx.1, hnx.2]
    exact ⟨⟨(floor_range hs nx).1.2 a.1, bx.trans nx31⟩, ⟨(floor_range hs nx).1.2 a.2.1, byy.trans ny31⟩,
      (floor_range hs nx).1.2 a.2.2, bz⟩)
  exact ⟨g, fs', h1, h4, h5⟩

/-- **C50** the voxelizer's grid starts at the corner of the samples' bounding box, so no sample is rejected (as long as the
samples span fewer than `2^31` voxels per axis). -/
theorem C50_voxelizer {size : K} (hs : 0 < size) {ps : List (Vec3 K)} (hne : ps ≠ [])
    (hsmall : ∀ p ∈ ps, ∀ q ∈ ps, q.x - p.x < 2 ^ 31 * size ∧ q.y - p.y < 2 ^ 31 * size ∧ q.z - p.z < 2 ^ 31 * size) :
    ∃ g, voxelizerRun size ps = .ok g := by
  cases ps with
  | nil => exact absurd rfl hne
  | cons p0 ps =>
    have hb : (bboxOfPoints (p0 :: ps)).minCorner = Box3d.amin p0 ps := by rw [bboxOfPoints_cons]
    obtain ⟨l1, ⟨q1, hq1, e1⟩, ⟨q2, hq2, e2⟩, ⟨q3, hq3, e3⟩⟩ := amin_spec p0 ps
    have hat : (⟨1 / size, Box3d.amin p0 ps, [], 0, 0⟩ : VoxelGrid K).voxelSize = size := by
      unfold VoxelGrid.voxelSize; simp
    have hnone : ((⟨1 / size, Box3d.amin p0 ps, [], 0, 0⟩ : VoxelGrid K).addPoints (p0 :: ps)).2 = none := by
      by_contra h
      rcases (C47_rejects hs _ hat (p0 :: ps)).1.1 h with h | ⟨p, hp, h | h⟩
      · cases h
      · exact h (l1 p hp)
      · apply h
        have a1 := (hsmall q1 hq1 p hp).1
        have a2 := (hsmall q2 hq2 p hp).2.1
        have a3 := (hsmall q3 hq3 p hp).2.2
        unfold Within
        push_cast
        refine ⟨?_, ?_, ?_⟩
        · simp only [← e1]; linarith
        · simp only [← e2]; linarith
        · simp only [← e3]; linarith
    refine ⟨((⟨1 / size, Box3d.amin p0 ps, [], 0, 0⟩ : VoxelGrid K).addPoints (p0 :: ps)).1, ?_⟩
    unfold voxelizerRun VoxelGrid.init
    rw [if_neg (not_le.2 hs), hb]
    simp only
    rcases hr : (⟨1 / size, Box3d.amin p0 ps, [], 0, 0⟩ : VoxelGrid K).addPoints (p0 :: ps) with ⟨g', e⟩
    rw [hr] at hnone
    simp only at hnone
    subst hnone
    rfl

/-- **C81 is false** of the code: a voxel file that does not exist (or cannot be written) is reported as
`UnboundLocalError`, not as the documented `IOError`, which is built but not raised (`threedee/voxel_grid.py:178,199`). -/
theorem C81_false (fs : Dict String (VoxelGrid.H5 K)) (name : String) (h : fs.get? name = none) (g : VoxelGrid K) :
    VoxelGrid.load fs name = .error .unboundLocalError ∧ g.save false fs name = .error .unboundLocalError := by
  unfold VoxelGrid.load VoxelGrid.save; rw [h]; simp

/-- **C81** (partial) a load succeeds exactly when the file is there.  Missing: the class of the exception, see
`C81_false`. -/
theorem C81_load_partial (fs : Dict String (VoxelGrid.H5 K)) (name : String) :
    (∃ g, VoxelGrid.load fs name = .ok g) ↔ fs.has name = true := by
  unfold VoxelGrid.load Dict.has
  rcases fs.get? name with _ | f <;> simp

end

/-! ### The hypotheses are met -/

/-- Two points, cell size 1/2. -/
def voxelPts : List (Vec3 ℚ) := [⟨0, 0, 0⟩, ⟨3 / 5, 1, 1 / 5⟩]

example : voxelPts ≠ [] ∧ (∀ p ∈ voxelPts, Above 0 p) ∧ (∀ p ∈ voxelPts, Within (1 / 2) 0 10 10 (2 ^ 31) p) := by
  refine ⟨by simp [voxelPts], ?_, ?_⟩ <;> intro p hp <;> simp only [voxelPts, List.mem_cons, List.not_mem_nil, or_false] at hp <;>
    rcases hp with rfl | rfl <;> norm_num [Above, Within]

example : ∃ g, VoxelGrid.init (1 / 2) 0 (some voxelPts) = .ok g ∧ g.voxels = [⟨0, 0, 0⟩, ⟨1, 2, 0⟩] := by
  refine ⟨⟨2, 0, [⟨0, 0, 0⟩, ⟨1, 2, 0⟩], 2, 3⟩, by decide +kernel, rfl⟩

/-- Two batches that grow together. -/
example : Nested (1 / 2 : ℚ) 0 [] [[⟨0, 0, 0⟩], voxelPts] := by
  refine ⟨Or.inl (by intro a ha; simp at ha), Or.inl ?_, trivial⟩
  intro a ha v hv
  simp at ha
  subst ha
  have : v = ⟨0, 0, 0⟩ := by
    rw [(inCell_iff (by norm_num)).1 hv]; norm_num
  subst this
  have h2 : InCell (1 / 2 : ℚ) 0 ⟨1, 2, 0⟩ ⟨3 / 5, 1, 1 / 5⟩ := by norm_num [InCell]
  exact ⟨⟨⟨3 / 5, 1, 1 / 5⟩, by simp [voxelPts], ⟨1, 2, 0⟩, h2, by norm_num⟩,
    ⟨⟨3 / 5, 1, 1 / 5⟩, by simp [voxelPts], ⟨1, 2, 0⟩, h2, by norm_num⟩⟩

end Sumo
