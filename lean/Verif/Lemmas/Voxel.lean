import Verif.Model.Voxel
import Verif.Spec.Voxel
import Verif.Spec.Box
import Verif.Lemmas.Box
import Mathlib.Tactic.Linarith
import Mathlib.Tactic.LinearCombination
import Mathlib.Tactic.Ring
import Mathlib.Tactic.FieldSimp
import Mathlib.Tactic.NormNum
import Mathlib.Tactic.Positivity

/-!
# Helper lemmas for voxel grids
-/

set_option linter.unusedSectionVars false

namespace Sumo
open VoxelSpec

theorem toInt32_of {n : ℤ} (h1 : 0 ≤ n) (h2 : n < 2 ^ 31) : toInt32 n = n := by
  unfold toInt32; rw [if_pos]; constructor <;> omega

theorem toInt32_nonneg {n : ℤ} : 0 ≤ toInt32 n ↔ 0 ≤ n ∧ n < 2 ^ 31 := by
  unfold toInt32
  split_ifs with h
  · constructor <;> intro h' <;> omega
  · constructor <;> intro h' <;> omega

theorem wrap32_of {n : ℤ} (h1 : 0 ≤ n) (h2 : n < 2 ^ 31) : wrap32 n = n := by
  unfold wrap32; omega

/-- A voxel inside a grid of the given x and y size. -/
def InGrid (sx sy : ℤ) (v : Vec3 ℤ) : Prop := (0 ≤ v.x ∧ v.x < sx) ∧ (0 ≤ v.y ∧ v.y < sy) ∧ 0 ≤ v.z

theorem vectorize_linearize {sx sy : ℤ} (hs : sx * sy < 2 ^ 31) {v : Vec3 ℤ} (h : InGrid sx sy v) :
    vectorizeVoxel sx sy (linearizeVoxel sx sy v) = v := by
  obtain ⟨⟨hx0, hx1⟩, ⟨hy0, hy1⟩, hz⟩ := h
  have hsx : 0 < sx := by omega
  have hsy : 0 < sy := by omega
  have hp : 0 ≤ sx * sy := by positivity
  unfold vectorizeVoxel linearizeVoxel
  rw [wrap32_of hp hs]
  have e : v.x * 1 + v.y * sx + v.z * (sx * sy) = v.x + sx * (v.y + v.z * sy) := by ring
  simp only [e, Int.fdiv_eq_ediv_of_nonneg _ hsx.le, Int.fmod_eq_emod_of_nonneg _ hsx.le,
    Int.fdiv_eq_ediv_of_nonneg _ hsy.le, Int.fmod_eq_emod_of_nonneg _ hsy.le]
  rw [Int.add_mul_ediv_left _ _ hsx.ne', Int.add_mul_emod_self_left, Int.ediv_eq_zero_of_lt hx0 hx1,
    Int.emod_eq_of_lt hx0 hx1, zero_add, Int.add_mul_ediv_right _ _ hsy.ne', Int.add_mul_emod_self_right,
    Int.ediv_eq_zero_of_lt hy0 hy1, Int.emod_eq_of_lt hy0 hy1, zero_add]

theorem linearize_vectorize {sx sy : ℤ} (hsx : 0 < sx) (hsy : 0 < sy) (hs : sx * sy < 2 ^ 31) (i : ℤ) :
    linearizeVoxel sx sy (vectorizeVoxel sx sy i) = i := by
  have hp : 0 ≤ sx * sy := by positivity
  unfold vectorizeVoxel linearizeVoxel
  simp only [wrap32_of hp hs, Int.fdiv_eq_ediv_of_nonneg _ hsx.le, Int.fmod_eq_emod_of_nonneg _ hsx.le,
    Int.fdiv_eq_ediv_of_nonneg _ hsy.le, Int.fmod_eq_emod_of_nonneg _ hsy.le]
  have h1 := Int.emod_add_mul_ediv i sx
  have h2 := Int.emod_add_mul_ediv (i / sx) sy
  linear_combination h1 + sx * h2

theorem mem_union1d {a b : List ℤ} {i : ℤ} : i ∈ union1d a b ↔ i ∈ a ∨ i ∈ b := by
  unfold union1d; simp [List.mem_insertionSort]

theorem nodup_union1d (a b : List ℤ) : (union1d a b).Nodup := by
  unfold union1d
  rw [(List.perm_insertionSort _ _).nodup_iff]
  exact List.nodup_dedup _

theorem foldl_max_greatest (l : List ℤ) (a : ℤ) :
    (∀ b ∈ a :: l, b ≤ l.foldl max a) ∧ l.foldl max a ∈ a :: l := by
  induction l generalizing a with
  | nil => simp
  | cons c l ih =>
    obtain ⟨h1, h2⟩ := ih (max a c)
    rw [List.foldl_cons]
    refine ⟨?_, ?_⟩
    · intro b hb
      have h0 := h1 (max a c) (by simp)
      simp only [List.mem_cons] at hb
      rcases hb with rfl | rfl | hb
      · exact (le_max_left _ _).trans h0
      · exact (le_max_right _ _).trans h0
      · exact h1 b (by simp [hb])
    · simp only [List.mem_cons] at h2 ⊢
      rcases h2 with h2 | h2
      · rw [h2]; rcases max_choice a c with h | h <;> simp [h]
      · simp [h2]

section
variable {K : Type} [Field K] [LinearOrder K] [IsStrictOrderedRing K] [FloorRing K]

theorem inCell_iff {size : K} (hs : 0 < size) {corner p : Vec3 K} {v : Vec3 ℤ} :
    InCell size corner v p ↔ v = ⟨⌊(p.x - corner.x) * (1 / size)⌋, ⌊(p.y - corner.y) * (1 / size)⌋,
      ⌊(p.z - corner.z) * (1 / size)⌋⟩ := by
  have key : ∀ (c q : K) (n : ℤ), (c + n * size ≤ q ∧ q < c + (n + 1) * size) ↔ n = ⌊(q - c) * (1 / size)⌋ := by
    intro c q n
    rw [eq_comm, Int.floor_eq_iff, mul_one_div, le_div_iff₀ hs, div_lt_iff₀ hs]
    constructor <;> rintro ⟨h1, h2⟩ <;> constructor <;> linarith
  unfold InCell
  rw [key, key, key]
  constructor
  · rintro ⟨h1, h2, h3⟩; ext <;> assumption
  · intro h; rw [h]; exact ⟨rfl, rfl, rfl⟩

theorem floor_range {size c q : K} (hs : 0 < size) (n : ℤ) :
    (0 ≤ ⌊(q - c) * (1 / size)⌋ ↔ c ≤ q) ∧ (⌊(q - c) * (1 / size)⌋ < n ↔ q < c + n * size) := by
  constructor
  · rw [Int.floor_nonneg, mul_one_div, le_div_iff₀ hs]
    constructor <;> intro h <;> linarith
  · rw [Int.floor_lt, mul_one_div, div_lt_iff₀ hs]
    constructor <;> intro h <;> linarith

/-- The cell of a point, before the conversion to `int32`. -/
def cellOf (size : K) (corner p : Vec3 K) : Vec3 ℤ :=
  ⟨⌊(p.x - corner.x) * (1 / size)⌋, ⌊(p.y - corner.y) * (1 / size)⌋, ⌊(p.z - corner.z) * (1 / size)⌋⟩

theorem inCell_cellOf {size : K} (hs : 0 < size) {corner p : Vec3 K} {v : Vec3 ℤ} :
    InCell size corner v p ↔ v = cellOf size corner p := inCell_iff hs

/-- The fields agree with a grid of cells of side `size` at `corner`. -/
def GridAt (g : VoxelGrid K) (size : K) (corner : Vec3 K) : Prop :=
  g.scale = 1 / size ∧ g.minCorner = corner

theorem indexOf_nonneg {g : VoxelGrid K} {size : K} {corner : Vec3 K} (hg : GridAt g size corner) (hs : 0 < size)
    (p : Vec3 K) : (0 ≤ (g.indexOf p).x ∧ 0 ≤ (g.indexOf p).y ∧ 0 ≤ (g.indexOf p).z) ↔
      (Above corner p ∧ Within size corner (2 ^ 31) (2 ^ 31) (2 ^ 31) p) := by
  unfold VoxelGrid.indexOf Above Within
  rw [hg.1, hg.2]
  simp only [toInt32_nonneg, (floor_range hs (2 ^ 31)).1, (floor_range hs (2 ^ 31)).2]
  tauto

theorem indexOf_eq {g : VoxelGrid K} {size : K} {corner : Vec3 K} (hg : GridAt g size corner) (hs : 0 < size)
    {p : Vec3 K} (h1 : Above corner p) (h2 : Within size corner (2 ^ 31) (2 ^ 31) (2 ^ 31) p) :
    g.indexOf p = cellOf size corner p := by
  unfold VoxelGrid.indexOf cellOf
  rw [hg.1, hg.2]
  unfold Above Within at *
  rw [toInt32_of ((floor_range hs (2 ^ 31)).1.2 h1.1) ((floor_range hs (2 ^ 31)).2.2 h2.1),
    toInt32_of ((floor_range hs (2 ^ 31)).1.2 h1.2.1) ((floor_range hs (2 ^ 31)).2.2 h2.2.1),
    toInt32_of ((floor_range hs (2 ^ 31)).1.2 h1.2.2) ((floor_range hs (2 ^ 31)).2.2 h2.2.2)]

/-- When `add_points` raises. -/
theorem addPoints_error (g : VoxelGrid K) (ps : List (Vec3 K)) :
    (ps = [] ∨ ∃ p ∈ ps, ¬ (0 ≤ (g.indexOf p).x ∧ 0 ≤ (g.indexOf p).y ∧ 0 ≤ (g.indexOf p).z)) →
    g.addPoints ps = (g, some .valueError) := by
  intro h
  unfold VoxelGrid.addPoints VoxelGrid.addVoxels
  cases ps with
  | nil => rfl
  | cons q qs =>
    simp only [List.map_cons]
    rw [if_pos]
    rcases h with h | ⟨p, hp, hn⟩
    · cases h
    · rw [List.any_eq_true]
      refine ⟨g.indexOf p, ?_, ?_⟩
      · rw [← List.map_cons (f := g.indexOf)]; exact List.mem_map_of_mem hp
      · simp only [Bool.or_eq_true, decide_eq_true_eq]
        by_contra hc
        apply hn
        push Not at hc
        exact ⟨hc.1.1, hc.1.2, hc.2⟩

/-- A list of voxels with its x and y size. -/
structure VoxInv (voxels : List (Vec3 ℤ)) (sx sy : ℤ) : Prop where
  inGrid : ∀ v ∈ voxels, InGrid sx sy v
  size : (voxels = [] ∧ sx = 0 ∧ sy = 0) ∨
    ((∃ v ∈ voxels, v.x = sx - 1) ∧ (∃ v ∈ voxels, v.y = sy - 1))

/-- `add_points` with points that are accepted. -/
theorem addPoints_ok {g : VoxelGrid K} {ps : List (Vec3 K)} (hne : ps ≠ [])
    (hpos : ∀ p ∈ ps, 0 ≤ (g.indexOf p).x ∧ 0 ≤ (g.indexOf p).y ∧ 0 ≤ (g.indexOf p).z)
    {nx ny : ℤ} (hn : nx * ny < 2 ^ 31) (hnx : ∀ p ∈ ps, (g.indexOf p).x < nx)
    (hny : ∀ p ∈ ps, (g.indexOf p).y < ny) (hgx : ∀ v ∈ g.voxels, v.x < nx) (hgy : ∀ v ∈ g.voxels, v.y < ny)
    (hinv : VoxInv g.voxels g.sizeX g.sizeY)
    (hcmp : ((∀ v ∈ g.voxels, (∃ p ∈ ps, v.x ≤ (g.indexOf p).x) ∧ (∃ p ∈ ps, v.y ≤ (g.indexOf p).y))) ∨
      (∀ p ∈ ps, (∃ v ∈ g.voxels, (g.indexOf p).x ≤ v.x) ∧ (∃ v ∈ g.voxels, (g.indexOf p).y ≤ v.y))) :
    ∃ g', g.addPoints ps = (g', none) ∧ g'.scale = g.scale ∧ g'.minCorner = g.minCorner ∧ g'.voxels.Nodup ∧
      (∀ v, v ∈ g'.voxels ↔ v ∈ g.voxels ∨ ∃ p ∈ ps, v = g.indexOf p) ∧ VoxInv g'.voxels g'.sizeX g'.sizeY := by
  unfold VoxelGrid.addPoints VoxelGrid.addVoxels
  cases ps with
  | nil => exact absurd rfl hne
  | cons q qs =>
    simp only [List.map_cons]
    rw [if_neg]
    swap
    · rw [← List.map_cons (f := g.indexOf), List.any_eq_true]
      rintro ⟨w, hw, hd⟩
      obtain ⟨p, hp, rfl⟩ := List.mem_map.1 hw
      have := hpos p hp
      simp only [Bool.or_eq_true, decide_eq_true_eq] at hd
      omega
    obtain ⟨mx1, mx2⟩ := foldl_max_greatest ((qs.map g.indexOf).map Vec3.x) (g.indexOf q).x
    obtain ⟨my1, my2⟩ := foldl_max_greatest ((qs.map g.indexOf).map Vec3.y) (g.indexOf q).y
    set MX := ((qs.map g.indexOf).map Vec3.x).foldl max (g.indexOf q).x with hMX
    set MY := ((qs.map g.indexOf).map Vec3.y).foldl max (g.indexOf q).y with hMY
    have memx : ∀ b, b ∈ (g.indexOf q).x :: (qs.map g.indexOf).map Vec3.x ↔ ∃ p ∈ q :: qs, (g.indexOf p).x = b := by
      intro b; simp [eq_comm]
    have memy : ∀ b, b ∈ (g.indexOf q).y :: (qs.map g.indexOf).map Vec3.y ↔ ∃ p ∈ q :: qs, (g.indexOf p).y = b := by
      intro b; simp [eq_comm]
    have lex : ∀ p ∈ q :: qs, (g.indexOf p).x ≤ MX := fun p hp => mx1 _ ((memx _).2 ⟨p, hp, rfl⟩)
    have ley : ∀ p ∈ q :: qs, (g.indexOf p).y ≤ MY := fun p hp => my1 _ ((memy _).2 ⟨p, hp, rfl⟩)
    obtain ⟨px, hpx, epx⟩ := (memx _).1 mx2
    obtain ⟨py, hpy, epy⟩ := (memy _).1 my2
    have hMX0 : 0 ≤ MX ∧ MX + 1 ≤ nx := ⟨by rw [← epx]; exact (hpos px hpx).1, by have := hnx px hpx; omega⟩
    have hMY0 : 0 ≤ MY ∧ MY + 1 ≤ ny := ⟨by rw [← epy]; exact (hpos py hpy).2.1, by have := hny py hpy; omega⟩
    have hnx0 : 1 ≤ nx := by omega
    have hny0 : 1 ≤ ny := by omega
    have hnx31 : nx < 2 ^ 31 := by nlinarith
    have hny31 : ny < 2 ^ 31 := by nlinarith
    rw [wrap32_of (by omega) (by omega), wrap32_of (by omega) (by omega)]
    set size : ℤ × ℤ := if MX + 1 > g.sizeX ∨ MY + 1 > g.sizeY then (MX + 1, MY + 1) else (g.sizeX, g.sizeY) with hsize
    -- the new size covers old and new voxels
    have hcov : (∀ v ∈ g.voxels, InGrid size.1 size.2 v) ∧ (∀ p ∈ q :: qs, InGrid size.1 size.2 (g.indexOf p)) ∧
        size.1 ≤ nx ∧ size.2 ≤ ny ∧
        ((∃ v, (v ∈ g.voxels ∨ ∃ p ∈ q :: qs, v = g.indexOf p) ∧ v.x = size.1 - 1) ∧
         (∃ v, (v ∈ g.voxels ∨ ∃ p ∈ q :: qs, v = g.indexOf p) ∧ v.y = size.2 - 1)) := by
      by_cases hc : MX + 1 > g.sizeX ∨ MY + 1 > g.sizeY
      · rw [if_pos hc] at hsize
        rw [hsize]
        have hle : ∀ v ∈ g.voxels, v.x ≤ MX ∧ v.y ≤ MY := by
          rcases hcmp with h | h
          · intro v hv
            obtain ⟨⟨p, hp, h1⟩, ⟨p', hp', h2⟩⟩ := h v hv
            exact ⟨h1.trans (lex p hp), h2.trans (ley p' hp')⟩
          · exfalso
            obtain ⟨⟨v, hv, h1⟩, -⟩ := h px hpx
            obtain ⟨-, ⟨v', hv', h2⟩⟩ := h py hpy
            have a := (hinv.inGrid v hv).1.2
            have b := (hinv.inGrid v' hv').2.1.2
            omega
        refine ⟨fun v hv => ?_, fun p hp => ?_, hMX0.2, hMY0.2, ⟨g.indexOf px, Or.inr ⟨px, hpx, rfl⟩, ?_⟩,
          ⟨g.indexOf py, Or.inr ⟨py, hpy, rfl⟩, ?_⟩⟩
        · have h1 := hinv.inGrid v hv
          have h2 := hle v hv
          refine ⟨⟨h1.1.1, ?_⟩, ⟨h1.2.1.1, ?_⟩, h1.2.2⟩ <;> simp only <;> omega
        · have h1 := hpos p hp
          have h2 := lex p hp
          have h3 := ley p hp
          refine ⟨⟨h1.1, ?_⟩, ⟨h1.2.1, ?_⟩, h1.2.2⟩ <;> simp only <;> omega
        · rw [epx]; simp only; omega
        · rw [epy]; simp only; omega
      · rw [if_neg hc] at hsize
        rw [hsize]
        push Not at hc
        have hv : g.voxels ≠ [] := by
          intro h0
          rcases hinv.size with ⟨-, h1, h2⟩ | ⟨⟨v, hv, -⟩, -⟩
          · omega
          · rw [h0] at hv; simp at hv
        rcases hinv.size with ⟨h0, -⟩ | ⟨⟨v, hvm, e1⟩, ⟨v', hvm', e2⟩⟩
        · exact absurd h0 hv
        · refine ⟨hinv.inGrid, fun p hp => ?_, ?_, ?_, ⟨v, Or.inl hvm, e1⟩, ⟨v', Or.inl hvm', e2⟩⟩
          · have h1 := hpos p hp
            have h2 := lex p hp
            have h3 := ley p hp
            refine ⟨⟨h1.1, ?_⟩, ⟨h1.2.1, ?_⟩, h1.2.2⟩ <;> simp only <;> omega
          · have := hgx v hvm; simp only; omega
          · have := hgy v' hvm'; simp only; omega
    obtain ⟨cold, cnew, cx, cy, cmax⟩ := hcov
    have hprod : size.1 * size.2 < 2 ^ 31 := by
      have h0 := (cnew px hpx).1
      have h1 := (cnew px hpx).2.1
      nlinarith
    refine ⟨_, rfl, rfl, rfl, ?_, ?_, ?_⟩
    · -- no duplicates
      simp only
      refine List.Nodup.map_on ?_ (nodup_union1d _ _)
      have hin : ∀ i ∈ union1d (g.voxels.map (linearizeVoxel size.1 size.2))
          ((g.indexOf q :: qs.map g.indexOf).map (linearizeVoxel size.1 size.2)),
          linearizeVoxel size.1 size.2 (vectorizeVoxel size.1 size.2 i) = i := by
        intro i hi
        rw [mem_union1d, ← List.map_cons (f := g.indexOf)] at hi
        rcases hi with hi | hi
        · obtain ⟨v, hv, rfl⟩ := List.mem_map.1 hi
          rw [vectorize_linearize hprod (cold v hv)]
        · obtain ⟨w, hw, rfl⟩ := List.mem_map.1 hi
          obtain ⟨p, hp, rfl⟩ := List.mem_map.1 hw
          rw [vectorize_linearize hprod (cnew p hp)]
      intro i hi j hj he
      rw [← hin i hi, ← hin j hj, he]
    all_goals
      have hmem : ∀ v, v ∈ (union1d (g.voxels.map (linearizeVoxel size.1 size.2))
          ((g.indexOf q :: qs.map g.indexOf).map (linearizeVoxel size.1 size.2))).map
            (vectorizeVoxel size.1 size.2) ↔ v ∈ g.voxels ∨ ∃ p ∈ q :: qs, v = g.indexOf p := by
        intro v
        rw [List.mem_map]
        constructor
        · rintro ⟨i, hi, rfl⟩
          rw [mem_union1d, ← List.map_cons (f := g.indexOf)] at hi
          rcases hi with hi | hi
          · obtain ⟨v, hv, rfl⟩ := List.mem_map.1 hi
            rw [vectorize_linearize hprod (cold v hv)]
            exact Or.inl hv
          · obtain ⟨w, hw, rfl⟩ := List.mem_map.1 hi
            obtain ⟨p, hp, rfl⟩ := List.mem_map.1 hw
            rw [vectorize_linearize hprod (cnew p hp)]
            exact Or.inr ⟨p, hp, rfl⟩
        · rintro (hv | ⟨p, hp, rfl⟩)
          · refine ⟨_, mem_union1d.2 (Or.inl (List.mem_map_of_mem hv)), vectorize_linearize hprod (cold v hv)⟩
          · refine ⟨_, mem_union1d.2 (Or.inr (List.mem_map_of_mem ?_)), vectorize_linearize hprod (cnew p hp)⟩
            rw [← List.map_cons (f := g.indexOf)]
            exact List.mem_map_of_mem hp
    · exact hmem
    · refine ⟨fun v hv => ?_, Or.inr ⟨?_, ?_⟩⟩
      · rcases (hmem v).1 hv with hv | ⟨p, hp, rfl⟩
        · exact cold v hv
        · exact cnew p hp
      · obtain ⟨⟨v, hv, e⟩, -⟩ := cmax
        exact ⟨v, (hmem v).2 hv, e⟩
      · obtain ⟨-, ⟨v, hv, e⟩⟩ := cmax
        exact ⟨v, (hmem v).2 hv, e⟩

/-- A grid whose occupied voxels are exactly the cells of the points. -/
def Holds (g : VoxelGrid K) (size : K) (corner : Vec3 K) (ps : List (Vec3 K)) : Prop :=
  GridAt g size corner ∧ g.voxels.Nodup ∧ ∀ v, v ∈ g.voxels ↔ ∃ p ∈ ps, InCell size corner v p

theorem addPoints_holds {g : VoxelGrid K} {size : K} {corner : Vec3 K} {pre ps : List (Vec3 K)} (hs : 0 < size)
    (hg : Holds g size corner pre) (hinv : VoxInv g.voxels g.sizeX g.sizeY) (hne : ps ≠ [])
    {nx ny : ℤ} (hn : nx * ny < 2 ^ 31) (habove : ∀ p ∈ ps, Above corner p)
    (hw : ∀ p ∈ ps, Within size corner nx ny (2 ^ 31) p)
    (hw' : ∀ p ∈ pre, Within size corner nx ny (2 ^ 31) p)
    (hcmp : ExtentLe size corner pre ps ∨ ExtentLe size corner ps pre) :
    ∃ g', g.addPoints ps = (g', none) ∧ Holds g' size corner (pre ++ ps) ∧ VoxInv g'.voxels g'.sizeX g'.sizeY := by
  obtain ⟨hat, hnd, hmem⟩ := hg
  -- size bounds
  obtain ⟨p0, hp0⟩ := List.exists_mem_of_ne_nil _ hne
  have hnx0 : 0 < nx := by
    have h1 := (floor_range (size := size) (c := corner.x) (q := p0.x) hs nx)
    have := h1.1.2 (habove p0 hp0).1
    have := h1.2.2 (hw p0 hp0).1
    omega
  have hny0 : 0 < ny := by
    have h1 := (floor_range (size := size) (c := corner.y) (q := p0.y) hs ny)
    have := h1.1.2 (habove p0 hp0).2.1
    have := h1.2.2 (hw p0 hp0).2.1
    omega
  have hnx31 : nx < 2 ^ 31 := by nlinarith
  have hny31 : ny < 2 ^ 31 := by nlinarith
  have big : ∀ p ∈ ps, Within size corner (2 ^ 31) (2 ^ 31) (2 ^ 31) p := by
    intro p hp
    obtain ⟨h1, h2, h3⟩ := hw p hp
    have a : (nx : K) ≤ ((2 ^ 31 : ℤ) : K) := by exact_mod_cast hnx31.le
    have b : (ny : K) ≤ ((2 ^ 31 : ℤ) : K) := by exact_mod_cast hny31.le
    refine ⟨?_, ?_, h3⟩ <;> nlinarith
  have hidx : ∀ p ∈ ps, g.indexOf p = cellOf size corner p := fun p hp => indexOf_eq hat hs (habove p hp) (big p hp)
  have ltx : ∀ p, Within size corner nx ny (2 ^ 31) p → (cellOf size corner p).x < nx ∧ (cellOf size corner p).y < ny :=
    fun p hp => ⟨(floor_range hs nx).2.2 hp.1, (floor_range hs ny).2.2 hp.2.1⟩
  obtain ⟨g', h1, h2, h3, h4, h5, h6⟩ := addPoints_ok (g := g) hne
    (fun p hp => (indexOf_nonneg hat hs p).2 ⟨habove p hp, big p hp⟩) hn
    (fun p hp => by rw [hidx p hp]; exact (ltx p (hw p hp)).1)
    (fun p hp => by rw [hidx p hp]; exact (ltx p (hw p hp)).2)
    (fun v hv => by
      obtain ⟨p, hp, hc⟩ := (hmem v).1 hv
      rw [(inCell_cellOf hs).1 hc]; exact (ltx p (hw' p hp)).1)
    (fun v hv => by
      obtain ⟨p, hp, hc⟩ := (hmem v).1 hv
      rw [(inCell_cellOf hs).1 hc]; exact (ltx p (hw' p hp)).2) hinv
    (by
      rcases hcmp with h | h
      · left
        intro v hv
        obtain ⟨p, hp, hc⟩ := (hmem v).1 hv
        obtain ⟨⟨b, hb, w, hw1, hw2⟩, ⟨b', hb', w', hw1', hw2'⟩⟩ := h p hp v hc
        rw [(inCell_cellOf hs).1 hw1] at hw2
        rw [(inCell_cellOf hs).1 hw1'] at hw2'
        exact ⟨⟨b, hb, by rw [hidx b hb]; exact hw2⟩, ⟨b', hb', by rw [hidx b' hb']; exact hw2'⟩⟩
      · right
        intro p hp
        obtain ⟨⟨b, hb, w, hw1, hw2⟩, ⟨b', hb', w', hw1', hw2'⟩⟩ := h p hp _ ((inCell_cellOf hs).2 rfl)
        rw [hidx p hp]
        exact ⟨⟨w, (hmem w).2 ⟨b, hb, hw1⟩, hw2⟩, ⟨w', (hmem w').2 ⟨b', hb', hw1'⟩, hw2'⟩⟩)
  refine ⟨g', h1, ⟨⟨by rw [h2, hat.1], by rw [h3, hat.2]⟩, h4, fun v => ?_⟩, h6⟩
  rw [h5, hmem]
  simp only [List.mem_append]
  constructor
  · rintro (⟨p, hp, hc⟩ | ⟨p, hp, rfl⟩)
    · exact ⟨p, Or.inl hp, hc⟩
    · exact ⟨p, Or.inr hp, (inCell_cellOf hs).2 (hidx p hp)⟩
  · rintro ⟨p, hp | hp, hc⟩
    · exact Or.inl ⟨p, hp, hc⟩
    · exact Or.inr ⟨p, hp, by rw [hidx p hp]; exact (inCell_cellOf hs).1 hc⟩

/-- After `add_points` every voxel is inside the new size; the size is that of the new points if one of them reaches further. -/
theorem addPoints_lost {g : VoxelGrid K} {ps : List (Vec3 K)} (hne : ps ≠ [])
    (hpos : ∀ p ∈ ps, 0 ≤ (g.indexOf p).x ∧ 0 ≤ (g.indexOf p).y ∧ 0 ≤ (g.indexOf p).z)
    (h31 : ∀ p ∈ ps, (g.indexOf p).x < 2 ^ 31 - 1 ∧ (g.indexOf p).y < 2 ^ 31 - 1)
    (hmore : ∃ p ∈ ps, g.sizeX ≤ (g.indexOf p).x ∨ g.sizeY ≤ (g.indexOf p).y) {v : Vec3 ℤ}
    (hv : (∀ p ∈ ps, (g.indexOf p).x < v.x) ∨ (∀ p ∈ ps, (g.indexOf p).y < v.y)) {g' : VoxelGrid K}
    (hg : g.addPoints ps = (g', none)) : v ∉ g'.voxels := by
  unfold VoxelGrid.addPoints VoxelGrid.addVoxels at hg
  cases ps with
  | nil => exact absurd rfl hne
  | cons q qs =>
    simp only [List.map_cons] at hg
    rw [if_neg] at hg
    swap
    · rw [← List.map_cons (f := g.indexOf), List.any_eq_true]
      rintro ⟨w, hw, hd⟩
      obtain ⟨p, hp, rfl⟩ := List.mem_map.1 hw
      have := hpos p hp
      simp only [Bool.or_eq_true, decide_eq_true_eq] at hd
      omega
    obtain ⟨mx1, mx2⟩ := foldl_max_greatest ((qs.map g.indexOf).map Vec3.x) (g.indexOf q).x
    obtain ⟨my1, my2⟩ := foldl_max_greatest ((qs.map g.indexOf).map Vec3.y) (g.indexOf q).y
    set MX := ((qs.map g.indexOf).map Vec3.x).foldl max (g.indexOf q).x with hMX
    set MY := ((qs.map g.indexOf).map Vec3.y).foldl max (g.indexOf q).y with hMY
    have memx : ∀ b, b ∈ (g.indexOf q).x :: (qs.map g.indexOf).map Vec3.x ↔ ∃ p ∈ q :: qs, (g.indexOf p).x = b := by
      intro b; simp [eq_comm]
    have memy : ∀ b, b ∈ (g.indexOf q).y :: (qs.map g.indexOf).map Vec3.y ↔ ∃ p ∈ q :: qs, (g.indexOf p).y = b := by
      intro b; simp [eq_comm]
    obtain ⟨px, hpx, epx⟩ := (memx _).1 mx2
    obtain ⟨py, hpy, epy⟩ := (memy _).1 my2
    have hx0 := (hpos px hpx).1
    have hy0 := (hpos py hpy).2.1
    have hx1 := (h31 px hpx).1
    have hy1 := (h31 py hpy).2
    rw [epx] at hx0 hx1
    rw [epy] at hy0 hy1
    rw [wrap32_of (by omega) (by omega), wrap32_of (by omega) (by omega), if_pos] at hg
    swap
    · obtain ⟨p, hp, h | h⟩ := hmore
      · have := mx1 _ ((memx _).2 ⟨p, hp, rfl⟩)
        left; omega
      · have := my1 _ ((memy _).2 ⟨p, hp, rfl⟩)
        right; omega
    simp only [Prod.mk.injEq, and_true] at hg
    subst hg
    intro hm
    obtain ⟨i, -, rfl⟩ := List.mem_map.1 hm
    have ax : (vectorizeVoxel (MX + 1) (MY + 1) i).x < MX + 1 := by
      unfold vectorizeVoxel
      simp only [Int.fmod_eq_emod_of_nonneg _ (show 0 ≤ MX + 1 by omega)]
      exact Int.emod_lt_of_pos _ (by omega)
    have ay : (vectorizeVoxel (MX + 1) (MY + 1) i).y < MY + 1 := by
      unfold vectorizeVoxel
      simp only [Int.fmod_eq_emod_of_nonneg _ (show 0 ≤ MY + 1 by omega)]
      exact Int.emod_lt_of_pos _ (by omega)
    rcases hv with h | h
    · have := h px hpx
      omega
    · have := h py hpy
      omega

theorem init_none {size : K} (hs : 0 < size) (corner : Vec3 K) :
    VoxelGrid.init size corner none = .ok ⟨1 / size, corner, [], 0, 0⟩ := by
  unfold VoxelGrid.init; rw [if_neg (not_le.2 hs)]

theorem fresh_holds (size : K) (corner : Vec3 K) :
    Holds (⟨1 / size, corner, [], 0, 0⟩ : VoxelGrid K) size corner [] ∧ VoxInv [] 0 0 :=
  ⟨⟨⟨rfl, rfl⟩, List.nodup_nil, by simp⟩, by simp, Or.inl ⟨rfl, rfl, rfl⟩⟩

end
end Sumo
