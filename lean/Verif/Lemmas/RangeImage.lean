import Verif.Spec.RangeImage
import Verif.Lemmas.CubeMap
import Verif.Lemmas.Category
import Mathlib.Analysis.Real.Sqrt

/-! # Lemmas about point clouds from range images -/

namespace Sumo

theorem norm_smul_pos {k : ℝ} (hk : 0 ≤ k) (v : Vec3 ℝ) : (Vec3.smul k v).norm = k * v.norm := by
  unfold Vec3.norm
  have : (Vec3.smul k v).normSq = k ^ 2 * v.normSq := by
    unfold Vec3.normSq Vec3.dot Vec3.smul; ring
  rw [this, Real.sqrt_mul (by positivity), Real.sqrt_sq hk]

theorem norm_pos_of_onUnitCube {v : Vec3 ℝ} (h : OnUnitCube v) : 0 < v.norm := by
  unfold Vec3.norm
  rw [Real.sqrt_pos]
  unfold Vec3.normSq Vec3.dot
  obtain ⟨-, h | h | h⟩ := h
  · have : v.x * v.x = 1 := by rw [← abs_mul_abs_self, h]; norm_num
    nlinarith [mul_self_nonneg v.y, mul_self_nonneg v.z]
  · have : v.y * v.y = 1 := by rw [← abs_mul_abs_self, h]; norm_num
    nlinarith [mul_self_nonneg v.x, mul_self_nonneg v.z]
  · have : v.z * v.z = 1 := by rw [← abs_mul_abs_self, h]; norm_num
    nlinarith [mul_self_nonneg v.x, mul_self_nonneg v.y]

/-- The point of one pixel with a valid range. -/
theorem pointFromRange_seen (side row col : ℕ) (r : ℝ) (hrow : row < side) (hcol : col < 6 * side) (hr : 0 < r) :
    ∃ p, pointFromRange side ⟨(col : ℝ) + 1 / 2, (row : ℝ) + 1 / 2⟩ r = .ok p ∧ SeenAt side row col r p := by
  have hside : 0 < side := by omega
  have hs : (0 : ℝ) < side := by exact_mod_cast hside
  have hf : col / side < 6 := by rw [Nat.div_lt_iff_lt_mul hside]; exact hcol
  have hmod : col % side < side := Nat.mod_lt _ hside
  have hmod1 : ((col % side : ℕ) : ℝ) + 1 ≤ side := by exact_mod_cast hmod
  have hrow1 : (row : ℝ) + 1 ≤ side := by exact_mod_cast hrow
  have hu0 : (0 : ℝ) ≤ ((col % side : ℕ) : ℝ) + 1 / 2 := by positivity
  have hu1 : ((col % side : ℕ) : ℝ) + 1 / 2 < side := by linarith
  have hdecomp : (col : ℝ) = side * ((col / side : ℕ) : ℝ) + ((col % side : ℕ) : ℝ) := by
    exact_mod_cast (Nat.div_add_mod col side).symm
  obtain ⟨F, hF, hp⟩ := unproject_face side hside (col / side) hf (((col % side : ℕ) : ℝ) + 1 / 2) ((row : ℝ) + 1 / 2) hu0 hu1
  have e : (side : ℝ) * ((col / side : ℕ) : ℝ) + (((col % side : ℕ) : ℝ) + 1 / 2) = (col : ℝ) + 1 / 2 := by
    rw [hdecomp]; ring
  rw [e] at hp
  have es : 2 * (((col % side : ℕ) : ℝ) + 1 / 2) / (side : ℝ) - 1 = (2 * ((col % side : ℕ) : ℝ) + 1) / side - 1 := by ring
  have et : 2 * ((row : ℝ) + 1 / 2) / (side : ℝ) - 1 = (2 * (row : ℝ) + 1) / side - 1 := by ring
  rw [es, et] at hp
  have s0 : (0 : ℝ) ≤ (2 * ((col % side : ℕ) : ℝ) + 1) / side := by positivity
  have s1 : (2 * ((col % side : ℕ) : ℝ) + 1) / side ≤ 2 := by rw [div_le_iff₀ hs]; linarith
  have t0 : (0 : ℝ) ≤ (2 * (row : ℝ) + 1) / side := by positivity
  have t1 : (2 * (row : ℝ) + 1) / side ≤ 2 := by rw [div_le_iff₀ hs]; linarith
  have hcube := cubeFace_at_onUnitCube (col / side) hf F hF ((2 * ((col % side : ℕ) : ℝ) + 1) / side - 1)
    ((2 * (row : ℝ) + 1) / side - 1) (abs_le.2 ⟨by linarith, by linarith⟩) (abs_le.2 ⟨by linarith, by linarith⟩)
  have hn := norm_pos_of_onUnitCube hcube
  refine ⟨Vec3.smul (r / (F.at ((2 * ((col % side : ℕ) : ℝ) + 1) / side - 1) ((2 * (row : ℝ) + 1) / side - 1)).norm)
    (F.at ((2 * ((col % side : ℕ) : ℝ) + 1) / side - 1) ((2 * (row : ℝ) + 1) / side - 1)),
    by simp only [pointFromRange, hp, bind, Except.bind, pure, Except.pure], F, hF, ?_, _, ?_, rfl⟩
  · rw [norm_smul_pos (by positivity)]
    exact div_mul_cancel₀ r hn.ne'
  · positivity

theorem validRange_iff (v : FVal ℝ) (r : ℝ) : validRange v = some r ↔ ValidRange v r := by
  cases v with
  | fin x =>
    unfold validRange ValidRange
    dsimp only
    split_ifs with h
    · simp only [Option.some.injEq, FVal.fin.injEq]
      constructor
      · rintro rfl; exact ⟨rfl, h⟩
      · exact fun h => h.1
    · simp only [FVal.fin.injEq]
      constructor
      · intro h'; cases h'
      · rintro ⟨rfl, h'⟩; exact absurd h' h
  | posInf => simp [validRange, ValidRange]
  | negInf => simp [validRange, ValidRange]
  | nan => simp [validRange, ValidRange]

theorem validPixels_append (a b : List RangePixel) : validPixels (a ++ b) = validPixels a ++ validPixels b := by
  simp [validPixels]

theorem validPixels_cons_of_valid {p : RangePixel} {l : List RangePixel} (h : ∃ r, ValidRange p.range r) :
    validPixels (p :: l) = p :: validPixels l := by
  unfold validPixels; rw [List.filter_cons, if_pos (by simpa using h)]

theorem validPixels_cons_of_not {p : RangePixel} {l : List RangePixel} (h : ¬ ∃ r, ValidRange p.range r) :
    validPixels (p :: l) = validPixels l := by
  unfold validPixels; rw [List.filter_cons, if_neg (by simpa using h)]

/-- One row, without `all_points`. -/
theorem cloudRow_valid (side row : ℕ) (hrow : row < side) : ∀ (l : List (Color × FVal ℝ)) (col : ℕ),
    col + l.length ≤ 6 * side →
    ∃ out, cloudRow side false ((row : ℝ) + 1 / 2) ((col : ℝ) + 1 / 2) l = .ok out ∧
      List.Forall₂ (PixelOutput side) (validPixels ((l.zipIdx col).map fun p => ⟨row, p.2, p.1.1, p.1.2⟩)) out := by
  intro l
  induction l with
  | nil => intro col _; exact ⟨[], rfl, .nil⟩
  | cons a l ih =>
    intro col hcol
    obtain ⟨color, range⟩ := a
    simp only [List.length_cons] at hcol
    obtain ⟨out, h1, h2⟩ := ih (col + 1) (by omega)
    have e : ((col + 1 : ℕ) : ℝ) + 1 / 2 = (col : ℝ) + 1 / 2 + 1 := by push_cast; ring
    rw [e] at h1
    rw [List.zipIdx_cons, List.map_cons]
    rw [cloudRow]
    cases hv : validRange range with
    | none =>
      rw [validPixels_cons_of_not (by rintro ⟨r, hr⟩; rw [(validRange_iff _ _).2 hr] at hv; cases hv)]
      refine ⟨out, ?_, h2⟩
      simp only [h1, bind, Except.bind, pure, Except.pure]
      rfl
    | some r =>
      have hr := (validRange_iff _ _).1 hv
      rw [validPixels_cons_of_valid ⟨r, hr⟩]
      obtain ⟨p, hp, hseen⟩ := pointFromRange_seen side row col r hrow (by omega) hr.2
      refine ⟨(p, color) :: out, ?_, .cons ⟨r, hr, hseen, rfl⟩ h2⟩
      simp only [hp, h1, bind, Except.bind, pure, Except.pure]
      rfl

/-- The rows, without `all_points`. -/
theorem cloudRows_valid (side : ℕ) : ∀ (rows : List (List Color × List (FVal ℝ))) (row : ℕ), row + rows.length ≤ side →
    (∀ r ∈ rows, (List.zip r.1 r.2).length ≤ 6 * side) →
    ∃ out, cloudRows side false row (rows.map fun r => List.zip r.1 r.2) = .ok out ∧
      List.Forall₂ (PixelOutput side) (validPixels ((rows.zipIdx row).flatMap fun rows =>
        (List.zip rows.1.1 rows.1.2).zipIdx.map fun p => ⟨rows.2, p.2, p.1.1, p.1.2⟩)) out := by
  intro rows
  induction rows with
  | nil => intro row _ _; exact ⟨[], rfl, .nil⟩
  | cons r rows ih =>
    intro row hlen hw
    simp only [List.length_cons] at hlen
    obtain ⟨out, h1, h2⟩ := ih (row + 1) (by omega) fun x hx => hw x (by simp [hx])
    obtain ⟨out0, h3, h4⟩ := cloudRow_valid side row (by omega) (List.zip r.1 r.2) 0 (by have := hw r (by simp); omega)
    refine ⟨out0 ++ out, ?_, ?_⟩
    · rw [List.map_cons, cloudRows]
      have e : ((0 : ℕ) : ℝ) + 1 / 2 = ((0 : ℕ) : ℝ) + 1 / 2 := rfl
      simp only [CubeMap.pixelCoordinates, h3, h1, bind, Except.bind, pure, Except.pure]
    · rw [List.zipIdx_cons, List.flatMap_cons, validPixels_append]
      exact List.rel_append h4 h2

theorem zipWith_zip_eq {α β : Type} (a : List (List α)) (b : List (List β)) :
    List.zipWith List.zip a b = (List.zip a b).map fun r => List.zip r.1 r.2 := by
  induction a generalizing b with
  | nil => simp
  | cons x a ih =>
    cases b with
    | nil => simp
    | cons y b => simp [ih]

theorem cloudRow_all (side row : ℕ) (hrow : row < side) : ∀ (l : List (Color × FVal ℝ)) (col : ℕ),
    col + l.length ≤ 6 * side →
    ∃ out, cloudRow side true ((row : ℝ) + 1 / 2) ((col : ℝ) + 1 / 2) l = .ok out ∧
      List.Forall₂ (PixelOutputAll side) ((l.zipIdx col).map fun p => ⟨row, p.2, p.1.1, p.1.2⟩) out := by
  intro l
  induction l with
  | nil => intro col _; exact ⟨[], rfl, .nil⟩
  | cons a l ih =>
    intro col hcol
    obtain ⟨color, range⟩ := a
    simp only [List.length_cons] at hcol
    obtain ⟨out, h1, h2⟩ := ih (col + 1) (by omega)
    have e : ((col + 1 : ℕ) : ℝ) + 1 / 2 = (col : ℝ) + 1 / 2 + 1 := by push_cast; ring
    rw [e] at h1
    rw [List.zipIdx_cons, List.map_cons]
    rw [cloudRow]
    cases hv : validRange range with
    | none =>
      refine ⟨(⟨0, 0, 0⟩, ⟨0, 0, 0⟩) :: out, ?_, .cons (.inr ⟨?_, rfl⟩) h2⟩
      · simp only [h1, bind, Except.bind, pure, Except.pure]
        rfl
      · rintro ⟨r, hr⟩; rw [(validRange_iff _ _).2 hr] at hv; cases hv
    | some r =>
      have hr := (validRange_iff _ _).1 hv
      obtain ⟨p, hp, hseen⟩ := pointFromRange_seen side row col r hrow (by omega) hr.2
      refine ⟨(p, color) :: out, ?_, .cons (.inl ⟨r, hr, hseen, rfl⟩) h2⟩
      simp only [hp, h1, bind, Except.bind, pure, Except.pure]
      rfl

theorem cloudRows_all (side : ℕ) : ∀ (rows : List (List Color × List (FVal ℝ))) (row : ℕ), row + rows.length ≤ side →
    (∀ r ∈ rows, (List.zip r.1 r.2).length ≤ 6 * side) →
    ∃ out, cloudRows side true row (rows.map fun r => List.zip r.1 r.2) = .ok out ∧
      List.Forall₂ (PixelOutputAll side) ((rows.zipIdx row).flatMap fun rows =>
        (List.zip rows.1.1 rows.1.2).zipIdx.map fun p => ⟨rows.2, p.2, p.1.1, p.1.2⟩) out := by
  intro rows
  induction rows with
  | nil => intro row _ _; exact ⟨[], rfl, .nil⟩
  | cons r rows ih =>
    intro row hlen hw
    simp only [List.length_cons] at hlen
    obtain ⟨out, h1, h2⟩ := ih (row + 1) (by omega) fun x hx => hw x (by simp [hx])
    obtain ⟨out0, h3, h4⟩ := cloudRow_all side row (by omega) (List.zip r.1 r.2) 0 (by have := hw r (by simp); omega)
    refine ⟨out0 ++ out, ?_, ?_⟩
    · rw [List.map_cons, cloudRows]
      simp only [CubeMap.pixelCoordinates, h3, h1, bind, Except.bind, pure, Except.pure]
    · rw [List.zipIdx_cons, List.flatMap_cons]
      exact List.rel_append h4 h2

end Sumo
