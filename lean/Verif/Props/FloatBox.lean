import Verif.Model.FloatBox
import Verif.Lemmas.Single
import Verif.Spec.Box
import Mathlib.Tactic.Linarith
import Mathlib.Tactic.FieldSimp
import Mathlib.Tactic.Ring
import Mathlib.Tactic.Positivity

/-! # Properties of the measures of boxes in machine precision (C164) -/

namespace Sumo
namespace Fl

/-- A machine format: its rounding, its numbers, and the greatest relative error. -/
structure Format where
  rd : ℚ → ℚ
  Number : ℚ → Prop
  u : ℚ

/-- `float64` -/
def float64 : Format := ⟨double, IsDouble, 1 / 2 ^ 53⟩

/-- `float32` -/
def float32 : Format := ⟨single, IsSingle32, 1 / 2 ^ 24⟩

/-- What is used of both formats. -/
structure Format.Good (F : Format) : Prop where
  mono : ∀ {x y : ℚ}, x ≤ y → F.rd x ≤ F.rd y
  exact : ∀ {x : ℚ}, F.Number x → F.rd x = x
  number : ∀ x, F.Number (F.rd x)
  scale : ∀ {x : ℚ} (e : ℤ), F.Number x → F.Number (x * 2 ^ e)
  zero : F.Number 0
  err : ∀ x, |F.rd x - x| ≤ F.u * |x|
  u_pos : 0 < F.u
  u_small : F.u ≤ 1 / 2 ^ 24

theorem float64_good : float64.Good where
  mono := double_mono
  exact := double_of_isDouble
  number := double_isDouble
  scale := fun e h => isDouble_mul_zpow h e
  zero := isDouble_zero
  err := fun x => by have := double_err x; simp only [float64]; rw [one_div, mul_comm, ← div_eq_mul_inv]; exact this
  u_pos := by norm_num [float64]
  u_small := by norm_num [float64]

theorem float32_good : float32.Good where
  mono := single_mono
  exact := single_of_isSingle32
  number := single_isSingle32
  scale := fun e h => isSingle32_mul_zpow h e
  zero := isSingle32_zero
  err := fun x => by have := single_err32 x; simp only [float32]; rw [one_div, mul_comm, ← div_eq_mul_inv]; exact this
  u_pos := by norm_num [float32]
  u_small := by norm_num [float32]

namespace Format.Good

variable {F : Format} (hF : F.Good)
include hF

theorem half {x : ℚ} (h : F.Number x) : F.Number (x / 2) := by
  have := hF.scale (-1) h
  rwa [zpow_neg_one, ← div_eq_mul_inv] at this

theorem twice {x : ℚ} (h : F.Number x) : F.Number (x + x) := by
  have := hF.scale 1 h
  rwa [zpow_one, mul_two] at this

theorem nonneg {x : ℚ} (h : 0 ≤ x) : 0 ≤ F.rd x := by
  have := hF.mono h
  rwa [hF.exact hF.zero] at this

theorem le_mul {x : ℚ} (h : 0 ≤ x) : F.rd x ≤ x * (1 + F.u) := by
  have := hF.err x
  rw [abs_of_nonneg h, abs_le] at this
  linarith [this.2]

theorem mul_le {x : ℚ} (h : 0 ≤ x) : x * (1 - F.u) ≤ F.rd x := by
  have := hF.err x
  rw [abs_of_nonneg h, abs_le] at this
  linarith [this.1]

theorem u_lt : F.u < 1 := hF.u_small.trans_lt (by norm_num)

theorem eq_zero {x : ℚ} : F.rd x = 0 ↔ x = 0 := by
  constructor
  · intro h
    have := hF.err x
    rw [h, zero_sub, abs_neg] at this
    by_contra hx
    have hp := abs_pos.2 hx
    have := hF.u_lt
    nlinarith
  · rintro rfl; exact hF.exact hF.zero

theorem mid {a b : ℚ} (ha : F.Number a) (hb : F.Number b) (h : a ≤ b) :
    a ≤ F.rd (F.rd (b + a) / 2) ∧ F.rd (F.rd (b + a) / 2) ≤ b ∧
      |F.rd (F.rd (b + a) / 2) - (b + a) / 2| ≤ F.u * |(b + a) / 2| := by
  rw [hF.exact (hF.half (hF.number _))]
  have h1 := hF.mono (show a + a ≤ b + a by linarith)
  have h2 := hF.mono (show b + a ≤ b + b by linarith)
  rw [hF.exact (hF.twice ha)] at h1
  rw [hF.exact (hF.twice hb)] at h2
  refine ⟨by linarith, by linarith, ?_⟩
  have := hF.err (b + a)
  rw [← sub_div, abs_div, abs_div, show |(2 : ℚ)| = 2 by norm_num]
  rw [← mul_div_assoc]
  exact div_le_div_of_nonneg_right this (by norm_num)

end Format.Good

/-- The corners of a box are numbers of the format. -/
def Numbers (F : Format) (b : Box3d ℚ) : Prop :=
  (F.Number b.minCorner.x ∧ F.Number b.minCorner.y ∧ F.Number b.minCorner.z) ∧
    (F.Number b.maxCorner.x ∧ F.Number b.maxCorner.y ∧ F.Number b.maxCorner.z)

/-- **C164.** The computed centre of a box lies in the box, and each coordinate has a relative error of at most one rounding. -/
theorem C164_center {F : Format} (hF : F.Good) {b : Box3d ℚ} (hb : Numbers F b) (ho : BoxSpec.Ordered b) :
    BoxSpec.Mem b (boxCenter F.rd b) ∧
      |(boxCenter F.rd b).x - (b.minCorner.x + b.maxCorner.x) / 2| ≤ F.u * |(b.minCorner.x + b.maxCorner.x) / 2| ∧
      |(boxCenter F.rd b).y - (b.minCorner.y + b.maxCorner.y) / 2| ≤ F.u * |(b.minCorner.y + b.maxCorner.y) / 2| ∧
      |(boxCenter F.rd b).z - (b.minCorner.z + b.maxCorner.z) / 2| ≤ F.u * |(b.minCorner.z + b.maxCorner.z) / 2| := by
  obtain ⟨⟨h1, h2, h3⟩, h4, h5, h6⟩ := hb
  obtain ⟨o1, o2, o3⟩ := ho
  obtain ⟨a1, a2, a3⟩ := hF.mid h1 h4 o1
  obtain ⟨b1, b2, b3⟩ := hF.mid h2 h5 o2
  obtain ⟨c1, c2, c3⟩ := hF.mid h3 h6 o3
  rw [add_comm b.minCorner.x, add_comm b.minCorner.y, add_comm b.minCorner.z]
  exact ⟨⟨⟨a1, a2⟩, ⟨b1, b2⟩, c1, c2⟩, a3, b3, c3⟩

/-- **C164.** The computed volume of a box is not negative, is 0 exactly for flat boxes, and has a relative error of at most five
roundings. -/
theorem C164_volume {F : Format} (hF : F.Good) {b : Box3d ℚ} (ho : BoxSpec.Ordered b) :
    0 ≤ boxVolume F.rd b ∧
      (boxVolume F.rd b = 0 ↔ b.maxCorner.x = b.minCorner.x ∨ b.maxCorner.y = b.minCorner.y ∨ b.maxCorner.z = b.minCorner.z) ∧
      (b.maxCorner.x - b.minCorner.x) * (b.maxCorner.y - b.minCorner.y) * (b.maxCorner.z - b.minCorner.z) * (1 - F.u) ^ 5 ≤
        boxVolume F.rd b ∧
      boxVolume F.rd b ≤
        (b.maxCorner.x - b.minCorner.x) * (b.maxCorner.y - b.minCorner.y) * (b.maxCorner.z - b.minCorner.z) * (1 + F.u) ^ 5 := by
  obtain ⟨o1, o2, o3⟩ := ho
  have hx : 0 ≤ b.maxCorner.x - b.minCorner.x := by linarith
  have hy : 0 ≤ b.maxCorner.y - b.minCorner.y := by linarith
  have hz : 0 ≤ b.maxCorner.z - b.minCorner.z := by linarith
  unfold boxVolume
  dsimp only
  have zx : b.maxCorner.x - b.minCorner.x = 0 ↔ b.maxCorner.x = b.minCorner.x := sub_eq_zero
  have zy : b.maxCorner.y - b.minCorner.y = 0 ↔ b.maxCorner.y = b.minCorner.y := sub_eq_zero
  have zz : b.maxCorner.z - b.minCorner.z = 0 ↔ b.maxCorner.z = b.minCorner.z := sub_eq_zero
  generalize b.maxCorner.x - b.minCorner.x = x at *
  generalize b.maxCorner.y - b.minCorner.y = y at *
  generalize b.maxCorner.z - b.minCorner.z = z at *
  have nx := hF.nonneg hx
  have ny := hF.nonneg hy
  have nz := hF.nonneg hz
  have nxy := hF.nonneg (mul_nonneg nx ny)
  have hu := hF.u_lt
  have hu0 := hF.u_pos
  have h1u : 0 ≤ 1 - F.u := by linarith
  refine ⟨hF.nonneg (mul_nonneg nxy nz), ?_, ?_, ?_⟩
  · rw [hF.eq_zero, mul_eq_zero, hF.eq_zero, mul_eq_zero, hF.eq_zero, hF.eq_zero, hF.eq_zero, zx, zy, zz, or_assoc]
  · have e1 := mul_le_mul (hF.mul_le hx) (hF.mul_le hy) (mul_nonneg hy h1u) nx
    have e2 := (mul_le_mul_of_nonneg_right e1 h1u).trans (hF.mul_le (mul_nonneg nx ny))
    have e3 := mul_le_mul e2 (hF.mul_le hz) (mul_nonneg hz h1u) nxy
    have e4 := (mul_le_mul_of_nonneg_right e3 h1u).trans (hF.mul_le (mul_nonneg nxy nz))
    calc _ = _ := by ring
      _ ≤ _ := e4
  · have e1 := mul_le_mul (hF.le_mul hx) (hF.le_mul hy) ny (mul_nonneg hx (by linarith))
    have e2 := (hF.le_mul (mul_nonneg nx ny)).trans (mul_le_mul_of_nonneg_right e1 (by linarith : 0 ≤ 1 + F.u))
    have e3 := mul_le_mul e2 (hF.le_mul hz) nz (by positivity)
    have e4 := (hF.le_mul (mul_nonneg nxy nz)).trans (mul_le_mul_of_nonneg_right e3 (by linarith : 0 ≤ 1 + F.u))
    calc _ ≤ _ := e4
      _ = _ := by ring

/-- **C164.** A box inside another has no greater computed volume; so the merge of boxes has at least the computed volume of each. -/
theorem C164_monotone {F : Format} (hF : F.Good) {a b : Box3d ℚ} (ha : BoxSpec.Ordered a) (h1 : BoxSpec.Mem b a.minCorner) (h2 : BoxSpec.Mem b a.maxCorner) :
    boxVolume F.rd a ≤ boxVolume F.rd b := by
  obtain ⟨o1, o2, o3⟩ := ha
  obtain ⟨⟨p1, -⟩, ⟨p2, -⟩, p3, -⟩ := h1
  obtain ⟨⟨-, q1⟩, ⟨-, q2⟩, -, q3⟩ := h2
  have hx : 0 ≤ a.maxCorner.x - a.minCorner.x := by linarith
  have hy : 0 ≤ a.maxCorner.y - a.minCorner.y := by linarith
  have hz : 0 ≤ a.maxCorner.z - a.minCorner.z := by linarith
  have nx := hF.nonneg hx
  have ny := hF.nonneg hy
  have nz := hF.nonneg hz
  have mx := hF.mono (show a.maxCorner.x - a.minCorner.x ≤ b.maxCorner.x - b.minCorner.x by linarith)
  have my := hF.mono (show a.maxCorner.y - a.minCorner.y ≤ b.maxCorner.y - b.minCorner.y by linarith)
  have mz := hF.mono (show a.maxCorner.z - a.minCorner.z ≤ b.maxCorner.z - b.minCorner.z by linarith)
  exact hF.mono (mul_le_mul (hF.mono (mul_le_mul mx my ny (nx.trans mx))) mz nz
    (hF.nonneg (mul_nonneg (nx.trans mx) (ny.trans my))))

/-- **C164.** If a box is thicker in every coordinate than twice the rounding of its centre, the computed centre is a point in the box for
`point_in_box`. -/
theorem C164_inside {F : Format} (hF : F.Good) {b : Box3d ℚ} (hb : Numbers F b) (ho : BoxSpec.Ordered b)
    (hx : F.u * |b.minCorner.x + b.maxCorner.x| < b.maxCorner.x - b.minCorner.x)
    (hy : F.u * |b.minCorner.y + b.maxCorner.y| < b.maxCorner.y - b.minCorner.y)
    (hz : F.u * |b.minCorner.z + b.maxCorner.z| < b.maxCorner.z - b.minCorner.z) :
    b.pointInBox (boxCenter F.rd b) = true := by
  obtain ⟨-, ex, ey, ez⟩ := C164_center hF hb ho
  rw [abs_div, show |(2 : ℚ)| = 2 by norm_num, ← mul_div_assoc, abs_le] at ex ey ez
  unfold Box3d.pointInBox
  rw [decide_eq_true_eq]
  refine ⟨⟨?_, ?_, ?_⟩, ?_, ?_, ?_⟩ <;> linarith [ex.1, ex.2, ey.1, ey.2, ez.1, ez.2]

/-- **C164.** Without this the computed centre may lie on the boundary, which `point_in_box` does not count, although the box is not flat. -/
theorem C164_center_on_boundary : ∃ b : Box3d ℚ, Numbers float64 b ∧ b.minCorner.x < b.maxCorner.x ∧ b.minCorner.y < b.maxCorner.y ∧
    b.minCorner.z < b.maxCorner.z ∧ b.pointInBox (boxCenter double b) = false := by
  refine ⟨⟨⟨1, 1, 1⟩, ⟨1 + 1 / 2 ^ 52, 1 + 1 / 2 ^ 52, 1 + 1 / 2 ^ 52⟩⟩, ?_, by norm_num, by norm_num, by norm_num, by decide +kernel⟩
  have h1 : IsDouble 1 := isDouble_one
  have h2 : IsDouble (1 + 1 / 2 ^ 52) := ⟨2 ^ 52 + 1, -52, by norm_num, by norm_num [zpow_neg]⟩
  exact ⟨⟨h1, h1, h1⟩, h2, h2, h2⟩

/-- Non-vacuity: a box of `float32`. -/
example : Numbers float32 ⟨⟨0, 1, 2⟩, ⟨3, 5, 2⟩⟩ ∧ BoxSpec.Ordered (⟨⟨0, 1, 2⟩, ⟨3, 5, 2⟩⟩ : Box3d ℚ) ∧
    boxVolume single ⟨⟨0, 1, 2⟩, ⟨3, 5, 4⟩⟩ = 24 ∧ boxCenter single ⟨⟨0, 1, 2⟩, ⟨3, 5, 4⟩⟩ = ⟨3 / 2, 3, 3⟩ := by
  have h : ∀ n : ℤ, |n| ≤ 2 ^ 24 → IsSingle32 n := fun n hn => isSingle32_int hn
  refine ⟨⟨⟨?_, ?_, ?_⟩, ?_, ?_, ?_⟩, ⟨by norm_num, by norm_num, by norm_num⟩, by decide +kernel, by decide +kernel⟩
  · exact_mod_cast h 0 (by norm_num)
  · exact_mod_cast h 1 (by norm_num)
  · exact_mod_cast h 2 (by norm_num)
  · exact_mod_cast h 3 (by norm_num)
  · exact_mod_cast h 5 (by norm_num)
  · exact_mod_cast h 2 (by norm_num)

end Fl
end Sumo
