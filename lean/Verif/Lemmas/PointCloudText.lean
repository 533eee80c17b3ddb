import Verif.Lemmas.Double
import Verif.Lemmas.Xml
import Verif.Model.PointCloudText

/-! # Helper lemmas for point clouds as text -/

namespace Sumo

theorem roundEven_near {v : ℚ} {n : ℤ} (h : |v - n| < 1 / 2) : roundEven v = n := by
  have h1 := roundEven_le v
  have h2 := le_roundEven v
  obtain ⟨h3, h4⟩ := abs_lt.1 h
  have h5 : (roundEven v : ℚ) < n + 1 := by linarith
  have h6 : (n : ℚ) - 1 < roundEven v := by linarith
  have h5' : roundEven v < n + 1 := by exact_mod_cast h5
  have h6' : n - 1 < roundEven v := by exact_mod_cast h6
  omega

theorem two_zpow_pos (e : ℤ) : (0 : ℚ) < 2 ^ e := zpow_pos (by norm_num) e

/-- A number that is close enough to a double is rounded to it. -/
theorem double_of_near {x y : ℚ} (hx : IsDouble x) (h : |y - x| < |x| / 2 ^ 54) : double y = x := by
  have hx0 : x ≠ 0 := by
    rintro rfl
    rw [abs_zero, zero_div] at h
    exact absurd (abs_nonneg _) (not_le.2 h)
  have hax : 0 < |x| := abs_pos.2 hx0
  have hy1 : |y| ≤ |x| * (1 + 1 / 2 ^ 54) := by have := abs_sub_abs_le_abs_sub y x; linarith
  have hy2 : |x| * (1 - 1 / 2 ^ 54) ≤ |y| := by
    have := abs_sub_abs_le_abs_sub x y
    rw [abs_sub_comm] at this
    linarith
  have hay : 0 < |y| := by nlinarith
  have hy0 : y ≠ 0 := abs_pos.1 hay
  obtain ⟨b1, b2⟩ := log_bounds hy0
  obtain ⟨c1, c2⟩ := log_bounds hx0
  obtain ⟨n, hn⟩ : ∃ n : ℤ, x = n * 2 ^ ulpExp x := by
    have := double_of_isDouble hx
    unfold double at this
    rw [if_neg hx0] at this
    exact ⟨_, this.symm⟩
  have e52 : ∀ e : ℤ, (2 : ℚ) ^ (e + 52) = 2 ^ 52 * 2 ^ e := fun e => by rw [zpow_add₀ (by norm_num), mul_comm]; norm_cast
  have e53 : ∀ e : ℤ, (2 : ℚ) ^ (e + 53) = 2 ^ 53 * 2 ^ e := fun e => by rw [zpow_add₀ (by norm_num), mul_comm]; norm_cast
  rw [e52] at b1 c1
  rw [e53] at b2 c2
  have hpe := two_zpow_pos (ulpExp y)
  have hpf := two_zpow_pos (ulpExp x)
  have hnabs : |x| = |(n : ℚ)| * 2 ^ ulpExp x := by conv_lhs => rw [hn, abs_mul, abs_of_pos hpf]
  have hnq : |(n : ℚ)| ≤ 2 ^ 53 - 1 := by
    have h1 : |(n : ℚ)| < 2 ^ 53 := by
      rw [hnabs] at c2
      exact lt_of_mul_lt_mul_right c2 hpf.le
    have h2 : |n| < 2 ^ 53 := by exact_mod_cast h1
    have h3 : |n| ≤ 2 ^ 53 - 1 := by omega
    exact_mod_cast h3
  have hef : ulpExp y ≤ ulpExp x := by
    by_contra hlt
    have h1 : ulpExp x + 1 ≤ ulpExp y := by omega
    have h2 : (2 : ℚ) ^ (ulpExp x + 1) ≤ 2 ^ ulpExp y := zpow_le_zpow_right₀ (by norm_num) h1
    rw [zpow_add₀ (by norm_num), zpow_one] at h2
    have h3 : |x| ≤ (2 ^ 53 - 1) * 2 ^ ulpExp x := by rw [hnabs]; exact mul_le_mul_of_nonneg_right hnq hpf.le
    have h4 : |x| * (1 + 1 / 2 ^ 54) ≤ (2 ^ 53 - 1) * 2 ^ ulpExp x * (1 + 1 / 2 ^ 54) :=
      mul_le_mul_of_nonneg_right h3 (by norm_num)
    have h5 : (2 ^ 53 - 1) * (2 : ℚ) ^ ulpExp x * (1 + 1 / 2 ^ 54) < 2 ^ 53 * 2 ^ ulpExp x := by nlinarith
    linarith
  obtain ⟨d, hd⟩ := Int.eq_ofNat_of_zero_le (show 0 ≤ ulpExp x - ulpExp y by omega)
  have hxe : x = ((n * 2 ^ d : ℤ) : ℚ) * 2 ^ ulpExp y := by
    conv_lhs => rw [hn, show ulpExp x = (d : ℤ) + ulpExp y by omega]
    rw [zpow_add₀ (by norm_num), zpow_natCast]
    push_cast
    ring
  generalize n * 2 ^ d = k at hxe
  have hkabs : |x| = |(k : ℚ)| * 2 ^ ulpExp y := by conv_lhs => rw [hxe, abs_mul, abs_of_pos hpe]
  have hk : |(k : ℚ)| ≤ 2 ^ 53 := by
    by_contra hlt
    rw [not_le] at hlt
    have h1 : (2 : ℤ) ^ 53 < |k| := by exact_mod_cast hlt
    have h2 : (2 : ℤ) ^ 53 + 1 ≤ |k| := by omega
    have h3 : (2 : ℚ) ^ 53 + 1 ≤ |(k : ℚ)| := by exact_mod_cast h2
    have h4 : (2 ^ 53 + 1) * 2 ^ ulpExp y ≤ |x| := by rw [hkabs]; exact mul_le_mul_of_nonneg_right h3 hpe.le
    have h5 : (2 ^ 53 + 1) * (2 : ℚ) ^ ulpExp y * (1 - 1 / 2 ^ 54) ≤ |x| * (1 - 1 / 2 ^ 54) :=
      mul_le_mul_of_nonneg_right h4 (by norm_num)
    have h6 : 2 ^ 53 * (2 : ℚ) ^ ulpExp y < (2 ^ 53 + 1) * 2 ^ ulpExp y * (1 - 1 / 2 ^ 54) := by nlinarith
    linarith
  have hr : roundEven (y / 2 ^ ulpExp y) = k := by
    apply roundEven_near
    have e : y / 2 ^ ulpExp y - k = (y - x) / 2 ^ ulpExp y := by
      have : (k : ℚ) = x / 2 ^ ulpExp y := by rw [eq_div_iff hpe.ne']; exact hxe.symm
      rw [this, sub_div]
    rw [e, abs_div, abs_of_pos hpe, div_lt_iff₀ hpe]
    have h1 : |x| ≤ 2 ^ 53 * 2 ^ ulpExp y := by rw [hkabs]; exact mul_le_mul_of_nonneg_right hk hpe.le
    linarith
  unfold double
  rw [if_neg hy0, hr, ← hxe]

/-- Nineteen significant digits are enough. -/
theorem double_printed18 {x : ℚ} (hx : IsDouble x) : double (printed18 x) = x := by
  by_cases h0 : x = 0
  · rw [h0, printed18, roundScientific_zero, double_zero]
  have hp : 0 < |x| := abs_pos.2 h0
  refine double_of_near hx ?_
  have h1 := roundDecimals_err (18 - Int.log 10 |x|) x
  have h2 : (10 : ℚ) ^ Int.log 10 |x| ≤ |x| := by
    have := Int.zpow_log_le_self (b := 10) (by norm_num) hp
    exact_mod_cast this
  have e : (10 : ℚ) ^ (-(18 - Int.log 10 |x|)) = 10 ^ Int.log 10 |x| / 10 ^ 18 := by
    rw [neg_sub, zpow_sub₀ (by norm_num)]; norm_cast
  rw [e] at h1
  unfold printed18 roundScientific
  refine lt_of_le_of_lt h1 ?_
  have : (1 : ℚ) / 2 * (10 ^ Int.log 10 |x| / 10 ^ 18) ≤ 1 / 2 * (|x| / 10 ^ 18) := by
    refine mul_le_mul_of_nonneg_left (div_le_div_of_nonneg_right h2 (by norm_num)) (by norm_num)
  refine lt_of_le_of_lt this ?_
  linarith

end Sumo
