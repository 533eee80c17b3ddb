import Verif.Lemmas.Double
import Verif.Lemmas.FloatPerceptual

/-! # Rounding to single precision -/

namespace Sumo

/-- The exponent of the unit in the last place of the `float32` near `x`. -/
def ulpExp32 (x : ℚ) : ℤ := Int.log 2 |x| - 23

/-- `x` is a `float32`: an integer of at most 24 bits times a power of two. -/
def IsSingle32 (x : ℚ) : Prop := ∃ m e : ℤ, |m| ≤ 2 ^ 24 ∧ x = m * 2 ^ e

theorem single_def (x : ℚ) : single x = if x = 0 then 0 else (roundEven (x / 2 ^ ulpExp32 x) : ℚ) * 2 ^ ulpExp32 x := rfl

theorem ulp_pos32 (x : ℚ) : (0 : ℚ) < 2 ^ ulpExp32 x := zpow_pos (by norm_num) _

@[simp] theorem single_zero : single 0 = 0 := by rw [single_def]; rw [if_pos rfl]

theorem ulpExp32_neg (x : ℚ) : ulpExp32 (-x) = ulpExp32 x := by unfold ulpExp32; rw [abs_neg]

theorem single_neg (x : ℚ) : single (-x) = -single x := by
  rw [single_def, single_def]
  by_cases h : x = 0
  · simp [h]
  · rw [if_neg h, if_neg (neg_ne_zero.2 h), ulpExp32_neg, neg_div, roundEven_neg]
    push_cast
    ring

theorem log_bounds32 {x : ℚ} (h : x ≠ 0) : (2 : ℚ) ^ (ulpExp32 x + 23) ≤ |x| ∧ |x| < 2 ^ (ulpExp32 x + 24) := by
  have hp : 0 < |x| := abs_pos.2 h
  unfold ulpExp32
  constructor
  · have := Int.zpow_log_le_self (b := 2) (by norm_num) hp
    simpa using this
  · have := Int.lt_zpow_succ_log_self (b := 2) (by norm_num) |x|
    have e : Int.log 2 |x| - 23 + 24 = Int.log 2 |x| + 1 := by omega
    rw [e]
    simpa using this

theorem ulp_le32 {x : ℚ} (h : x ≠ 0) : (2 : ℚ) ^ ulpExp32 x ≤ |x| / 2 ^ 23 := by
  have := (log_bounds32 h).1
  rw [zpow_add₀ (by norm_num)] at this
  rw [le_div_iff₀ (by positivity)]
  exact_mod_cast this

/-- Rounding changes a number by at most `2^-24` of it. -/
theorem single_err32 (x : ℚ) : |single x - x| ≤ |x| / 2 ^ 24 := by
  by_cases h : x = 0
  · simp [h]
  · have hp : (0 : ℚ) < 2 ^ ulpExp32 x := ulp_pos32 x
    have h1 := roundEven_le (x / 2 ^ ulpExp32 x)
    have h2 := le_roundEven (x / 2 ^ ulpExp32 x)
    have h3 := ulp_le32 h
    rw [single_def]
    rw [if_neg h]
    have e : (roundEven (x / 2 ^ ulpExp32 x) : ℚ) * 2 ^ ulpExp32 x - x =
        (roundEven (x / 2 ^ ulpExp32 x) - x / 2 ^ ulpExp32 x) * 2 ^ ulpExp32 x := by
      field_simp
    rw [e, abs_mul, abs_of_pos hp]
    have h4 : |(roundEven (x / 2 ^ ulpExp32 x) : ℚ) - x / 2 ^ ulpExp32 x| ≤ 1 / 2 := by
      rw [abs_le]; constructor <;> linarith
    calc _ ≤ 1 / 2 * (|x| / 2 ^ 23) := mul_le_mul h4 h3 hp.le (by norm_num)
      _ = |x| / 2 ^ 24 := by ring

theorem isSingle32_neg {x : ℚ} (h : IsSingle32 x) : IsSingle32 (-x) := by
  obtain ⟨m, e, hm, rfl⟩ := h
  exact ⟨-m, e, by rwa [abs_neg], by push_cast; ring⟩

theorem isSingle32_int {n : ℤ} (h : |n| ≤ 2 ^ 24) : IsSingle32 n := ⟨n, 0, h, by simp⟩

theorem isSingle32_nat {n : ℕ} (h : n ≤ 2 ^ 24) : IsSingle32 n :=
  ⟨n, 0, by rw [abs_of_nonneg (by positivity)]; exact_mod_cast h, by simp⟩

theorem isSingle32_zero : IsSingle32 0 := ⟨0, 0, by norm_num, by simp⟩

theorem isSingle32_one : IsSingle32 1 := ⟨1, 0, by norm_num, by simp⟩

theorem isSingle32_zpow (e : ℤ) : IsSingle32 (2 ^ e) := ⟨1, e, by norm_num, by simp⟩

theorem isSingle32_mul_zpow {x : ℚ} (h : IsSingle32 x) (e : ℤ) : IsSingle32 (x * 2 ^ e) := by
  obtain ⟨m, k, hm, rfl⟩ := h
  exact ⟨m, k + e, hm, by rw [zpow_add₀ (by norm_num)]; ring⟩

theorem single_isSingle32 (x : ℚ) : IsSingle32 (single x) := by
  by_cases h : x = 0
  · rw [h, single_zero]; exact isSingle32_zero
  · have hp : (0 : ℚ) < 2 ^ ulpExp32 x := ulp_pos32 x
    refine ⟨roundEven (x / 2 ^ ulpExp32 x), ulpExp32 x, ?_, by rw [single_def]; rw [if_neg h]⟩
    have h1 : |x / 2 ^ ulpExp32 x| ≤ 2 ^ 24 := by
      rw [abs_div, abs_of_pos hp, div_le_iff₀ hp]
      have := (log_bounds32 h).2.le
      rw [zpow_add₀ (by norm_num), mul_comm] at this
      exact_mod_cast this
    rw [abs_le] at h1
    have h2 := roundEven_mono h1.2
    have h3 := roundEven_mono h1.1
    have e1 := roundEven_pow 24
    rw [roundEven_neg, e1] at h3
    rw [e1] at h2
    rw [abs_le]
    exact ⟨h3, h2⟩

/-- Singles are not changed by rounding. -/
theorem single_of_isSingle32 {x : ℚ} (hx : IsSingle32 x) : single x = x := by
  by_cases h : x = 0
  · rw [h, single_zero]
  · obtain ⟨m, e, hm, hxe⟩ := hx
    obtain ⟨h1, h2⟩ := log_bounds32 h
    have hp : (0 : ℚ) < 2 ^ ulpExp32 x := ulp_pos32 x
    have he : (0 : ℚ) < 2 ^ e := zpow_pos (by norm_num) _
    have habs : |x| = |(m : ℚ)| * 2 ^ e := by rw [hxe, abs_mul, abs_of_pos he]
    have key : ∃ n : ℤ, x / 2 ^ ulpExp32 x = n := by
      by_cases hle : ulpExp32 x ≤ e
      · obtain ⟨k, hk⟩ := Int.le.dest hle
        refine ⟨m * 2 ^ k, ?_⟩
        rw [div_eq_iff hp.ne']
        calc x = m * 2 ^ e := hxe
          _ = _ := by
            rw [← hk, zpow_add₀ (by norm_num), zpow_natCast]
            push_cast
            ring
      · -- then `|m| = 2^24`
        have h3 : e + 24 ≤ ulpExp32 x + 23 := by omega
        have h4 : (2 : ℚ) ^ (e + 24) ≤ 2 ^ (ulpExp32 x + 23) := zpow_le_zpow_right₀ (by norm_num) h3
        have h5 : |(m : ℚ)| ≤ 2 ^ 24 := by exact_mod_cast hm
        have h6 : |x| ≤ 2 ^ (e + 24) := by
          rw [habs, zpow_add₀ (by norm_num), mul_comm]
          have : (2 : ℚ) ^ (24 : ℤ) = 2 ^ 24 := by norm_num
          rw [this]
          exact mul_le_mul_of_nonneg_left h5 he.le
        have h7 : |x| = 2 ^ (ulpExp32 x + 23) := le_antisymm (h6.trans h4) h1
        rw [zpow_add₀ (by norm_num)] at h7
        rcases abs_choice x with h8 | h8
        · refine ⟨2 ^ 23, ?_⟩
          rw [div_eq_iff hp.ne']
          rw [h8] at h7
          rw [Int.cast_pow, Int.cast_ofNat]
          have e : (2 : ℚ) ^ (23 : ℤ) = 2 ^ 23 := by norm_num
          rw [e] at h7
          linarith
        · refine ⟨-2 ^ 23, ?_⟩
          rw [div_eq_iff hp.ne']
          rw [h8] at h7
          rw [Int.cast_neg, Int.cast_pow, Int.cast_ofNat]
          have e : (2 : ℚ) ^ (23 : ℤ) = 2 ^ 23 := by norm_num
          rw [e] at h7
          linarith
    obtain ⟨n, hn⟩ := key
    rw [single_def]
    rw [if_neg h, hn, roundEven_int, ← hn]
    field_simp

theorem single_mono_pos {x y : ℚ} (hx : 0 < x) (h : x ≤ y) : single x ≤ single y := by
  have hy : 0 < y := hx.trans_le h
  have hpx : (0 : ℚ) < 2 ^ ulpExp32 x := ulp_pos32 x
  have hpy : (0 : ℚ) < 2 ^ ulpExp32 y := ulp_pos32 y
  have hle : ulpExp32 x ≤ ulpExp32 y := by
    unfold ulpExp32
    rw [abs_of_pos hx, abs_of_pos hy]
    have := Int.log_mono_right (b := 2) hx h
    omega
  rcases lt_or_eq_of_le hle with hlt | heq
  · have e1 := roundEven_pow 24
    have e2 := roundEven_pow 23
    have h1 : single x ≤ 2 ^ 24 * 2 ^ ulpExp32 x := by
      rw [single_def]
      rw [if_neg hx.ne']
      refine mul_le_mul_of_nonneg_right ?_ hpx.le
      have h2 : x / 2 ^ ulpExp32 x ≤ 2 ^ 24 := by
        rw [div_le_iff₀ hpx]
        have := (log_bounds32 hx.ne').2.le
        rw [abs_of_pos hx, zpow_add₀ (by norm_num), mul_comm] at this
        exact_mod_cast this
      have := roundEven_mono h2
      rw [e1] at this
      exact_mod_cast this
    have h3 : 2 ^ 23 * 2 ^ ulpExp32 y ≤ single y := by
      rw [single_def]
      rw [if_neg hy.ne']
      refine mul_le_mul_of_nonneg_right ?_ hpy.le
      have h2 : 2 ^ 23 ≤ y / 2 ^ ulpExp32 y := by
        rw [le_div_iff₀ hpy]
        have := (log_bounds32 hy.ne').1
        rw [abs_of_pos hy, zpow_add₀ (by norm_num), mul_comm] at this
        exact_mod_cast this
      have := roundEven_mono h2
      rw [e2] at this
      exact_mod_cast this
    have h4 : (2 : ℚ) ^ (ulpExp32 x + 1) ≤ 2 ^ ulpExp32 y := zpow_le_zpow_right₀ (by norm_num) (by omega)
    rw [zpow_add₀ (by norm_num), zpow_one] at h4
    linarith
  · rw [single_def, single_def]
    rw [if_neg hx.ne', if_neg hy.ne', ← heq]
    refine mul_le_mul_of_nonneg_right ?_ hpx.le
    exact_mod_cast roundEven_mono ((div_le_div_iff_of_pos_right hpx).2 h)

/-- Rounding does not change the order of numbers. -/
theorem single_mono {x y : ℚ} (h : x ≤ y) : single x ≤ single y := by
  rcases lt_trichotomy x 0 with hx | hx | hx
  · rcases lt_or_ge y 0 with hy | hy
    · have := single_mono_pos (x := -y) (y := -x) (by linarith) (by linarith)
      rw [single_neg, single_neg] at this
      linarith
    · have h1 := single_nonneg hy
      have h2 := single_nonneg (x := -x) (by linarith)
      rw [single_neg] at h2
      linarith
  · rw [hx, single_zero]
    exact single_nonneg (hx ▸ h)
  · exact single_mono_pos hx h

theorem single_le {x y : ℚ} (h : x ≤ y) (hy : IsSingle32 y) : single x ≤ y := by
  have := single_mono h
  rwa [single_of_isSingle32 hy] at this

theorem le_single {x y : ℚ} (h : x ≤ y) (hx : IsSingle32 x) : x ≤ single y := by
  have := single_mono h
  rwa [single_of_isSingle32 hx] at this

@[simp] theorem single_double (x : ℚ) : single (single x) = single x := single_of_isSingle32 (single_isSingle32 x)

@[simp] theorem single_one : single 1 = 1 := single_of_isSingle32 isSingle32_one

theorem single_nat {n : ℕ} (h : n ≤ 2 ^ 24) : single n = n := single_of_isSingle32 (isSingle32_nat h)

theorem single_le_one {x : ℚ} (h : x ≤ 1) : single x ≤ 1 := single_le h isSingle32_one

theorem single_le_mul {x : ℚ} (h : 0 ≤ x) : single x ≤ x * (1 + 1 / 2 ^ 24) := by
  have := single_err32 x
  rw [abs_of_nonneg h, abs_le] at this
  linarith [this.2]

theorem mul_le_single {x : ℚ} (h : 0 ≤ x) : x * (1 - 1 / 2 ^ 24) ≤ single x := by
  have := single_err32 x
  rw [abs_of_nonneg h, abs_le] at this
  linarith [this.1]

end Sumo
