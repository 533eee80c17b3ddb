import Verif.Model.Double
import Mathlib.Tactic.Linarith
import Mathlib.Tactic.Positivity
import Mathlib.Tactic.Ring
import Mathlib.Tactic.FieldSimp
import Mathlib.Tactic.NormNum

/-! # Rounding to double precision -/

namespace Sumo

theorem roundEven_le (x : ℚ) : (roundEven x : ℚ) ≤ x + 1 / 2 := by
  have h1 := Int.floor_le x
  unfold roundEven
  split_ifs <;> push_cast <;> linarith

theorem le_roundEven (x : ℚ) : x - 1 / 2 ≤ roundEven x := by
  have h2 := Int.lt_floor_add_one x
  unfold roundEven
  split_ifs <;> push_cast <;> linarith

@[simp] theorem roundEven_int (n : ℤ) : roundEven (n : ℚ) = n := by
  unfold roundEven
  simp

theorem roundEven_pow (k : ℕ) : roundEven ((2 : ℚ) ^ k) = 2 ^ k := by
  have := roundEven_int (2 ^ k)
  rwa [Int.cast_pow, Int.cast_ofNat] at this

theorem ulp_pos (x : ℚ) : (0 : ℚ) < 2 ^ ulpExp x := zpow_pos (by norm_num) _

theorem floor_le_roundEven (x : ℚ) : ⌊x⌋ ≤ roundEven x := by
  unfold roundEven
  split_ifs <;> omega

theorem roundEven_le_floor (x : ℚ) : roundEven x ≤ ⌊x⌋ + 1 := by
  unfold roundEven
  split_ifs <;> omega

theorem roundEven_mono {x y : ℚ} (h : x ≤ y) : roundEven x ≤ roundEven y := by
  have h1 := Int.floor_le_floor h
  rcases lt_or_eq_of_le h1 with h2 | h2
  · have := roundEven_le_floor x
    have := floor_le_roundEven y
    omega
  · unfold roundEven
    rw [h2]
    split_ifs <;> first | omega | (exfalso; linarith)

theorem roundEven_neg (x : ℚ) : roundEven (-x) = -roundEven x := by
  by_cases hi : x = ⌊x⌋
  · rw [hi, ← Int.cast_neg, roundEven_int, roundEven_int]
  · have h1 := Int.floor_le x
    have h2 := Int.lt_floor_add_one x
    have h1' : (⌊x⌋ : ℚ) < x := lt_of_le_of_ne h1 (fun h => hi h.symm)
    have h3 : ⌊-x⌋ = -⌊x⌋ - 1 := by
      rw [Int.floor_eq_iff]
      push_cast
      constructor <;> linarith
    unfold roundEven
    rw [h3]
    push_cast
    split_ifs <;> first | omega | (exfalso; linarith)

@[simp] theorem double_zero : double 0 = 0 := by unfold double; rw [if_pos rfl]

theorem ulpExp_neg (x : ℚ) : ulpExp (-x) = ulpExp x := by unfold ulpExp; rw [abs_neg]

theorem double_neg (x : ℚ) : double (-x) = -double x := by
  unfold double
  by_cases h : x = 0
  · simp [h]
  · rw [if_neg h, if_neg (neg_ne_zero.2 h), ulpExp_neg, neg_div, roundEven_neg]
    push_cast
    ring

theorem log_bounds {x : ℚ} (h : x ≠ 0) : (2 : ℚ) ^ (ulpExp x + 52) ≤ |x| ∧ |x| < 2 ^ (ulpExp x + 53) := by
  have hp : 0 < |x| := abs_pos.2 h
  unfold ulpExp
  constructor
  · have := Int.zpow_log_le_self (b := 2) (by norm_num) hp
    simpa using this
  · have := Int.lt_zpow_succ_log_self (b := 2) (by norm_num) |x|
    have e : Int.log 2 |x| - 52 + 53 = Int.log 2 |x| + 1 := by omega
    rw [e]
    simpa using this

theorem ulp_le {x : ℚ} (h : x ≠ 0) : (2 : ℚ) ^ ulpExp x ≤ |x| / 2 ^ 52 := by
  have := (log_bounds h).1
  rw [zpow_add₀ (by norm_num)] at this
  rw [le_div_iff₀ (by positivity)]
  exact_mod_cast this

/-- Rounding changes a number by at most `2^-53` of it. -/
theorem double_err (x : ℚ) : |double x - x| ≤ |x| / 2 ^ 53 := by
  by_cases h : x = 0
  · simp [h]
  · have hp : (0 : ℚ) < 2 ^ ulpExp x := ulp_pos x
    have h1 := roundEven_le (x / 2 ^ ulpExp x)
    have h2 := le_roundEven (x / 2 ^ ulpExp x)
    have h3 := ulp_le h
    unfold double
    rw [if_neg h]
    have e : (roundEven (x / 2 ^ ulpExp x) : ℚ) * 2 ^ ulpExp x - x =
        (roundEven (x / 2 ^ ulpExp x) - x / 2 ^ ulpExp x) * 2 ^ ulpExp x := by
      field_simp
    rw [e, abs_mul, abs_of_pos hp]
    have h4 : |(roundEven (x / 2 ^ ulpExp x) : ℚ) - x / 2 ^ ulpExp x| ≤ 1 / 2 := by
      rw [abs_le]; constructor <;> linarith
    calc _ ≤ 1 / 2 * (|x| / 2 ^ 52) := mul_le_mul h4 h3 hp.le (by norm_num)
      _ = |x| / 2 ^ 53 := by ring

theorem isDouble_neg {x : ℚ} (h : IsDouble x) : IsDouble (-x) := by
  obtain ⟨m, e, hm, rfl⟩ := h
  exact ⟨-m, e, by rwa [abs_neg], by push_cast; ring⟩

theorem isDouble_int {n : ℤ} (h : |n| ≤ 2 ^ 53) : IsDouble n := ⟨n, 0, h, by simp⟩

theorem isDouble_nat {n : ℕ} (h : n ≤ 2 ^ 53) : IsDouble n :=
  ⟨n, 0, by rw [abs_of_nonneg (by positivity)]; exact_mod_cast h, by simp⟩

theorem isDouble_zero : IsDouble 0 := ⟨0, 0, by norm_num, by simp⟩

theorem isDouble_one : IsDouble 1 := ⟨1, 0, by norm_num, by simp⟩

theorem isDouble_zpow (e : ℤ) : IsDouble (2 ^ e) := ⟨1, e, by norm_num, by simp⟩

theorem isDouble_mul_zpow {x : ℚ} (h : IsDouble x) (e : ℤ) : IsDouble (x * 2 ^ e) := by
  obtain ⟨m, k, hm, rfl⟩ := h
  exact ⟨m, k + e, hm, by rw [zpow_add₀ (by norm_num)]; ring⟩

theorem double_isDouble (x : ℚ) : IsDouble (double x) := by
  by_cases h : x = 0
  · rw [h, double_zero]; exact isDouble_zero
  · have hp : (0 : ℚ) < 2 ^ ulpExp x := ulp_pos x
    refine ⟨roundEven (x / 2 ^ ulpExp x), ulpExp x, ?_, by unfold double; rw [if_neg h]⟩
    have h1 : |x / 2 ^ ulpExp x| ≤ 2 ^ 53 := by
      rw [abs_div, abs_of_pos hp, div_le_iff₀ hp]
      have := (log_bounds h).2.le
      rw [zpow_add₀ (by norm_num), mul_comm] at this
      exact_mod_cast this
    rw [abs_le] at h1
    have h2 := roundEven_mono h1.2
    have h3 := roundEven_mono h1.1
    have e1 := roundEven_pow 53
    rw [roundEven_neg, e1] at h3
    rw [e1] at h2
    rw [abs_le]
    exact ⟨h3, h2⟩

/-- Doubles are not changed by rounding. -/
theorem double_of_isDouble {x : ℚ} (hx : IsDouble x) : double x = x := by
  by_cases h : x = 0
  · rw [h, double_zero]
  · obtain ⟨m, e, hm, hxe⟩ := hx
    obtain ⟨h1, h2⟩ := log_bounds h
    have hp : (0 : ℚ) < 2 ^ ulpExp x := ulp_pos x
    have he : (0 : ℚ) < 2 ^ e := zpow_pos (by norm_num) _
    have habs : |x| = |(m : ℚ)| * 2 ^ e := by rw [hxe, abs_mul, abs_of_pos he]
    have key : ∃ n : ℤ, x / 2 ^ ulpExp x = n := by
      by_cases hle : ulpExp x ≤ e
      · obtain ⟨k, hk⟩ := Int.le.dest hle
        refine ⟨m * 2 ^ k, ?_⟩
        rw [div_eq_iff hp.ne']
        calc x = m * 2 ^ e := hxe
          _ = _ := by
            rw [← hk, zpow_add₀ (by norm_num), zpow_natCast]
            push_cast
            ring
      · -- then `|m| = 2^53`
        have h3 : e + 53 ≤ ulpExp x + 52 := by omega
        have h4 : (2 : ℚ) ^ (e + 53) ≤ 2 ^ (ulpExp x + 52) := zpow_le_zpow_right₀ (by norm_num) h3
        have h5 : |(m : ℚ)| ≤ 2 ^ 53 := by exact_mod_cast hm
        have h6 : |x| ≤ 2 ^ (e + 53) := by
          rw [habs, zpow_add₀ (by norm_num), mul_comm]
          have : (2 : ℚ) ^ (53 : ℤ) = 2 ^ 53 := by norm_num
          rw [this]
          exact mul_le_mul_of_nonneg_left h5 he.le
        have h7 : |x| = 2 ^ (ulpExp x + 52) := le_antisymm (h6.trans h4) h1
        rw [zpow_add₀ (by norm_num)] at h7
        rcases abs_choice x with h8 | h8
        · refine ⟨2 ^ 52, ?_⟩
          rw [div_eq_iff hp.ne']
          rw [h8] at h7
          rw [Int.cast_pow, Int.cast_ofNat]
          have e : (2 : ℚ) ^ (52 : ℤ) = 2 ^ 52 := by norm_num
          rw [e] at h7
          linarith
        · refine ⟨-2 ^ 52, ?_⟩
          rw [div_eq_iff hp.ne']
          rw [h8] at h7
          rw [Int.cast_neg, Int.cast_pow, Int.cast_ofNat]
          have e : (2 : ℚ) ^ (52 : ℤ) = 2 ^ 52 := by norm_num
          rw [e] at h7
          linarith
    obtain ⟨n, hn⟩ := key
    unfold double
    rw [if_neg h, hn, roundEven_int, ← hn]
    field_simp

theorem double_nonneg {x : ℚ} (h : 0 ≤ x) : 0 ≤ double x := by
  have := double_err x
  rw [abs_of_nonneg h, abs_le] at this
  have h2 : x / 2 ^ 53 ≤ x := div_le_self h (by norm_num)
  linarith [this.1]

theorem double_mono_pos {x y : ℚ} (hx : 0 < x) (h : x ≤ y) : double x ≤ double y := by
  have hy : 0 < y := hx.trans_le h
  have hpx : (0 : ℚ) < 2 ^ ulpExp x := ulp_pos x
  have hpy : (0 : ℚ) < 2 ^ ulpExp y := ulp_pos y
  have hle : ulpExp x ≤ ulpExp y := by
    unfold ulpExp
    rw [abs_of_pos hx, abs_of_pos hy]
    have := Int.log_mono_right (b := 2) hx h
    omega
  rcases lt_or_eq_of_le hle with hlt | heq
  · have e1 := roundEven_pow 53
    have e2 := roundEven_pow 52
    have h1 : double x ≤ 2 ^ 53 * 2 ^ ulpExp x := by
      unfold double
      rw [if_neg hx.ne']
      refine mul_le_mul_of_nonneg_right ?_ hpx.le
      have h2 : x / 2 ^ ulpExp x ≤ 2 ^ 53 := by
        rw [div_le_iff₀ hpx]
        have := (log_bounds hx.ne').2.le
        rw [abs_of_pos hx, zpow_add₀ (by norm_num), mul_comm] at this
        exact_mod_cast this
      have := roundEven_mono h2
      rw [e1] at this
      exact_mod_cast this
    have h3 : 2 ^ 52 * 2 ^ ulpExp y ≤ double y := by
      unfold double
      rw [if_neg hy.ne']
      refine mul_le_mul_of_nonneg_right ?_ hpy.le
      have h2 : 2 ^ 52 ≤ y / 2 ^ ulpExp y := by
        rw [le_div_iff₀ hpy]
        have := (log_bounds hy.ne').1
        rw [abs_of_pos hy, zpow_add₀ (by norm_num), mul_comm] at this
        exact_mod_cast this
      have := roundEven_mono h2
      rw [e2] at this
      exact_mod_cast this
    have h4 : (2 : ℚ) ^ (ulpExp x + 1) ≤ 2 ^ ulpExp y := zpow_le_zpow_right₀ (by norm_num) (by omega)
    rw [zpow_add₀ (by norm_num), zpow_one] at h4
    linarith
  · unfold double
    rw [if_neg hx.ne', if_neg hy.ne', ← heq]
    refine mul_le_mul_of_nonneg_right ?_ hpx.le
    exact_mod_cast roundEven_mono ((div_le_div_iff_of_pos_right hpx).2 h)

/-- Rounding does not change the order of numbers. -/
theorem double_mono {x y : ℚ} (h : x ≤ y) : double x ≤ double y := by
  rcases lt_trichotomy x 0 with hx | hx | hx
  · rcases lt_or_ge y 0 with hy | hy
    · have := double_mono_pos (x := -y) (y := -x) (by linarith) (by linarith)
      rw [double_neg, double_neg] at this
      linarith
    · have h1 := double_nonneg hy
      have h2 := double_nonneg (x := -x) (by linarith)
      rw [double_neg] at h2
      linarith
  · rw [hx, double_zero]
    exact double_nonneg (hx ▸ h)
  · exact double_mono_pos hx h

theorem double_le {x y : ℚ} (h : x ≤ y) (hy : IsDouble y) : double x ≤ y := by
  have := double_mono h
  rwa [double_of_isDouble hy] at this

theorem le_double {x y : ℚ} (h : x ≤ y) (hx : IsDouble x) : x ≤ double y := by
  have := double_mono h
  rwa [double_of_isDouble hx] at this

@[simp] theorem double_double (x : ℚ) : double (double x) = double x := double_of_isDouble (double_isDouble x)

@[simp] theorem double_one : double 1 = 1 := double_of_isDouble isDouble_one

theorem double_nat {n : ℕ} (h : n ≤ 2 ^ 53) : double n = n := double_of_isDouble (isDouble_nat h)

theorem double_le_one {x : ℚ} (h : x ≤ 1) : double x ≤ 1 := double_le h isDouble_one

theorem double_le_mul {x : ℚ} (h : 0 ≤ x) : double x ≤ x * (1 + 1 / 2 ^ 53) := by
  have := double_err x
  rw [abs_of_nonneg h, abs_le] at this
  linarith [this.2]

theorem mul_le_double {x : ℚ} (h : 0 ≤ x) : x * (1 - 1 / 2 ^ 53) ≤ double x := by
  have := double_err x
  rw [abs_of_nonneg h, abs_le] at this
  linarith [this.1]

theorem double_pos {x : ℚ} (h : 0 < x) : 0 < double x := by
  have := mul_le_double h.le
  have h2 : 0 < x * (1 - 1 / 2 ^ 53) := mul_pos h (by norm_num)
  linarith

end Sumo
