import Verif.Model.InverseDepth
import Mathlib.Tactic.Linarith
import Mathlib.Tactic.NormNum
import Mathlib.Tactic.Positivity
import Mathlib.Tactic.FieldSimp
import Mathlib.Tactic.Ring

/-! # Helper lemmas on inverse depth codes -/

namespace Sumo

set_option linter.unusedSectionVars false

variable {K : Type} [Field K] [LinearOrder K] [IsStrictOrderedRing K] [FloorRing K]

/-- `y` is `x` up to a relative error `e` (for positive `x`). -/
def RelErr (e x y : K) : Prop := x * (1 - e) ≤ y ∧ y ≤ x * (1 + e)

theorem RelErr.weaken {e e' x y : K} (h : RelErr e x y) (hx : 0 ≤ x) (he : e ≤ e') : RelErr e' x y :=
  ⟨le_trans (mul_le_mul_of_nonneg_left (by linarith) hx) h.1,
    le_trans h.2 (mul_le_mul_of_nonneg_left (by linarith) hx)⟩

theorem relErr32 {ρ : Rounding K} (h : ρ.Lawful) {x : K} (hx : 0 ≤ x) : RelErr (1 / 2 ^ 24) x (ρ.f32 x) := by
  have := abs_le.1 (h.err32 x)
  rw [abs_of_nonneg hx] at this
  constructor
  · linarith [this.1]
  · linarith [this.2]

theorem relErr64 {ρ : Rounding K} (h : ρ.Lawful) {x : K} (hx : 0 ≤ x) : RelErr (1 / 2 ^ 53) x (ρ.f64 x) := by
  have := abs_le.1 (h.err64 x)
  rw [abs_of_nonneg hx] at this
  constructor
  · linarith [this.1]
  · linarith [this.2]

theorem relErr64' {ρ : Rounding K} (h : ρ.Lawful) {x : K} (hx : 0 ≤ x) : RelErr (1 / 2 ^ 24) x (ρ.f64 x) :=
  (relErr64 h hx).weaken hx (by norm_num)

theorem RelErr.pos {e x y : K} (h : RelErr e x y) (hx : 0 < x) (he : e < 1) : 0 < y :=
  lt_of_lt_of_le (mul_pos hx (by linarith)) h.1

theorem toUint_eq_some {b : ℕ} {x : K} {n : ℕ} (hx : 0 ≤ x) (h1 : (n : K) ≤ x) (h2 : x < n + 1) (hn : n < b) :
    toUint b x = some n := by
  have hf : ⌊x⌋ = (n : ℤ) := by
    rw [Int.floor_eq_iff]
    exact ⟨by simpa using h1, by simpa using h2⟩
  simp only [toUint, if_pos hx, hf]
  rw [if_pos ⟨by omega, by omega⟩]
  simp

theorem toUint_some {b : ℕ} {x : K} {n : ℕ} (hx : 0 ≤ x) (h : toUint b x = some n) :
    (n : K) ≤ x ∧ x < n + 1 ∧ n < b := by
  simp only [toUint, if_pos hx] at h
  split_ifs at h with hc
  simp only [Option.some.injEq] at h
  have hz : ⌊x⌋ = (n : ℤ) := by omega
  rw [Int.floor_eq_iff] at hz
  refine ⟨by simpa using hz.1, by simpa using hz.2, by omega⟩

theorem toUint_isSome {b : ℕ} {x : K} (hx : 0 ≤ x) (h : x < b) : ∃ n, toUint b x = some n := by
  have h0 : 0 ≤ ⌊x⌋ := Int.floor_nonneg.2 hx
  have h1 : ⌊x⌋ < b := by rw [Int.floor_lt]; simpa using h
  exact ⟨⌊x⌋.toNat, by simp only [toUint, if_pos hx]; rw [if_pos ⟨h0, h1⟩]⟩

theorem toUint_mono {b : ℕ} {x y : K} {m n : ℕ} (hx : 0 ≤ x) (hxy : x ≤ y) (hm : toUint b x = some m)
    (hn : toUint b y = some n) : m ≤ n := by
  have h1 := toUint_some hx hm
  have h2 := toUint_some (le_trans hx hxy) hn
  have : (m : K) < (n : K) + 1 := by linarith [h1.1, h2.2.1]
  have : m < n + 1 := by exact_mod_cast this
  omega

/-- The depth that code `c` stands for, up to roundings. -/
theorem decode_rel {N A B d : K} {c : ℕ} (hN : 0 < N) (hc : 0 < c) (hA : RelErr (1 / 2 ^ 24) N A)
    (hB : RelErr (1 / 2 ^ 24) (A / c) B) (hd : RelErr (1 / 2 ^ 24) B d) :
    N * (1 - 1 / 2 ^ 22) ≤ d * c ∧ d * c ≤ N * (1 + 1 / 2 ^ 22) := by
  have hc' : (0 : K) < c := by exact_mod_cast hc
  have hA0 : 0 < A := hA.pos hN (by norm_num)
  have hAc : A / c * c = A := by field_simp
  obtain ⟨a1, a2⟩ := hA
  obtain ⟨b1, b2⟩ := hB
  obtain ⟨d1, d2⟩ := hd
  have b1' : A * (1 - 1 / 2 ^ 24) ≤ B * c := by
    calc A * (1 - 1 / 2 ^ 24) = A / c * (1 - 1 / 2 ^ 24) * c := by rw [mul_right_comm, hAc]
      _ ≤ B * c := mul_le_mul_of_nonneg_right b1 hc'.le
  have b2' : B * c ≤ A * (1 + 1 / 2 ^ 24) := by
    calc B * c ≤ A / c * (1 + 1 / 2 ^ 24) * c := mul_le_mul_of_nonneg_right b2 hc'.le
      _ = _ := by rw [mul_right_comm, hAc]
  have d1' : B * c * (1 - 1 / 2 ^ 24) ≤ d * c := by
    calc B * c * (1 - 1 / 2 ^ 24) = B * (1 - 1 / 2 ^ 24) * c := by ring
      _ ≤ d * c := mul_le_mul_of_nonneg_right d1 hc'.le
  have d2' : d * c ≤ B * c * (1 + 1 / 2 ^ 24) := by
    calc d * c ≤ B * (1 + 1 / 2 ^ 24) * c := mul_le_mul_of_nonneg_right d2 hc'.le
      _ = _ := by ring
  constructor
  · linarith
  · linarith

/-- The same bound, sharper, when only the last rounding is to single precision. -/
theorem decode_rel_fine {N A B d : K} {c : ℕ} (hN : 0 < N) (hc : 0 < c) (hA : RelErr (1 / 2 ^ 53) N A)
    (hB : RelErr (1 / 2 ^ 53) (A / c) B) (hd : RelErr (1 / 2 ^ 24) B d) :
    N * (1 - 1 / 2 ^ 23) ≤ d * c ∧ d * c ≤ N * (1 + 1 / 2 ^ 23) := by
  have hc' : (0 : K) < c := by exact_mod_cast hc
  have hA0 : 0 < A := hA.pos hN (by norm_num)
  have hAc : A / c * c = A := by field_simp
  obtain ⟨a1, a2⟩ := hA
  obtain ⟨b1, b2⟩ := hB
  obtain ⟨d1, d2⟩ := hd
  have b1' : A * (1 - 1 / 2 ^ 53) ≤ B * c := by
    calc A * (1 - 1 / 2 ^ 53) = A / c * (1 - 1 / 2 ^ 53) * c := by rw [mul_right_comm, hAc]
      _ ≤ B * c := mul_le_mul_of_nonneg_right b1 hc'.le
  have b2' : B * c ≤ A * (1 + 1 / 2 ^ 53) := by
    calc B * c ≤ A / c * (1 + 1 / 2 ^ 53) * c := mul_le_mul_of_nonneg_right b2 hc'.le
      _ = _ := by rw [mul_right_comm, hAc]
  have d1' : B * c * (1 - 1 / 2 ^ 24) ≤ d * c := by
    calc B * c * (1 - 1 / 2 ^ 24) = B * (1 - 1 / 2 ^ 24) * c := by ring
      _ ≤ d * c := mul_le_mul_of_nonneg_right d1 hc'.le
  have d2' : d * c ≤ B * c * (1 + 1 / 2 ^ 24) := by
    calc d * c ≤ B * (1 + 1 / 2 ^ 24) * c := mul_le_mul_of_nonneg_right d2 hc'.le
      _ = _ := by ring
  constructor
  · linarith
  · linarith

/-- The number that is truncated when a depth `d > 0` is encoded, up to roundings. -/
theorem encode_rel {e N A q d : K} (hN : 0 < N) (hd : 0 < d) (he0 : 0 ≤ e) (he : e ≤ 1 / 2 ^ 24) (hA : RelErr e N A)
    (hq : RelErr e (A / d) q) : RelErr (3 * e) (N / d) q := by
  have hA0 : 0 < A := hA.pos hN (by linarith [show (1 : K) / 2 ^ 24 < 1 by norm_num])
  have hAd : A / d = A * d⁻¹ := div_eq_mul_inv _ _
  have hi : 0 < d⁻¹ := inv_pos.2 hd
  obtain ⟨a1, a2⟩ := hA
  obtain ⟨q1, q2⟩ := hq
  have hNd : 0 < N / d := div_pos hN hd
  have a1' : N / d * (1 - e) ≤ A / d := by
    rw [div_mul_eq_mul_div]
    exact div_le_div_of_nonneg_right a1 hd.le
  have a2' : A / d ≤ N / d * (1 + e) := by
    rw [div_mul_eq_mul_div]
    exact div_le_div_of_nonneg_right a2 hd.le
  have hsmall : e * e ≤ e := by nlinarith [show (1 : K) / 2 ^ 24 < 1 by norm_num]
  have e1 : (0 : K) ≤ 1 - e := by linarith [show (1 : K) / 2 ^ 24 < 1 by norm_num]
  constructor
  · calc N / d * (1 - 3 * e) ≤ N / d * ((1 - e) * (1 - e)) :=
          mul_le_mul_of_nonneg_left (by nlinarith) hNd.le
      _ = N / d * (1 - e) * (1 - e) := by ring
      _ ≤ A / d * (1 - e) := mul_le_mul_of_nonneg_right a1' e1
      _ ≤ q := q1
  · calc q ≤ A / d * (1 + e) := q2
      _ ≤ N / d * (1 + e) * (1 + e) := mul_le_mul_of_nonneg_right a2' (by linarith)
      _ = N / d * ((1 + e) * (1 + e)) := by ring
      _ ≤ N / d * (1 + 3 * e) := mul_le_mul_of_nonneg_left (by nlinarith) hNd.le

/-- Truncation finds the code back. -/
theorem roundtrip_core {M : ℕ} {N A q s d : K} {c : ℕ} (hM : M ≤ 65535) (hN : 0 < N) (hc : 0 < c) (hcM : c ≤ M)
    (hd : 0 < d) (h1 : N * (1 - 1 / 2 ^ 22) ≤ d * c) (h2 : d * c ≤ N * (1 + 1 / 2 ^ 22))
    (hA : RelErr (1 / 2 ^ 24) N A) (hq : RelErr (1 / 2 ^ 24) (A / d) q) (hs : RelErr (1 / 2 ^ 53) (1 / 2 + q) s) :
    toUint (M + 1) s = some c := by
  have hc' : (0 : K) < c := by exact_mod_cast hc
  have hc65 : (c : K) ≤ 65535 := by exact_mod_cast hcM.trans hM
  obtain ⟨q1, q2⟩ := encode_rel hN hd (by norm_num) le_rfl hA hq
  have r1 : (c : K) * (1 - 1 / 2 ^ 22) ≤ N / d := by
    rw [le_div_iff₀ hd]
    have : d * c * (1 - 1 / 2 ^ 22) ≤ N * (1 + 1 / 2 ^ 22) * (1 - 1 / 2 ^ 22) :=
      mul_le_mul_of_nonneg_right h2 (by norm_num)
    have h3 : N * (1 + 1 / 2 ^ 22) * (1 - 1 / 2 ^ 22) ≤ N := by
      rw [mul_assoc]
      exact mul_le_of_le_one_right hN.le (by norm_num)
    calc (c : K) * (1 - 1 / 2 ^ 22) * d = d * c * (1 - 1 / 2 ^ 22) := by ring
      _ ≤ N := le_trans this h3
  have r2 : N / d ≤ c * (1 + 1 / 2 ^ 21) := by
    rw [div_le_iff₀ hd]
    have : N * (1 - 1 / 2 ^ 22) * (1 + 1 / 2 ^ 21) ≤ d * c * (1 + 1 / 2 ^ 21) :=
      mul_le_mul_of_nonneg_right h1 (by norm_num)
    have h3 : N ≤ N * (1 - 1 / 2 ^ 22) * (1 + 1 / 2 ^ 21) := by
      rw [mul_assoc]
      exact le_mul_of_one_le_right hN.le (by norm_num)
    calc N ≤ d * c * (1 + 1 / 2 ^ 21) := le_trans h3 this
      _ = c * (1 + 1 / 2 ^ 21) * d := by ring
  have t1 : (c : K) - 1 / 4 ≤ q := by
    have := mul_le_mul_of_nonneg_right r1 (show (0 : K) ≤ 1 - 3 * (1 / 2 ^ 24) by norm_num)
    linarith
  have t2 : q ≤ c + 1 / 4 := by
    have := mul_le_mul_of_nonneg_right r2 (show (0 : K) ≤ 1 + 3 * (1 / 2 ^ 24) by norm_num)
    linarith
  obtain ⟨s1, s2⟩ := hs
  apply toUint_eq_some
  · linarith
  · linarith
  · linarith
  · omega

theorem half_toUint {b : ℕ} (hb : 0 < b) : toUint b (1 / 2 : K) = some 0 :=
  toUint_eq_some (by norm_num) (by norm_num) (by norm_num) hb

/-- When the depth is farther than `near`, the number that is truncated is below the number of codes. -/
theorem encode_core {M : ℕ} {e near A q s d : K} (hM0 : 0 < M) (hM : (M : K) * e ≤ 1 / 16) (hM' : M ≤ 65535)
    (hnear : 0 < near) (hd : near < d)
    (he0 : 0 ≤ e) (he : e ≤ 1 / 2 ^ 24) (hA : RelErr e (near * M) A)
    (hq : RelErr e (A / d) q) (hs : RelErr (1 / 2 ^ 53) (1 / 2 + q) s) :
    0 ≤ s ∧ ∃ n, toUint (M + 1) s = some n ∧ n ≤ M ∧
      |(n : K) - near * M / d| ≤ 1 / 2 + 3 * M * e + 1 / 2 ^ 36 := by
  have hd0 : 0 < d := hnear.trans hd
  have hMK : (0 : K) < M := by exact_mod_cast hM0
  have hMK' : (M : K) ≤ 65535 := by exact_mod_cast hM'
  have hN : 0 < near * M := mul_pos hnear hMK
  obtain ⟨q1, q2⟩ := encode_rel hN hd0 he0 he hA hq
  have hx0 : 0 < near * M / d := div_pos hN hd0
  have hxM : near * M / d < M := by
    rw [div_lt_iff₀ hd0, mul_comm]
    exact mul_lt_mul_of_pos_left hd hMK
  set x := near * M / d with hx
  have hxe : x * e ≤ M * e := mul_le_mul_of_nonneg_right hxM.le he0
  have hxe0 : 0 ≤ x * e := mul_nonneg hx0.le he0
  have hq1 : x - 3 * (x * e) ≤ q := by linarith
  have hq2 : q ≤ x + 3 * (x * e) := by linarith
  obtain ⟨s1, s2⟩ := hs
  have hq0 : 0 ≤ q := by
    have : 0 ≤ x * (1 - 3 * e) := mul_nonneg hx0.le (by linarith [show (1 : K) / 2 ^ 24 ≤ 1 / 3 by norm_num])
    linarith
  have hs0 : 0 ≤ s := le_trans (mul_nonneg (by linarith) (by norm_num)) s1
  have hsM : s < ((M + 1 : ℕ) : K) := by
    push_cast
    linarith
  obtain ⟨n, hn⟩ := toUint_isSome hs0 hsM
  obtain ⟨n1, n2, n3⟩ := toUint_some hs0 hn
  refine ⟨hs0, n, hn, by omega, ?_⟩
  rw [abs_le]
  constructor
  · linarith
  · linarith

end Sumo
