import Verif.Model.FloatPoints
import Verif.Lemmas.FloatRotation
import Verif.Spec.Points

/-! Square roots and distances in double precision. -/

namespace Sumo

/-- A computed root as an integer of 53 bits times a power of two. -/
theorem sqrtD_shape {x : ℚ} (hx : 0 < x) : ∃ (k : ℤ) (m : ℕ), sqrtD x = m * 2 ^ k ∧ 2 ^ 52 ≤ m ∧
    x ≤ ((m : ℚ) + 1 / 2) ^ 2 * 4 ^ k ∧ x < 2 ^ 106 * 4 ^ k := by
  set k := Int.log 2 x / 2 - 52 with hk
  set y := x / 4 ^ k with hy
  set n := Nat.sqrt ⌊y⌋.toNat with hn
  set m : ℕ := if y < (n + 1 / 2 : ℚ) ^ 2 then n else if (n + 1 / 2 : ℚ) ^ 2 < y then n + 1 else if n % 2 = 0 then n else n + 1 with hm
  have h4k : (4 : ℚ) ^ k = 2 ^ k * 2 ^ k := by rw [← mul_zpow]; norm_num
  have h4k0 : (0 : ℚ) < 4 ^ k := zpow_pos (by norm_num) _
  have hxy : x = y * 4 ^ k := by rw [hy]; field_simp
  have hlog := Int.zpow_log_le_self (b := 2) (by norm_num) hx
  have hlog' := Int.lt_zpow_succ_log_self (b := 2) (by norm_num) x
  push_cast at hlog hlog'
  have hy104 : (2 : ℚ) ^ 104 ≤ y := by
    rw [hy, le_div_iff₀ h4k0, h4k, ← zpow_add₀ (by norm_num)]
    refine le_trans ?_ hlog
    have e : (2 : ℚ) ^ 104 * 2 ^ (k + k) = 2 ^ (104 + (k + k)) := by
      rw [zpow_add₀ (by norm_num) 104]; norm_num
    rw [e]
    apply zpow_le_zpow_right₀ (by norm_num)
    omega
  have hx106 : x < 2 ^ 106 * 4 ^ k := by
    refine lt_of_lt_of_le hlog' ?_
    rw [h4k, ← zpow_add₀ (by norm_num)]
    have e : (2 : ℚ) ^ 106 * 2 ^ (k + k) = 2 ^ (106 + (k + k)) := by
      rw [zpow_add₀ (by norm_num) 106]; norm_num
    rw [e]
    apply zpow_le_zpow_right₀ (by norm_num)
    omega
  have hfl : (2 : ℤ) ^ 104 ≤ ⌊y⌋ := by rw [Int.le_floor]; push_cast; exact hy104
  have hfl0 : 0 ≤ ⌊y⌋ := le_trans (by norm_num) hfl
  have hnat : ((⌊y⌋.toNat : ℕ) : ℤ) = ⌊y⌋ := Int.toNat_of_nonneg hfl0
  have hn52 : 2 ^ 52 ≤ n := by
    rw [hn, Nat.le_sqrt]
    have : ((2 ^ 52 * 2 ^ 52 : ℕ) : ℤ) ≤ ((⌊y⌋.toNat : ℕ) : ℤ) := by rw [hnat]; norm_num at hfl ⊢; exact hfl
    exact_mod_cast this
  have hhi : y < ((n : ℚ) + 1) ^ 2 := by
    have h1 : ⌊y⌋.toNat < (n + 1) * (n + 1) := Nat.lt_succ_sqrt _
    have h2 : ⌊y⌋ < (((n + 1) * (n + 1) : ℕ) : ℤ) := by rw [← hnat]; exact_mod_cast h1
    have h3 := Int.floor_lt.1 h2
    push_cast at h3
    rw [sq]; exact h3
  have hnq : (2 : ℚ) ^ 52 ≤ n := by exact_mod_cast hn52
  have hmid : y ≤ ((m : ℚ) + 1 / 2) ^ 2 ∧ n ≤ m := by
    rw [hm]
    split_ifs with c1 c2 c3
    · exact ⟨c1.le, le_rfl⟩
    · push_cast; exact ⟨by nlinarith, by omega⟩
    · exact ⟨not_lt.1 c2, le_rfl⟩
    · push_cast; exact ⟨by nlinarith, by omega⟩
  refine ⟨k, m, rfl, hn52.trans hmid.2, ?_, hx106⟩
  calc x = y * 4 ^ k := hxy
    _ ≤ ((m : ℚ) + 1 / 2) ^ 2 * 4 ^ k := mul_le_mul_of_nonneg_right hmid.1 h4k0.le

theorem sqrtD_zero : sqrtD 0 = 0 := by decide +kernel

theorem sqrtD_nonneg {x : ℚ} (hx : 0 ≤ x) : 0 ≤ sqrtD x := by
  rcases hx.eq_or_lt with rfl | hx
  · rw [sqrtD_zero]
  · exact (sqrtD_spec hx).1.le

/-- The root of a rounded square is not below the number. -/
theorem le_sqrtD {t x : ℚ} (ht : IsDouble t) (h0 : 0 ≤ t) (h : double (t * t) ≤ x) : t ≤ sqrtD x := by
  rcases h0.eq_or_lt with rfl | h0
  · exact sqrtD_nonneg (by simpa using h)
  have hx : 0 < x := lt_of_lt_of_le (double_pos (mul_pos h0 h0)) h
  obtain ⟨k, m, e, hm, hhi, hx106⟩ := sqrtD_shape hx
  have h2k : (0 : ℚ) < 2 ^ k := zpow_pos (by norm_num) _
  have h4k : (4 : ℚ) ^ k = 2 ^ k * 2 ^ k := by rw [← mul_zpow]; norm_num
  have hmq : (2 : ℚ) ^ 52 ≤ m := by exact_mod_cast hm
  rw [e]
  rcases le_or_gt t (2 ^ 52 * 2 ^ k) with h1 | h1
  · exact h1.trans (mul_le_mul_of_nonneg_right hmq h2k.le)
  have h53 : t < 2 ^ 53 * 2 ^ k := by
    by_contra hc
    push Not at hc
    have e2 : (2 : ℚ) ^ 106 * 4 ^ k = 2 ^ (106 + (k + k)) := by
      rw [h4k, ← zpow_add₀ (by norm_num), zpow_add₀ (by norm_num) 106]; norm_num
    have : (2 : ℚ) ^ 106 * 4 ^ k ≤ t * t := by
      have := mul_le_mul hc hc (by positivity) h0.le
      calc (2 : ℚ) ^ 106 * 4 ^ k = 2 ^ 53 * 2 ^ k * (2 ^ 53 * 2 ^ k) := by rw [h4k]; ring
        _ ≤ t * t := this
    have h3 := le_double this (by rw [e2]; exact isDouble_zpow _)
    linarith
  obtain ⟨a, b, ha, hab⟩ := ht
  have hbk : k ≤ b := by
    by_contra hc
    push Not at hc
    have e3 : (2 : ℚ) ^ k = 2 ^ b * 2 ^ (k - b) := by rw [← zpow_add₀ (by norm_num)]; congr 1; ring
    have h2b : (0 : ℚ) < 2 ^ b := zpow_pos (by norm_num) _
    have h2 : (2 : ℚ) ≤ 2 ^ (k - b) := by
      have := zpow_le_zpow_right₀ (a := (2 : ℚ)) (by norm_num) (show (1 : ℤ) ≤ k - b by omega)
      simpa using this
    have h3 : (2 : ℚ) ^ 53 * 2 ^ b < a * 2 ^ b := by
      rw [← hab]
      refine lt_of_le_of_lt ?_ h1
      rw [e3]; nlinarith
    have h4 := lt_of_mul_lt_mul_right h3 h2b.le
    have h5 : (a : ℚ) ≤ 2 ^ 53 := by exact_mod_cast (le_abs_self a).trans ha
    linarith
  obtain ⟨c, hc⟩ : ∃ c : ℤ, t = c * 2 ^ k := by
    refine ⟨a * 2 ^ (b - k).toNat, ?_⟩
    rw [hab]
    push_cast
    rw [mul_assoc, ← zpow_natCast, ← zpow_add₀ (by norm_num)]
    congr 2
    omega
  have hc53 : c < 2 ^ 53 := by
    rw [hc] at h53
    exact_mod_cast lt_of_mul_lt_mul_right h53 h2k.le
  have hc52 : 2 ^ 52 < c := by
    rw [hc] at h1
    exact_mod_cast lt_of_mul_lt_mul_right h1 h2k.le
  rw [hc]
  refine mul_le_mul_of_nonneg_right ?_ h2k.le
  by_contra hlt
  push Not at hlt
  have hlt' : (m : ℤ) + 1 ≤ c := by
    have : ((m : ℤ) : ℚ) < c := by exact_mod_cast hlt
    have : (m : ℤ) < c := by exact_mod_cast this
    omega
  have hltq : (m : ℚ) + 1 ≤ c := by exact_mod_cast hlt'
  have hlow := (mul_le_double (mul_self_nonneg t)).trans (h.trans hhi)
  rw [hc, h4k] at hlow
  have hcq : (c : ℚ) ≤ 2 ^ 53 - 1 := by
    have : c ≤ 2 ^ 53 - 1 := by omega
    exact_mod_cast this
  have hcq' : (2 : ℚ) ^ 52 < c := by exact_mod_cast hc52
  have h6 : ((c : ℚ) * c) * (1 - 1 / 2 ^ 53) ≤ ((m : ℚ) + 1 / 2) ^ 2 := by
    have : ((c : ℚ) * c * (1 - 1 / 2 ^ 53)) * (2 ^ k * 2 ^ k) ≤ ((m : ℚ) + 1 / 2) ^ 2 * (2 ^ k * 2 ^ k) := by
      have e5 : ((c : ℚ) * c * (1 - 1 / 2 ^ 53)) * (2 ^ k * 2 ^ k) = c * 2 ^ k * (c * 2 ^ k) * (1 - 1 / 2 ^ 53) := by ring
      rw [e5]; exact hlow
    exact le_of_mul_le_mul_right this (mul_pos h2k h2k)
  have h7 : ((m : ℚ) + 1 / 2) ^ 2 ≤ (c - 1 / 2) ^ 2 := by
    apply pow_le_pow_left₀ (by positivity); linarith
  have h8 : (c : ℚ) * c * (1 / 2 ^ 53) ≤ c - 1 / 2 := by
    have : (c : ℚ) * c ≤ c * (2 ^ 53 - 1) := mul_le_mul_of_nonneg_left hcq (by linarith)
    calc (c : ℚ) * c * (1 / 2 ^ 53) ≤ c * (2 ^ 53 - 1) * (1 / 2 ^ 53) := mul_le_mul_of_nonneg_right this (by norm_num)
      _ = c - c * (1 / 2 ^ 53) := by ring
      _ ≤ c - 1 / 2 := by linarith
  nlinarith

namespace Fl

/-- The exact squared distance. -/
def sqDist (p q : Vec3 ℚ) : ℚ := (p.x - q.x) ^ 2 + (p.y - q.y) ^ 2 + (p.z - q.z) ^ 2

/-- The number under the root of `fdist`. -/
def radicand (p q : Vec3 ℚ) : ℚ :=
  double (double (double (double (p.x - q.x) * double (p.x - q.x)) + double (double (p.y - q.y) * double (p.y - q.y))) +
    double (double (p.z - q.z) * double (p.z - q.z)))

theorem fdist_eq (p q : Vec3 ℚ) : fdist p q = sqrtD (radicand p q) := rfl

theorem sq_nonneg_double (x : ℚ) : 0 ≤ double (x * x) := double_nonneg (mul_self_nonneg x)

theorem le_double_add {a b : ℚ} (hb : 0 ≤ b) : double a ≤ double (double a + b) :=
  le_double (by linarith) (double_isDouble a)

theorem coord_le_radicand (p q : Vec3 ℚ) :
    double (double (p.x - q.x) * double (p.x - q.x)) ≤ radicand p q ∧
    double (double (p.y - q.y) * double (p.y - q.y)) ≤ radicand p q ∧
    double (double (p.z - q.z) * double (p.z - q.z)) ≤ radicand p q := by
  unfold radicand
  have h1 := sq_nonneg_double (double (p.x - q.x))
  have h2 := sq_nonneg_double (double (p.y - q.y))
  have h3 := sq_nonneg_double (double (p.z - q.z))
  refine ⟨(le_double_add h2).trans (le_double_add h3), ?_, ?_⟩
  · refine le_trans ?_ (le_double_add h3)
    rw [add_comm]; exact le_double_add h1
  · rw [add_comm]; exact le_double_add (double_nonneg (by linarith))

theorem radicand_nonneg (p q : Vec3 ℚ) : 0 ≤ radicand p q :=
  (sq_nonneg_double _).trans (coord_le_radicand p q).1

theorem fdist_nonneg (p q : Vec3 ℚ) : 0 ≤ fdist p q := sqrtD_nonneg (radicand_nonneg p q)

theorem fdist_self (p : Vec3 ℚ) : fdist p p = 0 := by
  rw [fdist_eq]
  have : radicand p p = 0 := by simp [radicand]
  rw [this, sqrtD_zero]

theorem double_sub_sq (a b : ℚ) : double (a - b) * double (a - b) = double (b - a) * double (b - a) := by
  have : a - b = -(b - a) := by ring
  rw [this, double_neg, neg_mul_neg]

theorem fdist_comm (p q : Vec3 ℚ) : fdist p q = fdist q p := by
  rw [fdist_eq, fdist_eq]
  unfold radicand
  rw [double_sub_sq p.x, double_sub_sq p.y, double_sub_sq p.z]

theorem radicand_rel (p q : Vec3 ℚ) :
    Rel (radicand p q) (sqDist p q) ((1 - 1 / 2 ^ 53) ^ 6) ((1 + 1 / 2 ^ 53) ^ 6) := by
  have h := sumSq_rel 0 (double (p.x - q.x)) (double (p.y - q.y)) (double (p.z - q.z))
  simp only [mul_zero, double_zero, zero_add, double_double] at h
  have e : (0 : ℚ) ^ 2 = 0 := by norm_num
  rw [e, zero_add] at h
  have hs : Rel (double (p.x - q.x) ^ 2 + double (p.y - q.y) ^ 2 + double (p.z - q.z) ^ 2) (sqDist p q)
      ((1 - 1 / 2 ^ 53) ^ 2) ((1 + 1 / 2 ^ 53) ^ 2) := ((double_sq_rel _).add (double_sq_rel _)).add (double_sq_rel _)
  constructor
  · calc sqDist p q * (1 - 1 / 2 ^ 53) ^ 6 = sqDist p q * (1 - 1 / 2 ^ 53) ^ 2 * (1 - 1 / 2 ^ 53) ^ 4 := by ring
      _ ≤ _ := mul_le_mul_of_nonneg_right hs.1 (by norm_num)
      _ ≤ _ := h.1
  · calc radicand p q ≤ _ := h.2
      _ ≤ sqDist p q * (1 + 1 / 2 ^ 53) ^ 2 * (1 + 1 / 2 ^ 53) ^ 4 := mul_le_mul_of_nonneg_right hs.2 (by norm_num)
      _ = _ := by ring

/-- The computed distance, squared, is the exact one up to a factor. -/
theorem fdist_sq_rel (p q : Vec3 ℚ) :
    sqDist p q * (1 - 1 / 2 ^ 49) ≤ fdist p q ^ 2 ∧ fdist p q ^ 2 ≤ sqDist p q * (1 + 1 / 2 ^ 49) := by
  have hr := radicand_rel p q
  have hD : 0 ≤ sqDist p q := by unfold sqDist; positivity
  rcases (radicand_nonneg p q).eq_or_lt with h0 | h0
  · have hz : sqDist p q = 0 := by
      have := hr.1
      rw [← h0] at this
      by_contra hne
      have hpos := lt_of_le_of_ne hD (Ne.symm hne)
      have : 0 < sqDist p q * (1 - 1 / 2 ^ 53) ^ 6 := mul_pos hpos (by norm_num)
      linarith
    rw [fdist_eq, ← h0, sqrtD_zero, hz]; norm_num
  · obtain ⟨_, h1, h2⟩ := sqrtD_spec h0
    rw [← fdist_eq] at h1 h2
    have hs : 0 ≤ fdist p q ^ 2 := sq_nonneg _
    have a := hr.1.trans h2
    have b := h1.trans hr.2
    constructor
    · have e : (1 - 1 / 2 ^ 49 : ℚ) * (1 + 1 / 2 ^ 51) ≤ (1 - 1 / 2 ^ 53) ^ 6 := by norm_num
      have := (mul_le_mul_of_nonneg_left e hD).trans a
      rw [← mul_assoc] at this
      exact le_of_mul_le_mul_right this (by norm_num)
    · have e : ((1 : ℚ) + 1 / 2 ^ 53) ^ 6 ≤ (1 + 1 / 2 ^ 49) * (1 - 1 / 2 ^ 51) := by norm_num
      have := b.trans (mul_le_mul_of_nonneg_left e hD)
      rw [← mul_assoc] at this
      exact le_of_mul_le_mul_right this (by norm_num)

end Fl
end Sumo
