import Verif.Lemmas.FloatRotation
import Verif.Lemmas.RotationError

/-! The sine computed by `quat_to_euler` in double precision, away from gimbal lock. -/

namespace Sumo
open RotSpec

/-- `a` is `b` up to a relative error of `k`. -/
def Nr (a b k : ℚ) : Prop := |a - b| ≤ k * |b|

theorem nr_double (x : ℚ) : Nr (double x) x (1 / 2 ^ 53) := by
  have := double_err x
  unfold Nr
  rw [div_mul_eq_mul_div, one_mul]
  exact this

theorem Nr.trans {a b c k l : ℚ} (h : Nr a b k) (h' : Nr b c l) (hk : 0 ≤ k) : Nr a c (k + l + k * l) := by
  unfold Nr at *
  have e : a - c = (a - b) + (b - c) := by ring
  have hb : |b| ≤ |c| * (1 + l) := by
    have : b = (b - c) + c := by ring
    rw [this]
    refine (abs_add_le _ _).trans ?_
    linarith
  rw [e]
  refine (abs_add_le _ _).trans ?_
  have := mul_le_mul_of_nonneg_left hb hk
  linarith

theorem Nr.mul_right {a b k : ℚ} (h : Nr a b k) (c : ℚ) : Nr (a * c) (b * c) k := by
  unfold Nr at *
  rw [← sub_mul, abs_mul, abs_mul, ← mul_assoc]
  exact mul_le_mul_of_nonneg_right h (abs_nonneg c)

theorem Nr.mono {a b k l : ℚ} (h : Nr a b k) (hkl : k ≤ l) : Nr a b l :=
  le_trans h (mul_le_mul_of_nonneg_right hkl (abs_nonneg b))

theorem Nr.sq {a b k : ℚ} (h : Nr a b k) (hk : 0 ≤ k) : Nr (a ^ 2) (b ^ 2) (2 * k + k * k) := by
  unfold Nr at *
  have e : a ^ 2 - b ^ 2 = (a - b) * ((a - b) + 2 * b) := by ring
  rw [e, abs_mul, abs_pow]
  have h2 : |a - b + 2 * b| ≤ k * |b| + 2 * |b| := by
    refine (abs_add_le _ _).trans ?_
    rw [abs_mul]
    have : |(2 : ℚ)| = 2 := by norm_num
    rw [this]
    linarith
  have hb := abs_nonneg b
  calc |a - b| * |a - b + 2 * b| ≤ (k * |b|) * (k * |b| + 2 * |b|) := mul_le_mul h h2 (abs_nonneg _) (mul_nonneg hk hb)
    _ = _ := by ring

/-- The three components divided by `S`. -/
theorem small_near (n S D : ℚ) : Nr (double (double (double n / S) / D)) ((1 / (S * D)) * n) (64 / 2 ^ 53) := by
  have h1 := (nr_double n).mul_right (1 / S)
  have h2 := (nr_double (double n / S)).trans (c := n * (1 / S)) (l := 1 / 2 ^ 53) (by
    have e : double n / S = double n * (1 / S) := by rw [mul_one_div]
    rw [e]; exact h1) (by norm_num)
  have h3 := h2.mul_right (1 / D)
  have h4 := (nr_double (double (double n / S) / D)).trans (c := n * (1 / S) * (1 / D)) (l := 1 / 2 ^ 53 + 1 / 2 ^ 53 + 1 / 2 ^ 53 * (1 / 2 ^ 53)) (by
    have e : double (double n / S) / D = double (double n / S) * (1 / D) := by rw [mul_one_div]
    rw [e]; exact h3) (by norm_num)
  have e : n * (1 / S) * (1 / D) = 1 / (S * D) * n := by
    rw [one_div_mul_eq_div, mul_assoc, one_div_mul_one_div, mul_one_div]
  rw [e] at h4
  exact h4.mono (by norm_num)

/-- The component `S/4`. -/
theorem big_near {r' r D : ℚ} (hr : 1 / 2 ≤ r) (he : |r' - r| ≤ 20 / 2 ^ 53) (hD : D ≠ 0) :
    Nr (double (double (0.25 * double (sqrtD r' * 2)) / D)) ((1 / (double (sqrtD r' * 2) * D)) * r) (64 / 2 ^ 53) := by
  have hr' : 0 < r' := by
    rw [abs_le] at he
    have := he.1
    norm_num at this ⊢
    linarith
  obtain ⟨s0, s1, s2⟩ := sqrtD_spec hr'
  set R := sqrtD r' with hR
  have hS0 : 0 < double (R * 2) := double_pos (mul_pos s0 (by norm_num))
  set S := double (R * 2) with hS
  have n1 : Nr r' r (40 / 2 ^ 53) := by
    unfold Nr
    rw [abs_of_pos (show (0 : ℚ) < r by linarith)]
    refine he.trans ?_
    have := mul_le_mul_of_nonneg_left hr (show (0 : ℚ) ≤ 40 / 2 ^ 53 by norm_num)
    refine le_trans ?_ this
    norm_num
  have n2 : Nr (R ^ 2) r' (5 / 2 ^ 53) := by
    unfold Nr
    rw [abs_of_pos hr', abs_le]
    have hR2 : 0 < R ^ 2 := by positivity
    norm_num at s1 s2 ⊢
    constructor <;> linarith
  have n3 : Nr (S ^ 2) ((R * 2) ^ 2) (2 * (1 / 2 ^ 53) + 1 / 2 ^ 53 * (1 / 2 ^ 53)) := (nr_double (R * 2)).sq (by norm_num)
  have n4 := n2.trans n1 (by norm_num)
  have n5 := n4.mul_right 4
  have e : (R * 2) ^ 2 = R ^ 2 * 4 := by ring
  rw [e] at n3
  have n6 := n3.trans n5 (by norm_num)
  have n7 := n6.mul_right (1 / 4 * (1 / (S * D)))
  have e7 : S ^ 2 * (1 / 4 * (1 / (S * D))) = 0.25 * S * (1 / D) := by
    have := hS0.ne'
    norm_num
    field_simp
  have e7' : r * 4 * (1 / 4 * (1 / (S * D))) = 1 / (S * D) * r := by ring
  rw [e7, e7'] at n7
  have n8 := ((nr_double (0.25 * S)).mul_right (1 / D)).trans n7 (by norm_num)
  have n9 := (nr_double (double (0.25 * S) / D)).trans (by
    have e9 : double (0.25 * S) / D = double (0.25 * S) * (1 / D) := by rw [mul_one_div]
    rw [e9]; exact n8) (by norm_num)
  exact n9.mono (by norm_num)

theorem radicand_near {a b c : ℚ} (ha : |a| ≤ 2) (hb : |b| ≤ 2) (hc : |c| ≤ 2) :
    |double (double (double (1.0 + a) - b) - c) - (1 + a - b - c)| ≤ 20 / 2 ^ 53 := by
  rw [abs_le] at ha hb hc
  have e1 := double_err (1.0 + a)
  have n1 : |1.0 + a| ≤ 3 := by rw [abs_le]; constructor <;> norm_num <;> linarith
  have f1 : |double (1.0 + a) - (1.0 + a)| ≤ 3 / 2 ^ 53 := e1.trans (div_le_div_of_nonneg_right n1 (by norm_num))
  rw [abs_le] at f1
  set r1 := double (1.0 + a) with hr1
  have e2 := double_err (r1 - b)
  have n2 : |r1 - b| ≤ 6 := by rw [abs_le]; constructor <;> norm_num at f1 ⊢ <;> linarith
  have f2 : |double (r1 - b) - (r1 - b)| ≤ 6 / 2 ^ 53 := e2.trans (div_le_div_of_nonneg_right n2 (by norm_num))
  rw [abs_le] at f2
  set r2 := double (r1 - b) with hr2
  have e3 := double_err (r2 - c)
  have n3 : |r2 - c| ≤ 9 := by rw [abs_le]; constructor <;> norm_num at f1 f2 ⊢ <;> linarith
  have f3 : |double (r2 - c) - (r2 - c)| ≤ 9 / 2 ^ 53 := e3.trans (div_le_div_of_nonneg_right n3 (by norm_num))
  rw [abs_le] at f3 ⊢
  norm_num at f1 f2 f3 ⊢
  constructor <;> linarith

theorem trace_near {a b c : ℚ} (ha : |a| ≤ 2) (hb : |b| ≤ 2) (hc : |c| ≤ 2) :
    |double (double (a + b) + c) - (a + b + c)| ≤ 11 / 2 ^ 53 ∧ |double (double (double (a + b) + c) + 1.0) - (1 + a + b + c)| ≤ 20 / 2 ^ 53 := by
  rw [abs_le] at ha hb hc
  have e1 := double_err (a + b)
  have n1 : |a + b| ≤ 4 := by rw [abs_le]; constructor <;> linarith
  have f1 : |double (a + b) - (a + b)| ≤ 4 / 2 ^ 53 := e1.trans (div_le_div_of_nonneg_right n1 (by norm_num))
  rw [abs_le] at f1
  set r1 := double (a + b) with hr1
  have e2 := double_err (r1 + c)
  have n2 : |r1 + c| ≤ 7 := by rw [abs_le]; constructor <;> norm_num at f1 ⊢ <;> linarith
  have f2 : |double (r1 + c) - (r1 + c)| ≤ 7 / 2 ^ 53 := e2.trans (div_le_div_of_nonneg_right n2 (by norm_num))
  rw [abs_le] at f2
  set r2 := double (r1 + c) with hr2
  have e3 := double_err (r2 + 1.0)
  have n3 : |r2 + 1.0| ≤ 8 := by rw [abs_le]; constructor <;> norm_num at f1 f2 ⊢ <;> linarith
  have f3 : |double (r2 + 1.0) - (r2 + 1.0)| ≤ 8 / 2 ^ 53 := e3.trans (div_le_div_of_nonneg_right n3 (by norm_num))
  rw [abs_le] at f3 ⊢
  rw [abs_le]
  norm_num at f1 f2 f3 ⊢
  constructor <;> constructor <;> linarith

/-- The computed quaternion is the row `v` of the matrix, scaled. -/
def Scaled (q v : Quat ℚ) : Prop := ∃ l : ℚ, 0 < l ∧ Nr q.w (l * v.w) (64 / 2 ^ 53) ∧ Nr q.x (l * v.x) (64 / 2 ^ 53) ∧
  Nr q.y (l * v.y) (64 / 2 ^ 53) ∧ Nr q.z (l * v.z) (64 / 2 ^ 53)

/-- The divisor of the normalisation. -/
def normD (q : Quat ℚ) : ℚ :=
  sqrtD (double (double (double (double (q.w * q.w) + double (q.x * q.x)) + double (q.y * q.y)) + double (q.z * q.z)))

theorem normD_pos (p : Quat ℚ) (hp : 0 < p.w ^ 2 + p.x ^ 2 + p.y ^ 2 + p.z ^ 2) : 0 < normD p := by
  have hrel := sumSq_rel p.w p.x p.y p.z
  exact (sqrtD_spec (lt_of_lt_of_le (mul_pos hp (by norm_num)) hrel.1)).1

/-- The row of the matrix that `matrix_to_quat` uses, with the number under the root. -/
inductive RowOf (M : Mat3 ℚ) : Quat ℚ → ℚ → Prop
  | w : RowOf M ⟨1 + M.m00 + M.m11 + M.m22, M.m21 - M.m12, M.m02 - M.m20, M.m10 - M.m01⟩ (1 + M.m00 + M.m11 + M.m22)
  | x : RowOf M ⟨M.m21 - M.m12, 1 + M.m00 - M.m11 - M.m22, M.m01 + M.m10, M.m02 + M.m20⟩ (1 + M.m00 - M.m11 - M.m22)
  | y : RowOf M ⟨M.m02 - M.m20, M.m01 + M.m10, 1 + M.m11 - M.m00 - M.m22, M.m12 + M.m21⟩ (1 + M.m11 - M.m00 - M.m22)
  | z : RowOf M ⟨M.m10 - M.m01, M.m02 + M.m20, M.m12 + M.m21, 1 + M.m22 - M.m00 - M.m11⟩ (1 + M.m22 - M.m00 - M.m11)

theorem matrixToQuat_scaled (M : Mat3 ℚ) (h0 : |M.m00| ≤ 2) (h1 : |M.m11| ≤ 2) (h2 : |M.m22| ≤ 2) :
    ∃ v r, RowOf M v r ∧ 1 / 2 ≤ r ∧ Scaled (Fl.matrixToQuat M) v := by
  have spos : ∀ r : ℚ, 1 / 2 ≤ r → ∀ r', |r' - r| ≤ 20 / 2 ^ 53 → 0 < double (sqrtD r' * 2) := fun r hr r' he => by
    have hr' : 0 < r' := by
      rw [abs_le] at he
      have := he.1
      norm_num at this ⊢
      linarith
    exact double_pos (mul_pos (sqrtD_spec hr').1 (by norm_num))
  have tr := trace_near h0 h1 h2
  have hq : Fl.matrixToQuat M = Fl.matrixToQuat M := rfl
  conv_rhs at hq => unfold Fl.matrixToQuat
  simp only at hq
  split_ifs at hq with c1 c2 c3
  all_goals rw [hq]
  · have hr : 1 / 2 ≤ 1 + M.m00 + M.m11 + M.m22 := by
      have := (abs_le.1 tr.1).2
      norm_num at this ⊢
      linarith
    refine ⟨_, _, .w, hr, ?_⟩
    set r' := double (double (double (M.m00 + M.m11) + M.m22) + 1.0) with hr'
    have hS := spos _ hr _ tr.2
    set S := double (sqrtD r' * 2) with hSd
    set p : Quat ℚ := ⟨double (0.25 * S), double (double (M.m21 - M.m12) / S), double (double (M.m02 - M.m20) / S), double (double (M.m10 - M.m01) / S)⟩ with hp
    have hD : 0 < normD p := normD_pos p (by
      have : 0 < p.w ^ 2 := pow_pos (double_pos (mul_pos (by norm_num) hS)) 2
      positivity)
    exact ⟨1 / (S * normD p), by positivity, big_near hr tr.2 hD.ne', small_near _ _ _, small_near _ _ _, small_near _ _ _⟩
  all_goals
    have sum : M.m00 + M.m11 + M.m22 ≤ 1 / 4 := by
      have := (abs_le.1 tr.1).1
      have c1' := not_lt.1 c1
      norm_num at this ⊢
      linarith
  · have e := radicand_near h0 h1 h2
    have hr : 1 / 2 ≤ 1 + M.m00 - M.m11 - M.m22 := by
      obtain ⟨ca, cb⟩ := c2
      rcases le_total 0 M.m00 with h | h <;> linarith
    refine ⟨_, _, .x, hr, ?_⟩
    set r' := double (double (double (1.0 + M.m00) - M.m11) - M.m22) with hr'
    have hS := spos _ hr _ e
    set S := double (sqrtD r' * 2) with hSd
    set p : Quat ℚ := ⟨double (double (M.m21 - M.m12) / S), double (0.25 * S), double (double (M.m01 + M.m10) / S), double (double (M.m02 + M.m20) / S)⟩ with hp
    have hD : 0 < normD p := normD_pos p (by
      have : 0 < p.x ^ 2 := pow_pos (double_pos (mul_pos (by norm_num) hS)) 2
      positivity)
    exact ⟨1 / (S * normD p), by positivity, small_near _ _ _, big_near hr e hD.ne', small_near _ _ _, small_near _ _ _⟩
  · have e := radicand_near h1 h0 h2
    have h01 : M.m00 ≤ M.m11 := by
      by_contra h
      exact c2 ⟨not_le.1 h, c3.trans (not_le.1 h)⟩
    have hr : 1 / 2 ≤ 1 + M.m11 - M.m00 - M.m22 := by
      rcases le_total 0 M.m11 with h | h <;> linarith
    refine ⟨_, _, .y, hr, ?_⟩
    set r' := double (double (double (1.0 + M.m11) - M.m00) - M.m22) with hr'
    have hS := spos _ hr _ e
    set S := double (sqrtD r' * 2) with hSd
    set p : Quat ℚ := ⟨double (double (M.m02 - M.m20) / S), double (double (M.m01 + M.m10) / S), double (0.25 * S), double (double (M.m12 + M.m21) / S)⟩ with hp
    have hD : 0 < normD p := normD_pos p (by
      have : 0 < p.y ^ 2 := pow_pos (double_pos (mul_pos (by norm_num) hS)) 2
      positivity)
    exact ⟨1 / (S * normD p), by positivity, small_near _ _ _, small_near _ _ _, big_near hr e hD.ne', small_near _ _ _⟩
  · have e := radicand_near h2 h0 h1
    have h12 : M.m11 ≤ M.m22 := not_lt.1 c3
    have h02 : M.m00 ≤ M.m22 := by
      by_contra h
      exact c2 ⟨lt_of_le_of_lt h12 (not_le.1 h), not_le.1 h⟩
    have hr : 1 / 2 ≤ 1 + M.m22 - M.m00 - M.m11 := by
      rcases le_total 0 M.m22 with h | h <;> linarith
    refine ⟨_, _, .z, hr, ?_⟩
    set r' := double (double (double (1.0 + M.m22) - M.m00) - M.m11) with hr'
    have hS := spos _ hr _ e
    set S := double (sqrtD r' * 2) with hSd
    set p : Quat ℚ := ⟨double (double (M.m10 - M.m01) / S), double (double (M.m02 + M.m20) / S), double (double (M.m12 + M.m21) / S), double (0.25 * S)⟩ with hp
    have hD : 0 < normD p := normD_pos p (by
      have : 0 < p.z ^ 2 := pow_pos (double_pos (mul_pos (by norm_num) hS)) 2
      positivity)
    exact ⟨1 / (S * normD p), by positivity, small_near _ _ _, small_near _ _ _, small_near _ _ _, big_near hr e hD.ne'⟩

/-- Squares move little. -/
theorem sq_perturb {A A' h : ℝ} (hA : |A| ≤ 8) (h' : |A' - A| ≤ 2 * h) : A ^ 2 - 32 * h ≤ A' ^ 2 := by
  rw [abs_le] at hA h'
  nlinarith [sq_nonneg (A' - A), mul_nonneg (sub_nonneg.2 hA.1) (sub_nonneg.2 h'.1), mul_nonneg (sub_nonneg.2 hA.2) (sub_nonneg.2 h'.1),
    mul_nonneg (sub_nonneg.2 hA.1) (sub_nonneg.2 h'.2), mul_nonneg (sub_nonneg.2 hA.2) (sub_nonneg.2 h'.2)]

/-- A vector close to a multiple of a unit quaternion away from gimbal lock is away from gimbal lock when scaled to length 1. -/
theorem safe_core {w x y z a b c d k l : ℝ} (hu : a ^ 2 + b ^ 2 + c ^ 2 + d ^ 2 = 1) (hk : k ^ 2 ≤ 1) (hk' : 3 / 2 ≤ 16 * k ^ 2)
    (hs1 : 2 * (a * c - b * d) ≤ 1 - 1 / 2 ^ 36) (hs2 : -(1 - 1 / 2 ^ 36) ≤ 2 * (a * c - b * d))
    (hw : |w - 4 * k * a| ≤ 1 / 2 ^ 44) (hx : |x - 4 * k * b| ≤ 1 / 2 ^ 44) (hy : |y - 4 * k * c| ≤ 1 / 2 ^ 44) (hz : |z - 4 * k * d| ≤ 1 / 2 ^ 44)
    (hn : 1 - 12 / 2 ^ 53 ≤ l ^ 2 * (w ^ 2 + x ^ 2 + y ^ 2 + z ^ 2)) (hn' : l ^ 2 * (w ^ 2 + x ^ 2 + y ^ 2 + z ^ 2) ≤ 1 + 12 / 2 ^ 53) :
    |2 * (l ^ 2 * (w * y - x * z))| ≤ 1 - 1 / 2 ^ 41 := by
  have hk1 : |k| ≤ 1 := by rw [← sq_le_one_iff_abs_le_one]; exact hk
  have ha : ∀ t : ℝ, t ^ 2 ≤ 1 → |4 * k * t| ≤ 4 := by
    intro t ht
    have ht1 : |t| ≤ 1 := by rw [← sq_le_one_iff_abs_le_one]; exact ht
    rw [abs_mul, abs_mul]
    have h4 : |(4 : ℝ)| = 4 := by norm_num
    rw [h4]
    nlinarith [abs_nonneg k, abs_nonneg t]
  have qa := sq_nonneg a
  have qb := sq_nonneg b
  have qc := sq_nonneg c
  have qd := sq_nonneg d
  have Aa := ha a (by linarith)
  have Ab := ha b (by linarith)
  have Ac := ha c (by linarith)
  have Ad := ha d (by linarith)
  have bound : ∀ t t' : ℝ, |t| ≤ 4 → |t' - t| ≤ 1 / 2 ^ 44 → t' ^ 2 ≤ t ^ 2 + 1 / 4 := by
    intro t t' h1 h2
    rw [abs_le] at h1 h2
    norm_num at h2
    nlinarith
  have hsum : w ^ 2 + x ^ 2 + y ^ 2 + z ^ 2 ≤ 17 := by
    have e : (4 * k * a) ^ 2 + (4 * k * b) ^ 2 + (4 * k * c) ^ 2 + (4 * k * d) ^ 2 = 16 * k ^ 2 := by
      linear_combination 16 * k ^ 2 * hu
    linarith [bound _ _ Aa hw, bound _ _ Ab hx, bound _ _ Ac hy, bound _ _ Ad hz]
  have hl0 := sq_nonneg l
  have hl : 1 / 18 ≤ l ^ 2 := by
    have := mul_le_mul_of_nonneg_left hsum hl0
    norm_num at hn ⊢
    linarith
  have two : ∀ p q p' q' : ℝ, |p'| ≤ 4 → |q'| ≤ 4 → |p - p'| ≤ 1 / 2 ^ 44 → |q - q'| ≤ 1 / 2 ^ 44 →
      (p' - q') ^ 2 - 32 * (1 / 2 ^ 44) ≤ (p - q) ^ 2 ∧ (p' + q') ^ 2 - 32 * (1 / 2 ^ 44) ≤ (p + q) ^ 2 := by
    intro p q p' q' h1 h2 h3 h4
    constructor
    · apply sq_perturb
      · exact (abs_sub _ _).trans (by linarith)
      · have e : p - q - (p' - q') = (p - p') - (q - q') := by ring
        rw [e]
        exact (abs_sub _ _).trans (by linarith)
    · apply sq_perturb
      · exact (abs_add_le _ _).trans (by linarith)
      · have e : p + q - (p' + q') = (p - p') + (q - q') := by ring
        rw [e]
        exact (abs_add_le _ _).trans (by linarith)
  obtain ⟨w1, w2⟩ := two w y _ _ Aa Ac hw hy
  obtain ⟨x1, x2⟩ := two x z _ _ Ab Ad hx hz
  have g1 : (w - y) ^ 2 + (x + z) ^ 2 = w ^ 2 + x ^ 2 + y ^ 2 + z ^ 2 - 2 * (w * y - x * z) := by ring
  have g2 : (w + y) ^ 2 + (x - z) ^ 2 = w ^ 2 + x ^ 2 + y ^ 2 + z ^ 2 + 2 * (w * y - x * z) := by ring
  have e1 : (4 * k * a - 4 * k * c) ^ 2 + (4 * k * b + 4 * k * d) ^ 2 = 16 * k ^ 2 * (1 - 2 * (a * c - b * d)) := by
    linear_combination 16 * k ^ 2 * hu
  have e2 : (4 * k * a + 4 * k * c) ^ 2 + (4 * k * b - 4 * k * d) ^ 2 = 16 * k ^ 2 * (1 + 2 * (a * c - b * d)) := by
    linear_combination 16 * k ^ 2 * hu
  have f1 : 3 / 2 * (1 / 2 ^ 36) ≤ 16 * k ^ 2 * (1 - 2 * (a * c - b * d)) :=
    mul_le_mul hk' (by linarith) (by norm_num) (by positivity)
  have f2 : 3 / 2 * (1 / 2 ^ 36) ≤ 16 * k ^ 2 * (1 + 2 * (a * c - b * d)) :=
    mul_le_mul hk' (by linarith) (by norm_num) (by positivity)
  have G1 : 1 / 2 ^ 36 ≤ w ^ 2 + x ^ 2 + y ^ 2 + z ^ 2 - 2 * (w * y - x * z) := by
    rw [← g1]
    norm_num at w1 x2 f1 e1 ⊢
    linarith
  have G2 : 1 / 2 ^ 36 ≤ w ^ 2 + x ^ 2 + y ^ 2 + z ^ 2 + 2 * (w * y - x * z) := by
    rw [← g2]
    norm_num at w2 x1 f2 e2 ⊢
    linarith
  have H1 := mul_le_mul hl G1 (by norm_num) hl0
  have H2 := mul_le_mul hl G2 (by norm_num) hl0
  rw [abs_le]
  norm_num at H1 H2 hn' ⊢
  constructor <;> linarith

theorem abs_near {a b k : ℚ} {l : ℚ} (hl : 0 < l) (h : Nr a (l * b) k) : |(a / l : ℝ) - b| ≤ k * |(b : ℝ)| := by
  have h' : |a / l - b| ≤ k * |b| := by
    have e : a / l - b = (a - l * b) / l := by field_simp
    rw [e, abs_div, abs_of_pos hl, div_le_iff₀ hl]
    unfold Nr at h
    rw [abs_mul, abs_of_pos hl] at h
    linarith
  have := (Rat.cast_le (K := ℝ)).2 h'
  push_cast at this
  exact this

/-- The row used is a multiple of the exact quaternion, up to the errors in the entries. -/
theorem row_near {M : Mat3 ℚ} {X : Mat3 ℝ} {Q : Quat ℝ} (hQ : IsQuatOf Q X) {v : Quat ℚ} {r : ℚ} (hrow : RowOf M v r) (hr : (1 / 2 : ℝ) ≤ r)
    {e : ℝ} (he : e ≤ 1 / 32)
    (h00 : |(M.m00 : ℝ) - X.m00| ≤ e) (h01 : |(M.m01 : ℝ) - X.m01| ≤ e) (h02 : |(M.m02 : ℝ) - X.m02| ≤ e)
    (h10 : |(M.m10 : ℝ) - X.m10| ≤ e) (h11 : |(M.m11 : ℝ) - X.m11| ≤ e) (h12 : |(M.m12 : ℝ) - X.m12| ≤ e)
    (h20 : |(M.m20 : ℝ) - X.m20| ≤ e) (h21 : |(M.m21 : ℝ) - X.m21| ≤ e) (h22 : |(M.m22 : ℝ) - X.m22| ≤ e) :
    ∃ k : ℝ, k ^ 2 ≤ 1 ∧ 3 / 2 ≤ 16 * k ^ 2 ∧ |(v.w : ℝ) - 4 * k * Q.w| ≤ 3 * e ∧ |(v.x : ℝ) - 4 * k * Q.x| ≤ 3 * e ∧
      |(v.y : ℝ) - 4 * k * Q.y| ≤ 3 * e ∧ |(v.z : ℝ) - 4 * k * Q.z| ≤ 3 * e := by
  have hu := hQ.unit
  have qw := sq_nonneg Q.w
  have qx := sq_nonneg Q.x
  have qy := sq_nonneg Q.y
  have qz := sq_nonneg Q.z
  obtain ⟨ww, wx, wy, wz, xx, xy, xz, yy, yz, zz⟩ := hQ
  rw [abs_le] at *
  cases hrow with
  | w =>
    refine ⟨Q.w, by linarith, ?_, ?_⟩
    · push_cast at hr; linarith
    · simp only [abs_le]; push_cast; refine ⟨?_, ?_, ?_, ?_⟩ <;> constructor <;> linarith
  | x =>
    refine ⟨Q.x, by linarith, ?_, ?_⟩
    · push_cast at hr; linarith
    · simp only [abs_le]; push_cast; refine ⟨?_, ?_, ?_, ?_⟩ <;> constructor <;> linarith
  | y =>
    refine ⟨Q.y, by linarith, ?_, ?_⟩
    · push_cast at hr; linarith
    · simp only [abs_le]; push_cast; refine ⟨?_, ?_, ?_, ?_⟩ <;> constructor <;> linarith
  | z =>
    refine ⟨Q.z, by linarith, ?_, ?_⟩
    · push_cast at hr; linarith
    · simp only [abs_le]; push_cast; refine ⟨?_, ?_, ?_, ?_⟩ <;> constructor <;> linarith

theorem diag_le {m : ℚ} {x : ℝ} (h1 : |(m : ℝ) - x| ≤ 1 / 2 ^ 50) (h2 : |x| ≤ 1) : |m| ≤ 2 := by
  have : |(m : ℝ)| ≤ 2 := by
    have e : (m : ℝ) = (m - x) + x := by ring
    rw [e]
    refine (abs_add_le _ _).trans ?_
    norm_num at h1 ⊢
    linarith
  have h3 : ((|m| : ℚ) : ℝ) ≤ ((2 : ℚ) : ℝ) := by push_cast; exact this
  exact Rat.cast_le.1 h3

theorem comp_near {q v l : ℚ} {k t : ℝ} (hl : 0 < l) (hn : Nr q (l * v) (64 / 2 ^ 53)) (hv : |(v : ℝ) - 4 * k * t| ≤ 3 * (1 / 2 ^ 50))
    (h4 : |4 * k * t| ≤ 4) : |(q / l : ℝ) - 4 * k * t| ≤ 1 / 2 ^ 44 := by
  have h1 := abs_near hl hn
  have hv5 : |(v : ℝ)| ≤ 5 := by
    have e : (v : ℝ) = (v - 4 * k * t) + 4 * k * t := by ring
    rw [e]
    refine (abs_add_le _ _).trans ((add_le_add hv h4).trans ?_)
    norm_num
  have e : (q / l : ℝ) - 4 * k * t = ((q / l : ℝ) - v) + (v - 4 * k * t) := by ring
  rw [e]
  refine (abs_add_le _ _).trans ?_
  push_cast at h1
  norm_num at h1 hv ⊢
  linarith

/-- Away from gimbal lock the computed sine is at most 1. -/
theorem asinArg_safe (M : Mat3 ℚ) (X : Mat3 ℝ) (hX : IsRotation X)
    (h00 : |(M.m00 : ℝ) - X.m00| ≤ 1 / 2 ^ 50) (h01 : |(M.m01 : ℝ) - X.m01| ≤ 1 / 2 ^ 50) (h02 : |(M.m02 : ℝ) - X.m02| ≤ 1 / 2 ^ 50)
    (h10 : |(M.m10 : ℝ) - X.m10| ≤ 1 / 2 ^ 50) (h11 : |(M.m11 : ℝ) - X.m11| ≤ 1 / 2 ^ 50) (h12 : |(M.m12 : ℝ) - X.m12| ≤ 1 / 2 ^ 50)
    (h20 : |(M.m20 : ℝ) - X.m20| ≤ 1 / 2 ^ 50) (h21 : |(M.m21 : ℝ) - X.m21| ≤ 1 / 2 ^ 50) (h22 : |(M.m22 : ℝ) - X.m22| ≤ 1 / 2 ^ 50)
    (hg : |X.m20| ≤ 1 - 1 / 2 ^ 36) : |Fl.asinArg (Fl.matrixToQuat M)| ≤ 1 := by
  have hQ := matrixToQuat_isQuatOf hX
  set Q := matrixToQuat X with hQd
  have hu := hQ.unit
  have qw := sq_nonneg Q.w
  have qx := sq_nonneg Q.x
  have qy := sq_nonneg Q.y
  have qz := sq_nonneg Q.z
  have d0 := diag_le h00 (by rw [hQ.entries, abs_le]; constructor <;> simp only <;> nlinarith)
  have d1 := diag_le h11 (by rw [hQ.entries, abs_le]; constructor <;> simp only <;> nlinarith)
  have d2 := diag_le h22 (by rw [hQ.entries, abs_le]; constructor <;> simp only <;> nlinarith)
  obtain ⟨u1, u2⟩ := matrixToQuat_unit M d0 d1 d2
  obtain ⟨v, r, hrow, hr, l, hl, nw, nx, ny, nz⟩ := matrixToQuat_scaled M d0 d1 d2
  have near := asinArg_near _ u2
  set q := Fl.matrixToQuat M with hq
  have hlR : (0 : ℝ) < l := by exact_mod_cast hl
  have sin1 : 2 * (Q.w * Q.y - Q.x * Q.z) = -X.m20 := by linarith [hQ.wy, hQ.xz]
  rw [abs_le] at hg
  have hrR : (1 / 2 : ℝ) ≤ r := by
    have : ((1 / 2 : ℚ) : ℝ) ≤ (r : ℝ) := Rat.cast_le.2 hr
    push_cast at this; exact this
  obtain ⟨k, hk, hk3, vw, vx, vy, vz⟩ := row_near hQ hrow hrR (by norm_num) h00 h01 h02 h10 h11 h12 h20 h21 h22
  have hk1 : |k| ≤ 1 := by rw [← sq_le_one_iff_abs_le_one]; exact hk
  have h4 : ∀ t : ℝ, t ^ 2 ≤ 1 → |4 * k * t| ≤ 4 := by
    intro t ht
    have ht1 : |t| ≤ 1 := by rw [← sq_le_one_iff_abs_le_one]; exact ht
    rw [abs_mul, abs_mul]
    have h4 : |(4 : ℝ)| = 4 := by norm_num
    rw [h4]
    nlinarith [abs_nonneg k, abs_nonneg t]
  have cw := comp_near hl nw vw (h4 _ (by linarith))
  have cx := comp_near hl nx vx (h4 _ (by linarith))
  have cy := comp_near hl ny vy (h4 _ (by linarith))
  have cz := comp_near hl nz vz (h4 _ (by linarith))
  have eN : (l : ℝ) ^ 2 * ((q.w / l) ^ 2 + (q.x / l) ^ 2 + (q.y / l) ^ 2 + (q.z / l) ^ 2) = ((q.w ^ 2 + q.x ^ 2 + q.y ^ 2 + q.z ^ 2 : ℚ) : ℝ) := by
    push_cast; field_simp
  have U1 : (1 : ℝ) - 12 / 2 ^ 53 ≤ ((q.w ^ 2 + q.x ^ 2 + q.y ^ 2 + q.z ^ 2 : ℚ) : ℝ) := by
    have := (Rat.cast_le (K := ℝ)).2 u1
    refine le_trans (le_of_eq ?_) this
    push_cast; rfl
  have U2 : ((q.w ^ 2 + q.x ^ 2 + q.y ^ 2 + q.z ^ 2 : ℚ) : ℝ) ≤ (1 : ℝ) + 12 / 2 ^ 53 := by
    have := (Rat.cast_le (K := ℝ)).2 u2
    refine le_trans this (le_of_eq ?_)
    push_cast; rfl
  have core := safe_core hu hk hk3 (by rw [sin1]; linarith [hg.1]) (by rw [sin1]; linarith [hg.2]) cw cx cy cz (l := (l : ℝ)) (by rw [eN]; exact U1) (by rw [eN]; exact U2)
  have eS : 2 * ((l : ℝ) ^ 2 * (q.w / l * (q.y / l) - q.x / l * (q.z / l))) = ((2 * (q.w * q.y - q.x * q.z) : ℚ) : ℝ) := by
    push_cast; field_simp
  rw [eS] at core
  have core' : |2 * (q.w * q.y - q.x * q.z)| ≤ 1 - 1 / 2 ^ 41 := by
    apply (Rat.cast_le (K := ℝ)).1
    refine le_trans (le_of_eq (Rat.cast_abs _)) (core.trans (le_of_eq ?_))
    push_cast; rfl
  have e : Fl.asinArg q = (Fl.asinArg q - 2 * (q.w * q.y - q.x * q.z)) + 2 * (q.w * q.y - q.x * q.z) := by ring
  rw [e]
  refine (abs_add_le _ _).trans ((add_le_add near core').trans ?_)
  norm_num

end Sumo
