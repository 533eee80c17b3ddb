import Verif.Model.FloatRotation
import Verif.Lemmas.Double

/-! Square roots and unit quaternions in double precision. -/

namespace Sumo

theorem sqrtD_spec {x : ℚ} (hx : 0 < x) :
    0 < sqrtD x ∧ sqrtD x ^ 2 * (1 - 1 / 2 ^ 51) ≤ x ∧ x ≤ sqrtD x ^ 2 * (1 + 1 / 2 ^ 51) := by
  set k := Int.log 2 x / 2 - 52 with hk
  set y := x / 4 ^ k with hy
  set n := Nat.sqrt ⌊y⌋.toNat with hn
  set m : ℕ := if y < (n + 1 / 2 : ℚ) ^ 2 then n else if (n + 1 / 2 : ℚ) ^ 2 < y then n + 1 else if n % 2 = 0 then n else n + 1 with hm
  have hs : sqrtD x = m * 2 ^ k := rfl
  have h2k : (0 : ℚ) < 2 ^ k := zpow_pos (by norm_num) _
  have h4k : (4 : ℚ) ^ k = 2 ^ k * 2 ^ k := by rw [← mul_zpow]; norm_num
  have h4k0 : (0 : ℚ) < 4 ^ k := zpow_pos (by norm_num) _
  have hxy : x = y * 4 ^ k := by rw [hy]; field_simp
  have hlog := Int.zpow_log_le_self (b := 2) (by norm_num) hx
  have hy104 : (2 : ℚ) ^ 104 ≤ y := by
    rw [hy, le_div_iff₀ h4k0, h4k, ← zpow_add₀ (by norm_num)]
    refine le_trans ?_ hlog
    have e : (2 : ℚ) ^ 104 * 2 ^ (k + k) = 2 ^ (104 + (k + k)) := by
      rw [zpow_add₀ (by norm_num) 104]; norm_num
    rw [e]
    push_cast
    apply zpow_le_zpow_right₀ (by norm_num)
    omega
  have hfl : (2 : ℤ) ^ 104 ≤ ⌊y⌋ := by rw [Int.le_floor]; push_cast; exact hy104
  have hfl0 : 0 ≤ ⌊y⌋ := le_trans (by norm_num) hfl
  have hnat : ((⌊y⌋.toNat : ℕ) : ℤ) = ⌊y⌋ := Int.toNat_of_nonneg hfl0
  have hn52 : 2 ^ 52 ≤ n := by
    rw [hn, Nat.le_sqrt]
    have : ((2 ^ 52 * 2 ^ 52 : ℕ) : ℤ) ≤ ((⌊y⌋.toNat : ℕ) : ℤ) := by rw [hnat]; norm_num at hfl ⊢; exact hfl
    exact_mod_cast this
  have hlo : (n : ℚ) ^ 2 ≤ y := by
    have h1 : n * n ≤ ⌊y⌋.toNat := Nat.sqrt_le _
    have h2 : ((n * n : ℕ) : ℤ) ≤ ⌊y⌋ := by rw [← hnat]; exact_mod_cast h1
    have h3 := Int.le_floor.1 h2
    push_cast at h3
    rw [sq]; exact h3
  have hhi : y < ((n : ℚ) + 1) ^ 2 := by
    have h1 : ⌊y⌋.toNat < (n + 1) * (n + 1) := Nat.lt_succ_sqrt _
    have h2 : ⌊y⌋ < (((n + 1) * (n + 1) : ℕ) : ℤ) := by rw [← hnat]; exact_mod_cast h1
    have h3 := Int.floor_lt.1 h2
    push_cast at h3
    rw [sq]; exact h3
  have hnq : (2 : ℚ) ^ 52 ≤ n := by exact_mod_cast hn52
  have hmid : ((m : ℚ) - 1 / 2) ^ 2 ≤ y ∧ y ≤ ((m : ℚ) + 1 / 2) ^ 2 ∧ (n : ℚ) ≤ m := by
    rw [hm]
    split_ifs with c1 c2 c3
    · exact ⟨by nlinarith, c1.le, le_rfl⟩
    · push_cast; refine ⟨?_, ?_, by linarith⟩
      · have e : (n : ℚ) + 1 - 1 / 2 = n + 1 / 2 := by ring
        rw [e]; exact c2.le
      · nlinarith
    · exact ⟨by nlinarith, not_lt.1 c2, le_rfl⟩
    · push_cast; refine ⟨?_, ?_, by linarith⟩
      · have e : (n : ℚ) + 1 - 1 / 2 = n + 1 / 2 := by ring
        rw [e]; exact not_lt.1 c1
      · nlinarith
  obtain ⟨a, b, c⟩ := hmid
  have hm52 : (2 : ℚ) ^ 52 ≤ m := hnq.trans c
  have hm0 : (0 : ℚ) < m := lt_of_lt_of_le (by norm_num) hm52
  have hmm : (m : ℚ) ≤ m ^ 2 / 2 ^ 52 := by
    rw [le_div_iff₀ (by norm_num), sq]
    exact mul_le_mul_of_nonneg_left hm52 hm0.le
  have e51 : (1 : ℚ) / 2 ^ 51 = 2 * (1 / 2 ^ 52) := by norm_num
  have h1m : (1 : ℚ) ≤ m := le_trans (by norm_num) hm52
  rw [hs]
  refine ⟨mul_pos hm0 h2k, ?_, ?_⟩
  · have : (m : ℚ) ^ 2 * (1 - 1 / 2 ^ 51) ≤ y := by
      rw [e51]; linarith
    calc (↑m * 2 ^ k) ^ 2 * (1 - 1 / 2 ^ 51) = (m : ℚ) ^ 2 * (1 - 1 / 2 ^ 51) * 4 ^ k := by rw [h4k]; ring
      _ ≤ y * 4 ^ k := mul_le_mul_of_nonneg_right this h4k0.le
      _ = x := hxy.symm
  · have : y ≤ (m : ℚ) ^ 2 * (1 + 1 / 2 ^ 51) := by
      rw [e51]; linarith
    calc x = y * 4 ^ k := hxy
      _ ≤ (m : ℚ) ^ 2 * (1 + 1 / 2 ^ 51) * 4 ^ k := mul_le_mul_of_nonneg_right this h4k0.le
      _ = (↑m * 2 ^ k) ^ 2 * (1 + 1 / 2 ^ 51) := by rw [h4k]; ring

/-- `a` is `b` up to factors between `lo` and `hi`. -/
def Rel (a b lo hi : ℚ) : Prop := b * lo ≤ a ∧ a ≤ b * hi

theorem Rel.add {a b a' b' lo hi : ℚ} (h : Rel a b lo hi) (h' : Rel a' b' lo hi) : Rel (a + a') (b + b') lo hi :=
  ⟨by linarith [h.1, h'.1], by linarith [h.2, h'.2]⟩

theorem Rel.weaken {a b lo hi lo' hi' : ℚ} (h : Rel a b lo hi) (hb : 0 ≤ b) (h1 : lo' ≤ lo) (h2 : hi ≤ hi') : Rel a b lo' hi' :=
  ⟨(mul_le_mul_of_nonneg_left h1 hb).trans h.1, h.2.trans (mul_le_mul_of_nonneg_left h2 hb)⟩

theorem Rel.double {a b lo hi : ℚ} (h : Rel a b lo hi) (ha : 0 ≤ a) :
    Rel (double a) b (lo * (1 - 1 / 2 ^ 53)) (hi * (1 + 1 / 2 ^ 53)) := by
  constructor
  · refine le_trans ?_ (mul_le_double ha)
    rw [← mul_assoc]
    exact mul_le_mul_of_nonneg_right h.1 (by norm_num)
  · refine (double_le_mul ha).trans ?_
    rw [← mul_assoc]
    exact mul_le_mul_of_nonneg_right h.2 (by norm_num)

theorem rel_self (a : ℚ) : Rel a a 1 1 := ⟨by simp, by simp⟩

theorem double_sq_rel (z : ℚ) : Rel (double z ^ 2) (z ^ 2) ((1 - 1 / 2 ^ 53) ^ 2) ((1 + 1 / 2 ^ 53) ^ 2) := by
  have key : ∀ z : ℚ, 0 ≤ z → Rel (double z ^ 2) (z ^ 2) ((1 - 1 / 2 ^ 53) ^ 2) ((1 + 1 / 2 ^ 53) ^ 2) := by
    intro z hz
    have h := (rel_self z).double hz
    rw [one_mul, one_mul] at h
    constructor
    · rw [← mul_pow]
      exact pow_le_pow_left₀ (mul_nonneg hz (by norm_num)) h.1 2
    · rw [← mul_pow]
      exact pow_le_pow_left₀ (double_nonneg hz) h.2 2
  rcases le_total 0 z with h | h
  · exact key z h
  · have := key (-z) (by linarith)
    rw [double_neg, neg_sq, neg_sq] at this
    exact this

theorem sumSq_rel (w x y z : ℚ) :
    Rel (double (double (double (double (w * w) + double (x * x)) + double (y * y)) + double (z * z))) (w ^ 2 + x ^ 2 + y ^ 2 + z ^ 2)
      ((1 - 1 / 2 ^ 53) ^ 4) ((1 + 1 / 2 ^ 53) ^ 4) := by
  have sq1 : ∀ t : ℚ, Rel (double (t * t)) (t ^ 2) ((1 - 1 / 2 ^ 53) ^ 1) ((1 + 1 / 2 ^ 53) ^ 1) := by
    intro t
    have h := (rel_self (t * t)).double (mul_self_nonneg t)
    rw [one_mul, one_mul, ← sq] at h
    rw [pow_one, pow_one, ← sq]
    exact h
  have n1 : ∀ t : ℚ, 0 ≤ double (t * t) := fun t => double_nonneg (mul_self_nonneg t)
  have lift : ∀ (t : ℚ) (n : ℕ), Rel (double (t * t)) (t ^ 2) ((1 - 1 / 2 ^ 53) ^ (n + 1)) ((1 + 1 / 2 ^ 53) ^ (n + 1)) := by
    intro t n
    refine (sq1 t).weaken (sq_nonneg t) ?_ ?_
    · exact pow_le_pow_of_le_one (by norm_num) (by norm_num) (by omega)
    · exact pow_le_pow_right₀ (by norm_num) (by omega)
  have a1 := ((sq1 w).add (sq1 x)).double (add_nonneg (n1 w) (n1 x))
  rw [← pow_succ, ← pow_succ] at a1
  have m1 := double_nonneg (add_nonneg (n1 w) (n1 x))
  have a2 := (a1.add (lift y 1)).double (add_nonneg m1 (n1 y))
  rw [← pow_succ, ← pow_succ] at a2
  have m2 := double_nonneg (add_nonneg m1 (n1 y))
  have a3 := (a2.add (lift z 2)).double (add_nonneg m2 (n1 z))
  rw [← pow_succ, ← pow_succ] at a3
  exact a3

/-- The computed quaternion has length 1, up to rounding. -/
theorem normalize_close (p : Quat ℚ) (hp : 0 < p.w ^ 2 + p.x ^ 2 + p.y ^ 2 + p.z ^ 2) :
    let q := Fl.quatNormalize p
    1 - 12 / 2 ^ 53 ≤ q.w ^ 2 + q.x ^ 2 + q.y ^ 2 + q.z ^ 2 ∧ q.w ^ 2 + q.x ^ 2 + q.y ^ 2 + q.z ^ 2 ≤ 1 + 12 / 2 ^ 53 := by
  intro q
  set N := p.w ^ 2 + p.x ^ 2 + p.y ^ 2 + p.z ^ 2 with hN
  set T := double (double (double (double (p.w * p.w) + double (p.x * p.x)) + double (p.y * p.y)) + double (p.z * p.z)) with hT
  have hrel : Rel T N ((1 - 1 / 2 ^ 53) ^ 4) ((1 + 1 / 2 ^ 53) ^ 4) := sumSq_rel p.w p.x p.y p.z
  have hTpos : 0 < T := lt_of_lt_of_le (mul_pos hp (by norm_num)) hrel.1
  obtain ⟨hD, hD1, hD2⟩ := sqrtD_spec hTpos
  set D := sqrtD T with hDdef
  have hq : q = ⟨double (p.w / D), double (p.x / D), double (p.y / D), double (p.z / D)⟩ := rfl
  have hsum := ((double_sq_rel (p.w / D)).add (double_sq_rel (p.x / D))).add (double_sq_rel (p.y / D)) |>.add (double_sq_rel (p.z / D))
  have e : (p.w / D) ^ 2 + (p.x / D) ^ 2 + (p.y / D) ^ 2 + (p.z / D) ^ 2 = N / D ^ 2 := by rw [hN]; field_simp
  rw [e] at hsum
  have hD2pos : 0 < D ^ 2 := by positivity
  have hup : N / D ^ 2 ≤ (1 + 1 / 2 ^ 51) / (1 - 1 / 2 ^ 53) ^ 4 := by
    rw [div_le_div_iff₀ hD2pos (by norm_num)]
    linarith [hrel.1]
  have hlow : (1 - 1 / 2 ^ 51) / (1 + 1 / 2 ^ 53) ^ 4 ≤ N / D ^ 2 := by
    rw [div_le_div_iff₀ (by norm_num) hD2pos]
    linarith [hrel.2]
  rw [hq]
  constructor
  · refine le_trans ?_ hsum.1
    refine le_trans ?_ (mul_le_mul_of_nonneg_right hlow (by norm_num))
    norm_num
  · refine hsum.2.trans ?_
    refine (mul_le_mul_of_nonneg_right hup (by norm_num)).trans ?_
    norm_num

theorem abs_double_le (x : ℚ) : |double x| ≤ |x| * (1 + 1 / 2 ^ 53) := by
  have h := double_err x
  have : double x = (double x - x) + x := by ring
  rw [this]
  refine (abs_add_le _ _).trans ?_
  linarith

/-- The argument of `asin` for a quaternion of length about 1. -/
theorem asinArg_le (q : Quat ℚ) (hq : q.w ^ 2 + q.x ^ 2 + q.y ^ 2 + q.z ^ 2 ≤ 1 + 12 / 2 ^ 53) : |Fl.asinArg q| ≤ 1 + 1 / 2 ^ 49 := by
  unfold Fl.asinArg
  have h1 := abs_double_le (q.x * q.z)
  have h2 := abs_double_le (q.w * q.y)
  have h3 := abs_double_le (double (q.x * q.z) - double (q.w * q.y))
  have h4 := abs_double_le (-2 * double (double (q.x * q.z) - double (q.w * q.y)))
  have h5 : |q.x * q.z| ≤ (q.x ^ 2 + q.z ^ 2) / 2 := by
    rw [abs_le]; constructor <;> nlinarith [sq_nonneg (q.x - q.z), sq_nonneg (q.x + q.z)]
  have h6 : |q.w * q.y| ≤ (q.w ^ 2 + q.y ^ 2) / 2 := by
    rw [abs_le]; constructor <;> nlinarith [sq_nonneg (q.w - q.y), sq_nonneg (q.w + q.y)]
  have h7 : |q.x * q.z| + |q.w * q.y| ≤ (1 + 12 / 2 ^ 53) / 2 := by linarith
  have h8 : |double (q.x * q.z) - double (q.w * q.y)| ≤ (1 + 12 / 2 ^ 53) / 2 * (1 + 1 / 2 ^ 53) := by
    refine (abs_sub _ _).trans ?_
    refine le_trans (add_le_add h1 h2) ?_
    rw [← add_mul]
    exact mul_le_mul_of_nonneg_right h7 (by norm_num)
  have h9 : |double (double (q.x * q.z) - double (q.w * q.y))| ≤ (1 + 12 / 2 ^ 53) / 2 * (1 + 1 / 2 ^ 53) * (1 + 1 / 2 ^ 53) :=
    h3.trans (mul_le_mul_of_nonneg_right h8 (by norm_num))
  rw [abs_mul] at h4
  refine h4.trans ?_
  refine (mul_le_mul_of_nonneg_right (mul_le_mul_of_nonneg_left h9 (abs_nonneg _)) (by norm_num)).trans ?_
  norm_num

/-- The argument of `asin` is `2(wy - xz)` up to rounding. -/
theorem asinArg_near (q : Quat ℚ) (hq : q.w ^ 2 + q.x ^ 2 + q.y ^ 2 + q.z ^ 2 ≤ 1 + 12 / 2 ^ 53) :
    |Fl.asinArg q - 2 * (q.w * q.y - q.x * q.z)| ≤ 1 / 2 ^ 51 := by
  unfold Fl.asinArg
  have h5 : |q.x * q.z| ≤ (q.x ^ 2 + q.z ^ 2) / 2 := by
    rw [abs_le]; constructor <;> nlinarith [sq_nonneg (q.x - q.z), sq_nonneg (q.x + q.z)]
  have h6 : |q.w * q.y| ≤ (q.w ^ 2 + q.y ^ 2) / 2 := by
    rw [abs_le]; constructor <;> nlinarith [sq_nonneg (q.w - q.y), sq_nonneg (q.w + q.y)]
  have h7 : |q.x * q.z| + |q.w * q.y| ≤ (1 + 12 / 2 ^ 53) / 2 := by linarith
  set a := q.x * q.z with ha
  set b := q.w * q.y with hb
  have e1 := double_err a
  have e2 := double_err b
  set d := double a - double b with hd
  have hdab : |d - (a - b)| ≤ (1 + 12 / 2 ^ 53) / 2 / 2 ^ 53 := by
    have : d - (a - b) = (double a - a) - (double b - b) := by rw [hd]; ring
    rw [this]
    refine (abs_sub _ _).trans ((add_le_add e1 e2).trans ?_)
    rw [← add_div]
    exact div_le_div_of_nonneg_right h7 (by norm_num)
  have hab : |a - b| ≤ (1 + 12 / 2 ^ 53) / 2 := (abs_sub _ _).trans h7
  have hdle : |d| ≤ 1 := by
    have : d = (d - (a - b)) + (a - b) := by ring
    rw [this]
    refine (abs_add_le _ _).trans ((add_le_add hdab hab).trans ?_)
    norm_num
  have hd2 : |d| ≤ (1 + 12 / 2 ^ 53) / 2 * (1 + 1 / 2 ^ 53) := by
    have : d = (d - (a - b)) + (a - b) := by ring
    rw [this]
    refine (abs_add_le _ _).trans ((add_le_add hdab hab).trans ?_)
    norm_num
  have e3 := double_err d
  have e3' : |double d - d| ≤ (1 + 12 / 2 ^ 53) / 2 * (1 + 1 / 2 ^ 53) / 2 ^ 53 := e3.trans (div_le_div_of_nonneg_right hd2 (by norm_num))
  have e4 := double_err (-2 * double d)
  have hdd : |double d| ≤ |d| * (1 + 1 / 2 ^ 53) := abs_double_le d
  have e4' : |double (-2 * double d) - -2 * double d| ≤ 2 * ((1 + 12 / 2 ^ 53) / 2 * (1 + 1 / 2 ^ 53) * (1 + 1 / 2 ^ 53)) / 2 ^ 53 := by
    refine e4.trans (div_le_div_of_nonneg_right ?_ (by norm_num))
    rw [abs_mul]
    have : |(-2 : ℚ)| = 2 := by norm_num
    rw [this]
    refine mul_le_mul_of_nonneg_left (hdd.trans ?_) (by norm_num)
    exact mul_le_mul_of_nonneg_right hd2 (by norm_num)
  have hfin : double (-2 * double d) - 2 * (b - a) =
      (double (-2 * double d) - -2 * double d) + (-2 * (double d - d)) + (-2 * (d - (a - b))) := by ring
  rw [hfin]
  refine (abs_add_three _ _ _).trans ?_
  rw [abs_mul, abs_mul]
  have h2 : |(-2 : ℚ)| = 2 := by norm_num
  rw [h2]
  refine (add_le_add (add_le_add e4' (mul_le_mul_of_nonneg_left e3' (by norm_num))) (mul_le_mul_of_nonneg_left hdab (by norm_num))).trans ?_
  norm_num

/-- The number under the root in the branches of `matrix_to_quat` without a positive trace is positive. -/
theorem radicand_pos {a b c : ℚ} (ha : |a| ≤ 2) (hb : |b| ≤ 2) (hab : b ≤ a) (hac : c ≤ a) (hs : a + b + c ≤ 1 / 2 ^ 50) :
    0 < double (double (double (1.0 + a) - b) - c) := by
  rw [abs_le] at ha hb
  have e1 := double_err (1.0 + a)
  have n1 : |1.0 + a| ≤ 3 := by rw [abs_le]; constructor <;> norm_num <;> linarith
  have f1 : |double (1.0 + a) - (1.0 + a)| ≤ 3 / 2 ^ 53 := e1.trans (div_le_div_of_nonneg_right n1 (by norm_num))
  rw [abs_le] at f1
  set r1 := double (1.0 + a) with hr1
  have e2 := double_err (r1 - b)
  have n2 : |r1 - b| ≤ 6 := by rw [abs_le]; constructor <;> norm_num at f1 ⊢ <;> linarith
  have f2 : |double (r1 - b) - (r1 - b)| ≤ 6 / 2 ^ 53 := e2.trans (div_le_div_of_nonneg_right n2 (by norm_num))
  rw [abs_le] at f2
  apply double_pos
  have hmain : 1 - 1 / 2 ^ 50 ≤ 1 + a - b - c := by
    rcases le_total 0 a with h | h
    · linarith
    · have : (0 : ℚ) ≤ 1 / 2 ^ 50 := by norm_num
      linarith
  norm_num at f1 f2 hmain ⊢
  linarith

theorem double_nonpos_iff {x : ℚ} : double x ≤ 0 ↔ x ≤ 0 := by
  constructor
  · intro h
    by_contra hx
    exact absurd (double_pos (not_le.1 hx)) (not_lt.2 h)
  · intro h
    have := double_mono h
    have z : double 0 = 0 := by simp [double]
    rwa [z] at this

/-- The quaternion before normalisation is not zero. -/
theorem matrixToQuat_unit (M : Mat3 ℚ) (h0 : |M.m00| ≤ 2) (h1 : |M.m11| ≤ 2) (h2 : |M.m22| ≤ 2) :
    let q := Fl.matrixToQuat M
    1 - 12 / 2 ^ 53 ≤ q.w ^ 2 + q.x ^ 2 + q.y ^ 2 + q.z ^ 2 ∧ q.w ^ 2 + q.x ^ 2 + q.y ^ 2 + q.z ^ 2 ≤ 1 + 12 / 2 ^ 53 := by
  have spos : ∀ r : ℚ, 0 < r → 0 < double (0.25 * double (sqrtD r * 2)) := fun r hr =>
    double_pos (mul_pos (by norm_num) (double_pos (mul_pos (sqrtD_spec hr).1 (by norm_num))))
  have sum : ¬ double (double (M.m00 + M.m11) + M.m22) > 0 → M.m00 + M.m11 + M.m22 ≤ 1 / 2 ^ 50 := by
    intro h
    have h' := double_nonpos_iff.1 (not_lt.1 h)
    have e := double_err (M.m00 + M.m11)
    rw [abs_le] at h0 h1
    have n : |M.m00 + M.m11| ≤ 4 := by rw [abs_le]; constructor <;> linarith
    have f : |double (M.m00 + M.m11) - (M.m00 + M.m11)| ≤ 4 / 2 ^ 53 := e.trans (div_le_div_of_nonneg_right n (by norm_num))
    rw [abs_le] at f
    norm_num at f ⊢
    linarith
  intro q
  have hq : q = Fl.matrixToQuat M := rfl
  unfold Fl.matrixToQuat at hq
  simp only at hq
  split_ifs at hq with c1 c2 c3
  all_goals rw [hq]; apply normalize_close
  · have := spos _ (double_pos (show (0 : ℚ) < double (double (M.m00 + M.m11) + M.m22) + 1.0 by norm_num; linarith))
    simp only
    have := pow_pos this 2
    positivity
  · have := spos _ (radicand_pos h0 h1 c2.1.le c2.2.le (sum c1))
    simp only
    have := pow_pos this 2
    positivity
  · have h01 : M.m00 ≤ M.m11 := by
      by_contra h
      exact c2 ⟨not_le.1 h, c3.trans (not_le.1 h)⟩
    have := spos _ (radicand_pos h1 h0 h01 c3.le (by linarith [sum c1]))
    simp only
    have := pow_pos this 2
    positivity
  · have h12 : M.m11 ≤ M.m22 := not_lt.1 c3
    have h02 : M.m00 ≤ M.m22 := by
      by_contra h
      exact c2 ⟨lt_of_le_of_lt h12 (not_le.1 h), not_le.1 h⟩
    have := spos _ (radicand_pos h2 h0 h02 h12 (by linarith [sum c1]))
    simp only
    have := pow_pos this 2
    positivity

end Sumo
