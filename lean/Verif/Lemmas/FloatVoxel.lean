import Verif.Model.FloatVoxel
import Verif.Spec.FloatVoxel
import Verif.Lemmas.Double
import Verif.Lemmas.Voxel
import Verif.Props.Voxel

/-! Rounding errors of voxel grids. -/

namespace Sumo
open VoxelSpec

theorem single_err (x : ℚ) : |single x - x| ≤ |x| / 2 ^ 24 := by
  by_cases h : x = 0
  · simp [h, single]
  · have hx : 0 < |x| := abs_pos.2 h
    have hp : (0 : ℚ) < 2 ^ (Int.log 2 |x| - 23) := zpow_pos (by norm_num) _
    set y := x / 2 ^ (Int.log 2 |x| - 23) with hy
    have h1 := roundEven_le y
    have h2 := le_roundEven y
    have h3 : (2 : ℚ) ^ (Int.log 2 |x| - 23) ≤ |x| / 2 ^ 23 := by
      have := Int.zpow_log_le_self (b := 2) (by norm_num) hx
      rw [zpow_sub₀ (by norm_num)]
      apply div_le_div₀ hx.le (by exact_mod_cast this) (by norm_num)
      norm_num
    unfold single
    rw [if_neg h]
    have e : (roundEven y : ℚ) * 2 ^ (Int.log 2 |x| - 23) - x = (roundEven y - y) * 2 ^ (Int.log 2 |x| - 23) := by
      rw [hy]; field_simp
    rw [← hy, e, abs_mul, abs_of_pos hp]
    have h4 : |(roundEven y : ℚ) - y| ≤ 1 / 2 := by
      rw [abs_le]; constructor <;> linarith
    calc _ ≤ 1 / 2 * (|x| / 2 ^ 23) := mul_le_mul h4 h3 hp.le (by norm_num)
      _ = |x| / 2 ^ 24 := by ring

/-! ### One coordinate -/

/-- The index of a coordinate, up to rounding. -/
theorem index_close {u size d sc d' y : ℚ} {i : ℤ} (hu0 : 0 ≤ u) (hu : u ≤ 1 / 16) (hs : 0 < size) (hd : 0 ≤ d)
    (hsc : 1 - u ≤ sc * size ∧ sc * size ≤ 1 + u) (hd' : d * (1 - u) ≤ d' ∧ d' ≤ d * (1 + u))
    (hy : d' * sc * (1 - u) ≤ y ∧ y ≤ d' * sc * (1 + u)) (hi : (i : ℚ) ≤ y ∧ y < i + 1) :
    i * size ≤ d * (1 + 4 * u) ∧ d * (1 - 4 * u) < (i + 1) * size := by
  have h1 : (0 : ℚ) ≤ 1 - u := by linarith
  have h0 : 0 ≤ d' := (mul_nonneg hd h1).trans hd'.1
  constructor
  · have a : i * size ≤ y * size := mul_le_mul_of_nonneg_right hi.1 hs.le
    have b : y * size ≤ d' * sc * (1 + u) * size := mul_le_mul_of_nonneg_right hy.2 hs.le
    have c : d' * sc * (1 + u) * size = d' * (sc * size) * (1 + u) := by ring
    have e : d' * (sc * size) ≤ d * (1 + u) * (1 + u) := mul_le_mul hd'.2 hsc.2 (by linarith) (mul_nonneg hd (by linarith))
    have f : d' * (sc * size) * (1 + u) ≤ d * (1 + u) * (1 + u) * (1 + u) := mul_le_mul_of_nonneg_right e (by linarith)
    have g : d * (1 + u) * (1 + u) * (1 + u) ≤ d * (1 + 4 * u) := by
      have : (1 + u) * (1 + u) * (1 + u) ≤ 1 + 4 * u := by nlinarith [mul_nonneg hu0 hu0, mul_nonneg hu0 (by linarith : 0 ≤ 1 / 16 - u)]
      nlinarith
    linarith
  · have a : y * size < (i + 1) * size := mul_lt_mul_of_pos_right hi.2 hs
    have b : d' * sc * (1 - u) * size ≤ y * size := mul_le_mul_of_nonneg_right hy.1 hs.le
    have c : d' * sc * (1 - u) * size = d' * (sc * size) * (1 - u) := by ring
    have e : d * (1 - u) * (1 - u) ≤ d' * (sc * size) := mul_le_mul hd'.1 hsc.1 h1 h0
    have f : d * (1 - u) * (1 - u) * (1 - u) ≤ d' * (sc * size) * (1 - u) := mul_le_mul_of_nonneg_right e h1
    have g : d * (1 - 4 * u) ≤ d * (1 - u) * (1 - u) * (1 - u) := by
      have : 1 - 4 * u ≤ (1 - u) * (1 - u) * (1 - u) := by nlinarith [mul_nonneg hu0 hu0, mul_nonneg (mul_nonneg hu0 hu0) hu0]
      nlinarith
    linarith

/-- The centre of a voxel, up to rounding. -/
theorem center_close {u t size d m s e1 o c : ℚ} {i : ℤ} (hu0 : 0 ≤ u) (hu : u ≤ 1 / 16) (_ht0 : 0 ≤ t) (ht : t ≤ 1 / 16)
    (hs : 0 < size) (hd : 0 ≤ d) (hi0 : 0 ≤ i) (hi : i * size ≤ 2 * d) (hsz : |s - size| ≤ 4 * u * size)
    (he : |e1 - i * s| ≤ u * (i * s)) (ho : |o - (m + size / 2)| ≤ t * (|m| + size)) (hc : |c - (e1 + o)| ≤ u * |e1 + o|) :
    |c - (m + (i + 1 / 2) * size)| ≤ 15 * u * d + (t + 2 * u) * (|m| + size) := by
  have hi0' : (0 : ℚ) ≤ i := by exact_mod_cast hi0
  have hm := abs_nonneg m
  have his : 0 ≤ i * size := mul_nonneg hi0' hs.le
  have h1 : |e1 - i * size| ≤ 12 * u * d := by
    have a : e1 - i * size = (e1 - i * s) + i * (s - size) := by ring
    have b : |(i : ℚ) * (s - size)| ≤ i * (4 * u * size) := by
      rw [abs_mul, abs_of_nonneg hi0']; exact mul_le_mul_of_nonneg_left hsz hi0'
    have c : i * s ≤ i * size + i * (4 * u * size) := by
      have := (abs_le.1 b).2; linarith
    have e : u * (i * s) ≤ u * (2 * (i * size)) := by
      apply mul_le_mul_of_nonneg_left _ hu0
      have : i * (4 * u * size) = 4 * u * (i * size) := by ring
      have : 4 * u * (i * size) ≤ 1 * (i * size) := mul_le_mul_of_nonneg_right (by linarith) his
      linarith
    rw [a]
    refine (abs_add_le _ _).trans ?_
    have f : i * (4 * u * size) = 4 * u * (i * size) := by ring
    have g : u * (i * size) ≤ u * (2 * d) := mul_le_mul_of_nonneg_left hi hu0
    linarith
  have hmc : |m + (i + 1 / 2) * size| ≤ |m| + 2 * d + size / 2 := by
    refine (abs_add_le _ _).trans ?_
    rw [abs_of_nonneg (by positivity : (0 : ℚ) ≤ (i + 1 / 2) * size)]
    linarith
  have h2 : |(e1 + o) - (m + (i + 1 / 2) * size)| ≤ 12 * u * d + t * (|m| + size) := by
    have a : (e1 + o) - (m + (i + 1 / 2) * size) = (e1 - i * size) + (o - (m + size / 2)) := by ring
    rw [a]; exact (abs_add_le _ _).trans (add_le_add h1 ho)
  have h3 : |e1 + o| ≤ 3 * d + 2 * (|m| + size) := by
    have a := abs_add_le ((e1 + o) - (m + (i + 1 / 2) * size)) (m + (i + 1 / 2) * size)
    rw [sub_add_cancel] at a
    have b : u * d ≤ 1 / 16 * d := mul_le_mul_of_nonneg_right hu hd
    have c : t * (|m| + size) ≤ 1 / 16 * (|m| + size) := mul_le_mul_of_nonneg_right ht (by linarith)
    linarith
  have h4 := mul_le_mul_of_nonneg_left h3 hu0
  have a : c - (m + (i + 1 / 2) * size) = (c - (e1 + o)) + ((e1 + o) - (m + (i + 1 / 2) * size)) := by ring
  rw [a]
  refine (abs_add_le _ _).trans ?_
  linarith

/-- A face of the bounds, up to rounding: `h` is half a voxel. -/
theorem face_close {u t size d m h c p lo hi : ℚ} {i : ℤ} (hu0 : 0 ≤ u) (hu : u ≤ 1 / 64) (ht0 : 0 ≤ t) (ht : t ≤ 1 / 16)
    (hs : 0 < size) (hd : 0 ≤ d) (hp : p = m + d) (hi0 : 0 ≤ i) (hix : i * size ≤ d * (1 + 4 * u))
    (hix' : d * (1 - 4 * u) < (i + 1) * size) (hh : |h - size / 2| ≤ 3 * u * size)
    (hc : |c - (m + (i + 1 / 2) * size)| ≤ 15 * u * d + (t + 2 * u) * (|m| + size))
    (hlo : |lo - (c - h)| ≤ u * |c - h|) (hhi : |hi - (c + h)| ≤ u * |c + h|) :
    |c - p| ≤ size / 2 + (32 * u * d + (t + 8 * u) * (|m| + size)) ∧
    lo ≤ p + (32 * u * d + (t + 8 * u) * (|m| + size)) ∧ p - (32 * u * d + (t + 8 * u) * (|m| + size)) ≤ hi := by
  have hm := abs_nonneg m
  have hi0' : (0 : ℚ) ≤ i := by exact_mod_cast hi0
  have hud : 0 ≤ u * d := mul_nonneg hu0 hd
  have hud' : u * d ≤ 1 / 64 * d := mul_le_mul_of_nonneg_right hu hd
  have hum : 0 ≤ u * |m| := mul_nonneg hu0 hm
  have hum' : u * |m| ≤ 1 / 64 * |m| := mul_le_mul_of_nonneg_right hu hm
  have hus : 0 ≤ u * size := mul_nonneg hu0 hs.le
  have hus' : u * size ≤ 1 / 64 * size := mul_le_mul_of_nonneg_right hu hs.le
  have htm : 0 ≤ t * |m| := mul_nonneg ht0 hm
  have htm' : t * |m| ≤ 1 / 16 * |m| := mul_le_mul_of_nonneg_right ht hm
  have hts : 0 ≤ t * size := mul_nonneg ht0 hs.le
  have hts' : t * size ≤ 1 / 16 * size := mul_le_mul_of_nonneg_right ht hs.le
  have his : 0 ≤ i * size := mul_nonneg hi0' hs.le
  obtain ⟨c1, c2⟩ := abs_le.1 hc
  obtain ⟨g1, g2⟩ := abs_le.1 hh
  have m1 := neg_abs_le m
  have m2 := le_abs_self m
  have b1 : |c - h| ≤ 4 * d + 3 * (|m| + size) := by
    rw [abs_le]; constructor <;> linarith
  have b2 : |c + h| ≤ 4 * d + 3 * (|m| + size) := by
    rw [abs_le]; constructor <;> linarith
  have l2 := (abs_le.1 hlo).2
  have l1 := (abs_le.1 hhi).1
  have k1 := mul_le_mul_of_nonneg_left b1 hu0
  have k2 := mul_le_mul_of_nonneg_left b2 hu0
  subst hp
  refine ⟨?_, ?_, ?_⟩
  · rw [abs_le]; constructor <;> linarith
  · linarith
  · linarith

/-- The index of a coordinate before the conversion to `int32`. -/
def rawIndex (size corner p : ℚ) : ℤ := ⌊double (double (p - corner) * double (1 / size))⌋

theorem scale_close {size : ℚ} (hs : 0 < size) :
    1 - 1 / 2 ^ 53 ≤ double (1 / size) * size ∧ double (1 / size) * size ≤ 1 + 1 / 2 ^ 53 := by
  have h0 : (0 : ℚ) ≤ 1 / size := by positivity
  have h1 := mul_le_mul_of_nonneg_right (mul_le_double h0) hs.le
  have h2 := mul_le_mul_of_nonneg_right (double_le_mul h0) hs.le
  have e1 : 1 / size * (1 - 1 / 2 ^ 53) * size = 1 - 1 / 2 ^ 53 := by field_simp
  have e2 : 1 / size * (1 + 1 / 2 ^ 53) * size = 1 + 1 / 2 ^ 53 := by field_simp
  rw [e1] at h1
  rw [e2] at h2
  exact ⟨h1, h2⟩

theorem size_close {size : ℚ} (hs : 0 < size) : |double (1 / double (1 / size)) - size| ≤ 4 * (1 / 2 ^ 53) * size := by
  obtain ⟨h1, h2⟩ := scale_close hs
  have hsc : 0 < double (1 / size) := double_pos (by positivity)
  set sc := double (1 / size)
  have h0 : (0 : ℚ) ≤ 1 / sc := by positivity
  have a := mul_le_double h0
  have b := double_le_mul h0
  have c1 : 1 / sc ≤ size * (1 + 2 * (1 / 2 ^ 53)) := by
    rw [div_le_iff₀ hsc]
    have e : size * (1 + 2 * (1 / 2 ^ 53)) * sc = (sc * size) * (1 + 2 * (1 / 2 ^ 53)) := by ring
    have f := mul_le_mul_of_nonneg_right h1 (by norm_num : (0 : ℚ) ≤ 1 + 2 * (1 / 2 ^ 53))
    rw [e]
    refine le_trans ?_ f
    norm_num
  have c2 : size * (1 - 1 / 2 ^ 53) ≤ 1 / sc := by
    rw [le_div_iff₀ hsc]
    have e : size * (1 - 1 / 2 ^ 53) * sc = (sc * size) * (1 - 1 / 2 ^ 53) := by ring
    have f := mul_le_mul_of_nonneg_right h2 (by norm_num : (0 : ℚ) ≤ 1 - 1 / 2 ^ 53)
    rw [e]
    refine f.trans ?_
    norm_num
  have a' := (mul_le_mul_of_nonneg_right c2 (by norm_num : (0 : ℚ) ≤ 1 - 1 / 2 ^ 53)).trans a
  have b' := b.trans (mul_le_mul_of_nonneg_right c1 (by norm_num : (0 : ℚ) ≤ 1 + 1 / 2 ^ 53))
  have e1 : size * (1 - 1 / 2 ^ 53) * (1 - 1 / 2 ^ 53) = size - size * (2 / 2 ^ 53 - 1 / 2 ^ 106) := by ring
  have e2 : size * (1 + 2 * (1 / 2 ^ 53)) * (1 + 1 / 2 ^ 53) = size + size * (3 / 2 ^ 53 + 2 / 2 ^ 106) := by ring
  have e3 : size * (2 / 2 ^ 53 - 1 / 2 ^ 106) ≤ size * (4 / 2 ^ 53) := mul_le_mul_of_nonneg_left (by norm_num) hs.le
  have e4 : size * (3 / 2 ^ 53 + 2 / 2 ^ 106) ≤ size * (4 / 2 ^ 53) := mul_le_mul_of_nonneg_left (by norm_num) hs.le
  have e5 : 4 * (1 / 2 ^ 53) * size = size * (4 / 2 ^ 53) := by ring
  rw [e5, abs_le]
  constructor <;> linarith

theorem rawIndex_close {size corner p : ℚ} (hs : 0 < size) (hp : corner ≤ p) :
    0 ≤ rawIndex size corner p ∧ rawIndex size corner p * size ≤ (p - corner) * (1 + 4 * (1 / 2 ^ 53)) ∧
    (p - corner) * (1 - 4 * (1 / 2 ^ 53)) < (rawIndex size corner p + 1) * size := by
  have hd : 0 ≤ p - corner := by linarith
  have hsc : 0 < double (1 / size) := double_pos (by positivity)
  have hd' := double_nonneg hd
  have hy : 0 ≤ double (p - corner) * double (1 / size) := mul_nonneg hd' hsc.le
  unfold rawIndex
  refine ⟨Int.floor_nonneg.2 (double_nonneg hy), ?_⟩
  exact index_close (by norm_num) (by norm_num) hs hd (scale_close hs) ⟨mul_le_double hd, double_le_mul hd⟩
    ⟨mul_le_double hy, double_le_mul hy⟩ ⟨Int.floor_le _, Int.lt_floor_add_one _⟩

theorem rawIndex_neg {size corner p : ℚ} (hs : 0 < size) (hp : p < corner) : rawIndex size corner p < 0 := by
  have hsc : 0 < double (1 / size) := double_pos (by positivity)
  unfold rawIndex
  rw [Int.floor_lt]
  have h1 := double_pos (x := corner - p) (by linarith)
  have h2 : double (p - corner) = -double (corner - p) := by rw [← double_neg]; congr 1; ring
  have h3 : double (double (p - corner) * double (1 / size)) = -double (double (corner - p) * double (1 / size)) := by
    rw [← double_neg, h2]; congr 1; ring
  rw [h3]
  have := double_pos (mul_pos h1 hsc)
  push_cast
  linarith

theorem rawIndex_lt {size corner p : ℚ} (hs : 0 < size) (hp : corner ≤ p) {n : ℤ} (hn : n < 2 ^ 31) (h : p < corner + n * size) :
    rawIndex size corner p < n + 1 := by
  obtain ⟨_, h1, _⟩ := rawIndex_close hs hp
  have hnq : (n : ℚ) < 2 ^ 31 := by exact_mod_cast hn
  have hd : p - corner < n * size := by linarith
  have h2 : (rawIndex size corner p : ℚ) * size < (n + 1) * size := by
    refine h1.trans_lt ?_
    have h3 : (p - corner) * (1 + 4 * (1 / 2 ^ 53)) ≤ n * size * (1 + 4 * (1 / 2 ^ 53)) :=
      mul_le_mul_of_nonneg_right hd.le (by norm_num)
    have h4 : n * size * (4 * (1 / 2 ^ 53)) < size := by
      have : (n : ℚ) * (4 * (1 / 2 ^ 53)) < 1 := by
        have := mul_lt_mul_of_pos_right hnq (by norm_num : (0 : ℚ) < 4 * (1 / 2 ^ 53))
        refine this.trans ?_
        norm_num
      have := mul_lt_mul_of_pos_right this hs
      linarith
    linarith
  have h3 := lt_of_mul_lt_mul_right h2 hs.le
  exact_mod_cast h3

theorem half_close {size s : ℚ} (hs : 0 < size) (h : |s - size| ≤ 4 * (1 / 2 ^ 53) * size) :
    |double (0.5 * s) - size / 2| ≤ 3 * (1 / 2 ^ 53) * size ∧ 0 ≤ double (0.5 * s) ∧ double (0.5 * s) ≤ size := by
  obtain ⟨h1, h2⟩ := abs_le.1 h
  have e : (0.5 : ℚ) = 1 / 2 := by norm_num
  rw [e]
  have hu : 4 * (1 / 2 ^ 53) * size ≤ size / 2 := by
    have : 4 * (1 / 2 ^ 53) * size ≤ 1 / 2 * size := mul_le_mul_of_nonneg_right (by norm_num) hs.le
    linarith
  have h0 : 0 ≤ 1 / 2 * s := by linarith
  have a := mul_le_double h0
  have b := double_le_mul h0
  have c : 1 / 2 * s * (1 / 2 ^ 53) ≤ size * (1 / 2 ^ 53) := mul_le_mul_of_nonneg_right (by linarith) (by norm_num)
  have hsz : size * (1 / 2 ^ 53) ≤ size / 8 := by
    have : size * (1 / 2 ^ 53) ≤ size * (1 / 8) := mul_le_mul_of_nonneg_left (by norm_num) hs.le
    linarith
  refine ⟨?_, double_nonneg h0, ?_⟩
  · rw [abs_le]; constructor <;> linarith
  · linarith

theorem offset_close (isSingle : Bool) {size corner s : ℚ} (hs : 0 < size) (h : |s - size| ≤ 4 * (1 / 2 ^ 53) * size) :
    |Fl.cornerOffset isSingle corner s - (corner + size / 2)| ≤ (if isSingle then 4 / 2 ^ 24 else 4 / 2 ^ 53) * (|corner| + size) := by
  obtain ⟨h1, h2, h3⟩ := half_close hs h
  unfold Fl.cornerOffset
  set k := double (0.5 * s)
  obtain ⟨k1, k2⟩ := abs_le.1 h1
  have hm := abs_nonneg corner
  have hu : ∀ c : ℚ, 0 ≤ c → c * (1 / 2 ^ 53) * size ≤ c * (1 / 2 ^ 24) * size / 2 ^ 20 := by
    intro c hc
    have e : c * (1 / 2 ^ 24) * size / 2 ^ 20 = c * (1 / 2 ^ 44) * size := by ring
    rw [e]
    apply mul_le_mul_of_nonneg_right _ hs.le
    exact mul_le_mul_of_nonneg_left (by norm_num) hc
  cases isSingle
  · simp only [Bool.false_eq_true, if_false]
    have a := double_err (corner + k)
    have b : |corner + k| ≤ |corner| + size := (abs_add_le _ _).trans (by rw [abs_of_nonneg h2]; linarith)
    have c : |corner + k| / 2 ^ 53 ≤ (|corner| + size) / 2 ^ 53 := div_le_div_of_nonneg_right b (by norm_num)
    have e : double (corner + k) - (corner + size / 2) = (double (corner + k) - (corner + k)) + (k - size / 2) := by ring
    rw [e]
    refine (abs_add_le _ _).trans ((add_le_add (a.trans c) h1).trans ?_)
    have : 0 ≤ 3 / 2 ^ 53 * |corner| := by positivity
    have e2 : 4 / 2 ^ 53 * (|corner| + size) = (|corner| + size) / 2 ^ 53 + 3 * (1 / 2 ^ 53) * size + 3 / 2 ^ 53 * |corner| := by ring
    rw [e2]; linarith
  · simp only [if_true]
    have a0 := single_err k
    rw [abs_of_nonneg h2] at a0
    have a1 : |single k - k| ≤ size / 2 ^ 24 := a0.trans (div_le_div_of_nonneg_right h3 (by norm_num))
    obtain ⟨f1, f2⟩ := abs_le.1 a1
    have a := single_err (corner + single k)
    have e24 : size / 2 ^ 24 ≤ size / 4 := div_le_div_of_nonneg_left hs.le (by norm_num) (by norm_num)
    have hs3 := hu 3 (by norm_num)
    have e44 : 3 * (1 / 2 ^ 24) * size / 2 ^ 20 ≤ size / 8 := by
      have : 3 * (1 / 2 ^ 24) * size / 2 ^ 20 = size * (3 / 2 ^ 44) := by ring
      have h2 : size * (3 / 2 ^ 44) ≤ size * (1 / 8) := mul_le_mul_of_nonneg_left (by norm_num) hs.le
      linarith
    have b : |corner + single k| ≤ |corner| + size := by
      refine (abs_add_le _ _).trans ?_
      have : |single k| ≤ size := by rw [abs_le]; constructor <;> linarith
      linarith
    have c : |corner + single k| / 2 ^ 24 ≤ (|corner| + size) / 2 ^ 24 := div_le_div_of_nonneg_right b (by norm_num)
    have e : single (corner + single k) - (corner + size / 2) =
        (single (corner + single k) - (corner + single k)) + ((single k - k) + (k - size / 2)) := by ring
    rw [e]
    refine (abs_add_le _ _).trans ((add_le_add (a.trans c) ((abs_add_le _ _).trans (add_le_add a1 h1))).trans ?_)
    have p1 : 0 ≤ 3 / 2 ^ 24 * |corner| := by positivity
    have e2 : 4 / 2 ^ 24 * (|corner| + size) = (|corner| + size) / 2 ^ 24 + 3 * (size / 2 ^ 24) + 3 / 2 ^ 24 * |corner| := by ring
    rw [e2]
    have e3 : 3 * (1 / 2 ^ 24) * size / 2 ^ 20 ≤ size / 2 ^ 24 := by
      have : 3 * (1 / 2 ^ 24) * size / 2 ^ 20 = size * (3 / 2 ^ 44) := by ring
      have h2 : size * (3 / 2 ^ 44) ≤ size * (1 / 2 ^ 24) := mul_le_mul_of_nonneg_left (by norm_num) hs.le
      linarith
    have : 0 ≤ size / 2 ^ 24 := by positivity
    linarith

/-- One coordinate: the centre of the voxel of `p`, and that centre minus and plus half a voxel. -/
theorem axis_close (isSingle : Bool) {size corner p : ℚ} (hs : 0 < size) (hp : corner ≤ p) :
    let s := double (1 / double (1 / size))
    let c := Fl.axisCenter isSingle corner s (rawIndex size corner p)
    |c - p| ≤ size / 2 + slack isSingle size corner p ∧
    double (c - double (0.5 * s)) ≤ p + slack isSingle size corner p ∧
    p - slack isSingle size corner p ≤ double (c + double (0.5 * s)) := by
  intro s c
  have hsz := size_close hs
  obtain ⟨i0, i1, i2⟩ := rawIndex_close hs hp
  have hd : 0 ≤ p - corner := by linarith
  have hspos : 0 ≤ s := by
    have h := (abs_le.1 hsz).1
    have : 4 * (1 / 2 ^ 53) * size ≤ 1 * size := mul_le_mul_of_nonneg_right (by norm_num) hs.le
    have : 0 ≤ double (1 / double (1 / size)) := by linarith
    exact this
  set t : ℚ := if isSingle then 4 / 2 ^ 24 else 4 / 2 ^ 53 with ht
  have ht0 : 0 ≤ t ∧ t ≤ 1 / 16 := by rw [ht]; cases isSingle <;> norm_num
  have i0' : (0 : ℚ) ≤ rawIndex size corner p := by exact_mod_cast i0
  have hi2 : (rawIndex size corner p : ℚ) * size ≤ 2 * (p - corner) := by
    refine i1.trans ?_
    have := mul_le_mul_of_nonneg_left (by norm_num : (1 : ℚ) + 4 * (1 / 2 ^ 53) ≤ 2) hd
    linarith
  have herr : ∀ x : ℚ, |double x - x| ≤ 1 / 2 ^ 53 * |x| := by
    intro x; have := double_err x; rwa [div_eq_inv_mul, ← one_div] at this
  have hc := center_close (u := 1 / 2 ^ 53) (t := t) (size := size) (d := p - corner) (m := corner) (s := s)
    (e1 := double (rawIndex size corner p * s)) (o := Fl.cornerOffset isSingle corner s) (c := c) (i := rawIndex size corner p)
    (by norm_num) (by norm_num) ht0.1 ht0.2 hs hd i0 hi2 hsz
    (by have := herr (rawIndex size corner p * s); rwa [abs_of_nonneg (mul_nonneg i0' hspos)] at this)
    (offset_close isSingle hs hsz) (herr _)
  have hf := face_close (u := 1 / 2 ^ 53) (t := t) (size := size) (d := p - corner) (m := corner) (h := double (0.5 * s))
    (c := c) (p := p) (lo := double (c - double (0.5 * s))) (hi := double (c + double (0.5 * s)))
    (i := rawIndex size corner p) (by norm_num) (by norm_num) ht0.1 ht0.2 hs hd (by ring) i0 i1 i2 (half_close hs hsz).1 hc
    (herr _) (herr _)
  have htol : 32 * (1 / 2 ^ 53) * (p - corner) + (t + 8 * (1 / 2 ^ 53)) * (|corner| + size) ≤ slack isSingle size corner p := by
    unfold slack
    have e : 32 * (1 / 2 ^ 53) * (p - corner) = (p - corner) / 2 ^ 48 := by ring
    rw [e]
    have hm : 0 ≤ |corner| + size := by positivity
    have : (t + 8 * (1 / 2 ^ 53)) * (|corner| + size) ≤ (|corner| + size) / (if isSingle then 2 ^ 21 else 2 ^ 48) := by
      rw [div_eq_mul_inv (|corner| + size), mul_comm (|corner| + size)]
      apply mul_le_mul_of_nonneg_right _ hm
      rw [ht]
      cases isSingle <;> norm_num
    linarith
  exact ⟨hf.1.trans (by linarith), hf.2.1.trans (by linarith), by linarith [hf.2.2]⟩

/-- One coordinate: the faces of the voxel of `p` are about one voxel away. -/
theorem faces_near (isSingle : Bool) {size corner p : ℚ} (hs : 0 < size) (hp : corner ≤ p) :
    let s := double (1 / double (1 / size))
    let c := Fl.axisCenter isSingle corner s (rawIndex size corner p)
    p - size - 2 * slack isSingle size corner p ≤ double (c - double (0.5 * s)) ∧
    double (c + double (0.5 * s)) ≤ p + size + 2 * slack isSingle size corner p := by
  intro s c
  obtain ⟨h1, -, -⟩ := axis_close isSingle hs hp
  obtain ⟨k1, k2, k3⟩ := half_close hs (size_close hs)
  change |double (0.5 * s) - size / 2| ≤ 3 * (1 / 2 ^ 53) * size at k1
  change 0 ≤ double (0.5 * s) at k2
  change double (0.5 * s) ≤ size at k3
  change |c - p| ≤ size / 2 + slack isSingle size corner p at h1
  set h := double (0.5 * s)
  set tol := slack isSingle size corner p with htol
  have hd : 0 ≤ p - corner := by linarith
  have hm := abs_nonneg corner
  have hB : 32 * (1 / 2 ^ 53) * ((p - corner) + |corner| + size) ≤ tol := by
    rw [htol]; unfold slack
    have hmm : 0 ≤ |corner| + size := by positivity
    have e1 : 32 * (1 / 2 ^ 53) * ((p - corner) + |corner| + size) = (p - corner) / 2 ^ 48 + (|corner| + size) / 2 ^ 48 := by ring
    rw [e1]
    have : (|corner| + size) / 2 ^ 48 ≤ (|corner| + size) / (if isSingle then 2 ^ 21 else 2 ^ 48) :=
      div_le_div_of_nonneg_left hmm (by cases isSingle <;> norm_num) (by cases isSingle <;> norm_num)
    linarith
  have hpabs : |p| ≤ |corner| + (p - corner) := by
    have : p = corner + (p - corner) := by ring
    calc |p| = |corner + (p - corner)| := by rw [← this]
      _ ≤ _ := by
        refine (abs_add_le _ _).trans ?_
        rw [abs_of_nonneg hd]
  obtain ⟨p1, p2⟩ := abs_le.1 hpabs
  obtain ⟨c1, c2⟩ := abs_le.1 h1
  obtain ⟨g1, g2⟩ := abs_le.1 k1
  have hu3 : 3 * (1 / 2 ^ 53) * size ≤ size / 8 := by
    have : 3 * (1 / 2 ^ 53) * size ≤ 1 / 8 * size := mul_le_mul_of_nonneg_right (by norm_num) hs.le
    linarith
  have hu3' : 3 * (1 / 2 ^ 53) * size ≤ 3 * (1 / 2 ^ 53) * ((p - corner) + |corner| + size) :=
    mul_le_mul_of_nonneg_left (by linarith) (by norm_num)
  have htol0 : 0 ≤ tol := le_trans (by positivity) hB
  have key : ∀ x : ℚ, |x| ≤ |p| + 2 * size + tol → |double x - x| ≤ 2 * (1 / 2 ^ 53) * ((p - corner) + |corner| + size) + tol / 8 := by
    intro x hx
    have h5 := double_err x
    have h6 : |x| / 2 ^ 53 ≤ (2 * ((p - corner) + |corner| + size) + tol) / 2 ^ 53 := div_le_div_of_nonneg_right (by linarith) (by norm_num)
    have h7 : tol / 2 ^ 53 ≤ tol / 8 := div_le_div_of_nonneg_left htol0 (by norm_num) (by norm_num)
    have h8 : (2 * ((p - corner) + |corner| + size) + tol) / 2 ^ 53 =
        2 * (1 / 2 ^ 53) * ((p - corner) + |corner| + size) + tol / 2 ^ 53 := by ring
    rw [h8] at h6
    linarith
  have a := abs_le.1 (key (c - h) (by
    have e : c - h = p + ((c - p) - h) := by ring
    rw [e]
    refine (abs_add_le _ _).trans ?_
    have : |c - p - h| ≤ 2 * size + tol := by rw [abs_le]; constructor <;> linarith
    linarith))
  have b := abs_le.1 (key (c + h) (by
    have e : c + h = p + ((c - p) + h) := by ring
    rw [e]
    refine (abs_add_le _ _).trans ?_
    have : |c - p + h| ≤ 2 * size + tol := by rw [abs_le]; constructor <;> linarith
    linarith))
  constructor <;> linarith [a.1, a.2, b.1, b.2]

theorem nearCell_raw {size corner p : ℚ} (hs : 0 < size) (hp : corner ≤ p) : NearCell size corner (rawIndex size corner p) p := by
  obtain ⟨-, h1, h2⟩ := rawIndex_close hs hp
  unfold NearCell
  constructor <;> linarith

/-! ### Whole grids -/

/-- The point whose exact index is the index the program computes for `p`. -/
def shifted (g : VoxelGrid ℚ) (p : Vec3 ℚ) : Vec3 ℚ :=
  ⟨g.minCorner.x + double (double (p.x - g.minCorner.x) * g.scale) / g.scale,
   g.minCorner.y + double (double (p.y - g.minCorner.y) * g.scale) / g.scale,
   g.minCorner.z + double (double (p.z - g.minCorner.z) * g.scale) / g.scale⟩

theorem indexOf_shifted {g : VoxelGrid ℚ} (hg : g.scale ≠ 0) (p : Vec3 ℚ) : g.indexOf (shifted g p) = Fl.indexOf g p := by
  unfold VoxelGrid.indexOf shifted Fl.indexOf Fl.axisIndex
  simp only [add_sub_cancel_left, div_mul_cancel₀ _ hg]

theorem addPointsD_eq {g : Fl.Grid} (hg : g.grid.scale ≠ 0) (ps : List (Vec3 ℚ)) :
    Fl.addPoints g ps = (⟨(g.grid.addPoints (ps.map (shifted g.grid))).1, g.single⟩,
      (g.grid.addPoints (ps.map (shifted g.grid))).2) := by
  unfold Fl.addPoints VoxelGrid.addPoints
  simp only [List.map_map, Function.comp_def, indexOf_shifted hg]

/-- The voxel the program computes for a point. -/
def rawCell (size : ℚ) (corner p : Vec3 ℚ) : Vec3 ℤ :=
  ⟨rawIndex size corner.x p.x, rawIndex size corner.y p.y, rawIndex size corner.z p.z⟩

theorem indexOfD_eq {size : ℚ} (hs : 0 < size) {corner p : Vec3 ℚ} (ha : Above corner p)
    (hw : Within size corner (2 ^ 31 - 1) (2 ^ 31 - 1) (2 ^ 31 - 1) p) (sx sy : ℤ) (vs : List (Vec3 ℤ)) :
    Fl.indexOf ⟨double (1 / size), corner, vs, sx, sy⟩ p = rawCell size corner p := by
  have key : ∀ c q : ℚ, c ≤ q → q < c + ((2 ^ 31 - 1 : ℤ) : ℚ) * size →
      Fl.axisIndex (double (1 / size)) c q = rawIndex size c q := by
    intro c q h1 h2
    have := rawIndex_lt hs h1 (by norm_num) h2
    have h4 : rawIndex size c q < 2 ^ 31 := by omega
    exact toInt32_of (rawIndex_close hs h1).1 h4
  unfold Fl.indexOf rawCell
  rw [key _ _ ha.1 hw.1, key _ _ ha.2.1 hw.2.1, key _ _ ha.2.2 hw.2.2]

/-- A grid made from points above the corner. -/
theorem initD_ok {size : ℚ} (hs : 0 < size) (corner : Vec3 ℚ) (isSingle : Bool) {ps : List (Vec3 ℚ)} (hne : ps ≠ [])
    (ha : ∀ p ∈ ps, Above corner p) {nx ny : ℤ} (hn : (nx + 1) * (ny + 1) < 2 ^ 31)
    (hw : ∀ p ∈ ps, Within size corner nx ny (2 ^ 31 - 1) p) :
    ∃ g, Fl.init size corner isSingle (some ps) = .ok g ∧ g.single = isSingle ∧ g.grid.scale = double (1 / size) ∧
      g.grid.minCorner = corner ∧ g.grid.voxels.Nodup ∧ ∀ v, v ∈ g.grid.voxels ↔ ∃ p ∈ ps, v = rawCell size corner p := by
  have hsc : double (1 / size) ≠ 0 := (double_pos (by positivity)).ne'
  set g0 : VoxelGrid ℚ := ⟨double (1 / size), corner, [], 0, 0⟩ with hg0
  have hpos : ∀ c q : ℚ, ∀ n : ℤ, c ≤ q → q < c + n * size → 0 < n := by
    intro c q n h1 h2
    have h3 : 0 < n * size := by linarith
    have h4 : (0 : ℚ) < n := pos_of_mul_pos_left h3 hs.le
    exact_mod_cast h4
  obtain ⟨p0, hp0⟩ := List.exists_mem_of_ne_nil _ hne
  have hnx := hpos _ _ _ (ha p0 hp0).1 (hw p0 hp0).1
  have hny := hpos _ _ _ (ha p0 hp0).2.1 (hw p0 hp0).2.1
  have hnx31 : nx < 2 ^ 31 - 1 := by nlinarith
  have hny31 : ny < 2 ^ 31 - 1 := by nlinarith
  have big : ∀ p ∈ ps, Within size corner (2 ^ 31 - 1) (2 ^ 31 - 1) (2 ^ 31 - 1) p := by
    intro p hp
    obtain ⟨h1, h2, h3⟩ := hw p hp
    have a : (nx : ℚ) ≤ ((2 ^ 31 - 1 : ℤ) : ℚ) := by exact_mod_cast hnx31.le
    have b : (ny : ℚ) ≤ ((2 ^ 31 - 1 : ℤ) : ℚ) := by exact_mod_cast hny31.le
    refine ⟨?_, ?_, h3⟩ <;> nlinarith
  have hidx : ∀ p ∈ ps, Fl.indexOf g0 p = rawCell size corner p := fun p hp => indexOfD_eq hs (ha p hp) (big p hp) 0 0 []
  have hidx' : ∀ p ∈ ps, g0.indexOf (shifted g0 p) = rawCell size corner p := fun p hp => by
    rw [indexOf_shifted (g := g0) hsc, hidx p hp]
  obtain ⟨g', h1, h2, h3, h4, h5, -⟩ := addPoints_ok (g := g0) (ps := ps.map (shifted g0)) (by simpa using hne)
    (by
      intro q hq
      obtain ⟨p, hp, rfl⟩ := List.mem_map.1 hq
      rw [hidx' p hp]
      exact ⟨(rawIndex_close hs (ha p hp).1).1, (rawIndex_close hs (ha p hp).2.1).1, (rawIndex_close hs (ha p hp).2.2).1⟩)
    hn
    (by
      intro q hq
      obtain ⟨p, hp, rfl⟩ := List.mem_map.1 hq
      rw [hidx' p hp]
      exact rawIndex_lt hs (ha p hp).1 (by omega) (hw p hp).1)
    (by
      intro q hq
      obtain ⟨p, hp, rfl⟩ := List.mem_map.1 hq
      rw [hidx' p hp]
      exact rawIndex_lt hs (ha p hp).2.1 (by omega) (hw p hp).2.1)
    (by simp [hg0]) (by simp [hg0]) ⟨by simp [hg0], Or.inl ⟨rfl, rfl, rfl⟩⟩ (Or.inl (by simp [hg0]))
  refine ⟨⟨g', isSingle⟩, ?_, rfl, h2, h3, h4, ?_⟩
  · unfold Fl.init
    rw [if_neg (not_le.2 hs)]
    simp only [addPointsD_eq (g := ⟨g0, isSingle⟩) hsc, ← hg0, h1]
  · intro v
    rw [h5]
    simp only [hg0, List.not_mem_nil, false_or, List.mem_map]
    constructor
    · rintro ⟨q, ⟨p, hp, rfl⟩, rfl⟩
      exact ⟨p, hp, hidx' p hp⟩
    · rintro ⟨p, hp, rfl⟩
      exact ⟨_, ⟨p, hp, rfl⟩, (hidx' p hp).symm⟩

end Sumo
