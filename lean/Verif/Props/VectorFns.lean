import Verif.Model.VectorFns
import Verif.Props.FloatRange
import Verif.Props.FloatAp
import Verif.Lemmas.Mesh
import Mathlib.Tactic.Linarith
import Mathlib.Tactic.LinearCombination
import Mathlib.Tactic.FieldSimp
import Mathlib.Tactic.Ring
import Mathlib.Tactic.Positivity

/-! # Properties of `unitize` and `on_left` (C165, C166) -/

namespace Sumo

open FloatRigidSpec FloatRangeSpec

/-! ### `unitize` -/

/-- **C165.** In exact arithmetic `unitize` returns the vector of length 1 in the same direction, and the zero vector for the zero
vector. -/
theorem C165_exact (v : Vec3 ℝ) :
    (v ≠ 0 → (unitize v).norm = 1 ∧ v = Vec3.smul v.norm (unitize v)) ∧ unitize (0 : Vec3 ℝ) = 0 := by
  constructor
  · intro hv
    have hpos : 0 < v.normSq := by
      rcases lt_or_eq_of_le (normSq_nonneg' v) with h | h
      · exact h
      · exfalso
        apply hv
        have h' : v.x * v.x + v.y * v.y + v.z * v.z = 0 := h.symm
        have hx : v.x = 0 := by nlinarith [mul_self_nonneg v.x, mul_self_nonneg v.y, mul_self_nonneg v.z]
        have hy : v.y = 0 := by nlinarith [mul_self_nonneg v.x, mul_self_nonneg v.y, mul_self_nonneg v.z]
        have hz : v.z = 0 := by nlinarith [mul_self_nonneg v.x, mul_self_nonneg v.y, mul_self_nonneg v.z]
        ext <;> simp [hx, hy, hz]
    have hn : 0 < Real.sqrt v.normSq := Real.sqrt_pos.2 hpos
    have hs := Real.sq_sqrt hpos.le
    have hs' : Real.sqrt v.normSq ^ 2 = v.x * v.x + v.y * v.y + v.z * v.z := hs
    have e : unitize v = ⟨v.x / Real.sqrt v.normSq, v.y / Real.sqrt v.normSq, v.z / Real.sqrt v.normSq⟩ := if_pos hn.ne'
    rw [e]
    have hvn : v.norm = Real.sqrt v.normSq := rfl
    rw [hvn]
    generalize Real.sqrt v.normSq = n at *
    constructor
    · have : (⟨v.x / n, v.y / n, v.z / n⟩ : Vec3 ℝ).normSq = 1 := by
        simp only [Vec3.normSq, Vec3.dot]
        field_simp
        linarith
      unfold Vec3.norm
      rw [this, Real.sqrt_one]
    · ext <;> simp only [Vec3.smul] <;> field_simp
  · have : (0 : Vec3 ℝ).normSq = 0 := by simp [Vec3.normSq, Vec3.dot]
    unfold unitize
    rw [this]
    simp

theorem coordinate_err {n' x : ℚ} {n : ℝ} (hn : 0 < n) (h : |(n' : ℝ) - n| ≤ n * (6 / 2 ^ 52)) :
    |((double (x / n') : ℚ) : ℝ) - x / n| ≤ 1 / 2 ^ 49 * |(x : ℝ) / n| := by
  rcases lt_trichotomy x 0 with hx | hx | hx
  · have := scale_err (r := -x) hn (by linarith) h
    have hx' : (x : ℝ) < 0 := by exact_mod_cast hx
    rw [neg_div, double_neg] at this
    push_cast at this
    rw [abs_of_neg (div_neg_of_neg_of_pos hx' hn), ← abs_neg]
    rw [neg_div] at this
    rw [show -(((double (x / n') : ℚ) : ℝ) - x / n) = -((double (x / n') : ℚ) : ℝ) - -((x : ℝ) / n) by ring]
    exact this
  · subst hx
    simp
  · have := scale_err hn hx h
    have hx' : (0 : ℝ) < x := by exact_mod_cast hx
    rwa [abs_of_pos (div_pos hx' hn)]

/-- **C165.** In double precision the result is within `2^-49` of the vector of length 1 in the same direction; the zero vector stays. -/
theorem C165_double {norm : Vec3 ℚ → ℚ} (hn : GoodNorm norm) (v : Vec3 ℚ) :
    (v ≠ 0 → (rv (Fl.unitize norm v) - unitize (rv v)).norm ≤ 1 / 2 ^ 49 ∧ |(rv (Fl.unitize norm v)).norm - 1| ≤ 1 / 2 ^ 49) ∧
      Fl.unitize norm 0 = 0 := by
  have key : ∀ w : Vec3 ℚ, |(norm w : ℝ) - (rv w).norm| ≤ (rv w).norm * (6 / 2 ^ 52) := fun w =>
    norm_near hn (by simp [rv]) (by simp [rv]) (by simp [rv])
  constructor
  · intro hv
    have hv' : rv v ≠ 0 := by
      intro h
      apply hv
      have hx := congrArg Vec3.x h
      have hy := congrArg Vec3.y h
      have hz := congrArg Vec3.z h
      simp only [rv, Vec3.zero_x, Vec3.zero_y, Vec3.zero_z, Rat.cast_eq_zero] at hx hy hz
      ext <;> simp [hx, hy, hz]
    obtain ⟨h1, h2⟩ := (C165_exact (rv v)).1 hv'
    have hpos : 0 < (rv v).norm := by
      rcases lt_or_eq_of_le (vnorm_nonneg (rv v)) with h | h
      · exact h
      · exfalso
        apply hv'
        rw [h2, ← h]
        ext <;> simp [Vec3.smul]
    have hk := key v
    have hn0 : norm v ≠ 0 := by
      intro h0
      rw [h0, Rat.cast_zero, zero_sub, abs_neg, abs_of_pos hpos] at hk
      nlinarith
    have e : unitize (rv v) = ⟨(v.x : ℝ) / (rv v).norm, (v.y : ℝ) / (rv v).norm, (v.z : ℝ) / (rv v).norm⟩ := if_pos hpos.ne'
    have e' : Fl.unitize norm v = ⟨double (v.x / norm v), double (v.y / norm v), double (v.z / norm v)⟩ := if_pos hn0
    have hd : (rv (Fl.unitize norm v) - unitize (rv v)).norm ≤ 1 / 2 ^ 49 := by
      have := vnorm_le_scaled (e := rv (Fl.unitize norm v) - unitize (rv v)) (w := unitize (rv v)) (k := 1 / 2 ^ 49) (by norm_num)
        (by rw [e, e']; exact coordinate_err hpos hk) (by rw [e, e']; exact coordinate_err hpos hk)
        (by rw [e, e']; exact coordinate_err hpos hk)
      rwa [h1, mul_one] at this
    refine ⟨hd, ?_⟩
    have t1 := vnorm_le_of (rv (Fl.unitize norm v)) (unitize (rv v))
    have t2 := vnorm_le_of (unitize (rv v)) (rv (Fl.unitize norm v))
    rw [vnorm_sub_comm] at t2
    rw [h1] at t1 t2
    rw [abs_le]
    constructor <;> linarith
  · have h0 := key 0
    have hz : rv (0 : Vec3 ℚ) = 0 := by ext <;> simp [rv]
    rw [hz, vnorm_zero, zero_mul, sub_zero] at h0
    have h1 : norm 0 = 0 := by
      have := abs_nonpos_iff.1 h0
      exact_mod_cast this
    unfold Fl.unitize
    rw [if_neg (by simp [h1])]

/-- **C165.** The length of the result, computed again, need not be exactly 1. -/
theorem C165_not_exact : ∃ norm, GoodNorm norm ∧ ∃ v : Vec3 ℚ, v ≠ 0 ∧ norm (Fl.unitize norm v) ≠ 1 :=
  ⟨leftNorm, leftNorm_good, ⟨1, 0, 1⟩, by decide, by decide +kernel⟩

/-! ### `on_left` -/

section
variable {K : Type} [Field K] [LinearOrder K] [IsStrictOrderedRing K]

/-- **C166.** `on_left` decides whether a point of the plane of a triangle lies in the triangle: exactly if it is on the left of all three
sides, seen against the normal of a triangle that runs counterclockwise. -/
theorem C166_triangle {N a b c p : Vec3 K} (ccw : 0 < N.dot ((b - a).cross (c - a))) {β γ : K}
    (hp : p = a + Vec3.smul β (b - a) + Vec3.smul γ (c - a)) :
    (onLeft N p a b = true ∧ onLeft N p b c = true ∧ onLeft N p c a = true) ↔
      ∃ u v w : K, 0 ≤ u ∧ 0 ≤ v ∧ 0 ≤ w ∧ u + v + w = 1 ∧ p = Vec3.smul u a + Vec3.smul v b + Vec3.smul w c := by
  have key : ∀ u v w : K, u + v + w = 1 → p = Vec3.smul u a + Vec3.smul v b + Vec3.smul w c →
      N.dot ((b - a).cross (p - a)) = w * N.dot ((b - a).cross (c - a)) ∧
      N.dot ((c - b).cross (p - b)) = u * N.dot ((b - a).cross (c - a)) ∧
      N.dot ((a - c).cross (p - c)) = v * N.dot ((b - a).cross (c - a)) := by
    intro u v w h e
    have hu : u = 1 - v - w := by linear_combination h
    subst hu
    subst e
    simp only [Vec3.dot, Vec3.cross, Vec3.smul, Vec3.sub_x, Vec3.sub_y, Vec3.sub_z, Vec3.add_x, Vec3.add_y, Vec3.add_z]
    refine ⟨by ring, by ring, by ring⟩
  simp only [onLeft, decide_eq_true_eq]
  constructor
  · rintro ⟨h1, h2, h3⟩
    have e : p = Vec3.smul (1 - β - γ) a + Vec3.smul β b + Vec3.smul γ c := by
      rw [hp]
      ext <;> simp only [Vec3.smul, Vec3.sub_x, Vec3.sub_y, Vec3.sub_z, Vec3.add_x, Vec3.add_y, Vec3.add_z] <;> ring
    obtain ⟨k1, k2, k3⟩ := key (1 - β - γ) β γ (by ring) e
    rw [k1] at h1; rw [k2] at h2; rw [k3] at h3
    exact ⟨1 - β - γ, β, γ, nonneg_of_mul_nonneg_left h2 ccw, nonneg_of_mul_nonneg_left h3 ccw, nonneg_of_mul_nonneg_left h1 ccw,
      by ring, e⟩
  · rintro ⟨u, v, w, hu, hv, hw, h, e⟩
    obtain ⟨k1, k2, k3⟩ := key u v w h e
    rw [k1, k2, k3]
    exact ⟨mul_nonneg hw ccw.le, mul_nonneg hu ccw.le, mul_nonneg hv ccw.le⟩

/-- **C166.** Every point is on the left of a line or of the line reversed, and of both exactly if it lies on the line as seen along the
normal. -/
theorem C166_reverse (N p a b : Vec3 K) :
    (onLeft N p a b = true ∨ onLeft N p b a = true) ∧
      ((onLeft N p a b = true ∧ onLeft N p b a = true) ↔ N.dot ((b - a).cross (p - a)) = 0) := by
  have e : N.dot ((a - b).cross (p - b)) = -N.dot ((b - a).cross (p - a)) := by
    simp only [Vec3.dot, Vec3.cross, Vec3.sub_x, Vec3.sub_y, Vec3.sub_z]; ring
  simp only [onLeft, decide_eq_true_eq, e, Left.nonneg_neg_iff]
  exact ⟨le_total _ _, fun h => le_antisymm h.2 h.1, fun h => ⟨h.ge, h.le⟩⟩

end

/-- **C166.** Moving everything by a rotation and a translation changes nothing. -/
theorem C166_rigid {R : Mat3 ℝ} (hR : IsRotation R) (t N p a b : Vec3 ℝ) :
    onLeft (R.mulVec N) (R.mulVec p + t) (R.mulVec a + t) (R.mulVec b + t) = onLeft N p a b := by
  have e : ∀ v w : Vec3 ℝ, (R.mulVec v + t) - (R.mulVec w + t) = R.mulVec (v - w) := by
    intro v w
    ext <;> simp only [Mat3.mulVec, Vec3.sub_x, Vec3.sub_y, Vec3.sub_z, Vec3.add_x, Vec3.add_y, Vec3.add_z] <;> ring
  unfold onLeft
  rw [e, e, cross_mulVec hR, dot_mulVec R hR.1]

/-! ### `on_left` in double precision -/

namespace Fl

/-- `c` is `x` after `k` roundings of quantities of size `S`. -/
def After (k : ℕ) (c x S : ℚ) : Prop := |x| ≤ S ∧ |c - x| ≤ ((1 + 1 / 2 ^ 53) ^ k - 1) * S

theorem one_le_growth (k : ℕ) : (1 : ℚ) ≤ (1 + 1 / 2 ^ 53) ^ k := one_le_pow₀ (by norm_num)

namespace After

variable {k l : ℕ} {c d x y S T : ℚ}

theorem refl (x : ℚ) : After 0 x x |x| := ⟨le_rfl, by simp⟩

theorem abs_le (h : After k c x S) : |c| ≤ (1 + 1 / 2 ^ 53) ^ k * S := by
  have := abs_add_le (c - x) x
  rw [sub_add_cancel] at this
  linarith [h.1, h.2]

theorem round (h : After k c x S) : After (k + 1) (double c) x S := by
  refine ⟨h.1, ?_⟩
  have h1 := abs_add_le (double c - c) (c - x)
  rw [sub_add_sub_cancel] at h1
  have h2 := double_err c
  have h3 := h.abs_le
  have h4 : |c| / 2 ^ 53 ≤ (1 + 1 / 2 ^ 53) ^ k * S / 2 ^ 53 := div_le_div_of_nonneg_right h3 (by norm_num)
  rw [pow_succ]
  linarith [h.2]

theorem sub (h : After k c x S) (g : After k d y T) : After k (c - d) (x - y) (S + T) := by
  refine ⟨(abs_sub _ _).trans (add_le_add h.1 g.1), ?_⟩
  have := abs_sub (c - x) (d - y)
  rw [show c - d - (x - y) = c - x - (d - y) by ring]
  linarith [h.2, g.2]

theorem mul (h : After k c x S) (g : After l d y T) : After (k + l) (c * d) (x * y) (S * T) := by
  have hS : 0 ≤ S := (abs_nonneg _).trans h.1
  have hT : 0 ≤ T := (abs_nonneg _).trans g.1
  refine ⟨by rw [abs_mul]; exact mul_le_mul h.1 g.1 (abs_nonneg _) hS, ?_⟩
  rw [show c * d - x * y = (c - x) * d + x * (d - y) by ring]
  have h1 := abs_add_le ((c - x) * d) (x * (d - y))
  rw [abs_mul, abs_mul] at h1
  have h2 := mul_le_mul h.2 g.abs_le (abs_nonneg _) (mul_nonneg (by linarith [one_le_growth k]) hS)
  have h3 := mul_le_mul h.1 g.2 (abs_nonneg _) hS
  rw [pow_add]
  nlinarith

end After

theorem flSum_err {l : List ℚ} {s : ℚ} (h : FlSum l s) :
    |s - l.sum| ≤ ((1 + 1 / 2 ^ 53) ^ l.length - 1) * (l.map abs).sum ∧ |l.sum| ≤ (l.map abs).sum := by
  have pos : ∀ l : List ℚ, 0 ≤ (l.map abs).sum := fun l => List.sum_nonneg (by
    intro x hx; obtain ⟨y, -, rfl⟩ := List.mem_map.1 hx; exact abs_nonneg y)
  induction h with
  | nil => simp
  | one x => simp
  | @add l k s t hl hk _ _ ih1 ih2 =>
    rw [List.sum_append, List.map_append, List.sum_append, List.length_append]
    obtain ⟨a1, a2⟩ := ih1
    obtain ⟨b1, b2⟩ := ih2
    refine ⟨?_, (abs_add_le _ _).trans (add_le_add a2 b2)⟩
    have pl := pos l
    have pk := pos k
    generalize (l.map abs).sum = A at *
    generalize (k.map abs).sum = B at *
    have h1 : |double (s + t) - (l.sum + k.sum)| ≤ |double (s + t) - (s + t)| + (|s - l.sum| + |t - k.sum|) := by
      have e : double (s + t) - (l.sum + k.sum) = (double (s + t) - (s + t)) + ((s - l.sum) + (t - k.sum)) := by ring
      rw [e]
      exact (abs_add_le _ _).trans (add_le_add le_rfl (abs_add_le _ _))
    have h2 := double_err (s + t)
    have h3 : |s + t| ≤ (1 + 1 / 2 ^ 53) ^ l.length * A + (1 + 1 / 2 ^ 53) ^ k.length * B := by
      have e : s + t = (s - l.sum) + l.sum + ((t - k.sum) + k.sum) := by ring
      rw [e]
      refine (abs_add_le _ _).trans ?_
      have := abs_add_le (s - l.sum) l.sum
      have := abs_add_le (t - k.sum) k.sum
      linarith
    have gl := one_le_growth l.length
    have gk := one_le_growth k.length
    have g1 : (1 + 1 / 2 ^ 53 : ℚ) ^ l.length * (1 + 1 / 2 ^ 53) ≤ (1 + 1 / 2 ^ 53) ^ (l.length + k.length) := by
      rw [← pow_succ]
      exact pow_le_pow_right₀ (by norm_num) (by have := List.length_pos_iff.2 hk; omega)
    have g2 : (1 + 1 / 2 ^ 53 : ℚ) ^ k.length * (1 + 1 / 2 ^ 53) ≤ (1 + 1 / 2 ^ 53) ^ (l.length + k.length) := by
      rw [← pow_succ]
      exact pow_le_pow_right₀ (by norm_num) (by have := List.length_pos_iff.2 hl; omega)
    have m1 := mul_le_mul_of_nonneg_right g1 pl
    have m2 := mul_le_mul_of_nonneg_right g2 pk
    have h4 : |s + t| / 2 ^ 53 ≤ ((1 + 1 / 2 ^ 53) ^ l.length * A + (1 + 1 / 2 ^ 53) ^ k.length * B) / 2 ^ 53 :=
      div_le_div_of_nonneg_right h3 (by norm_num)
    linarith
  | @perm l k s _ hp ih =>
    rw [← hp.sum_eq, ← hp.length_eq, ← (hp.map abs).sum_eq]
    exact ih

/-- The sum of the sizes of the six products in `N · ((b - a) × (p - a))`. -/
def leftSize (N p a b : Vec3 ℚ) : ℚ :=
  |N.x| * (|(b.y - a.y) * (p.z - a.z)| + |(b.z - a.z) * (p.y - a.y)|) +
    |N.y| * (|(b.z - a.z) * (p.x - a.x)| + |(b.x - a.x) * (p.z - a.z)|) +
    |N.z| * (|(b.x - a.x) * (p.y - a.y)| + |(b.y - a.y) * (p.x - a.x)|)

theorem left_err {sum : List ℚ → ℚ} (hsum : ∀ l, FlSum l (sum l)) (N p a b : Vec3 ℚ) :
    |sum (leftTerms N p a b) - N.dot ((b - a).cross (p - a))| ≤ leftSize N p a b / 2 ^ 49 := by
  have diff : ∀ x y : ℚ, After 1 (double (x - y)) (x - y) |x - y| := fun x y => (After.refl (x - y)).round
  have term : ∀ n x1 y1 x2 y2 x3 y3 x4 y4 : ℚ, After 5
      (double (n * double (double (double (x1 - y1) * double (x2 - y2)) - double (double (x3 - y3) * double (x4 - y4)))))
      (n * ((x1 - y1) * (x2 - y2) - (x3 - y3) * (x4 - y4)))
      (|n| * (|(x1 - y1) * (x2 - y2)| + |(x3 - y3) * (x4 - y4)|)) := by
    intro n x1 y1 x2 y2 x3 y3 x4 y4
    have h := ((After.refl n).mul ((((diff x1 y1).mul (diff x2 y2)).round.sub ((diff x3 y3).mul (diff x4 y4)).round).round)).round
    rw [abs_mul (x1 - y1), abs_mul (x3 - y3)]
    exact h
  have tx := term N.x b.y a.y p.z a.z b.z a.z p.y a.y
  have ty := term N.y b.z a.z p.x a.x b.x a.x p.z a.z
  have tz := term N.z b.x a.x p.y a.y b.y a.y p.x a.x
  have hs := (flSum_err (hsum (leftTerms N p a b))).1
  have hlen : (leftTerms N p a b).length = 3 := rfl
  rw [hlen] at hs
  have e1 : (leftTerms N p a b).sum = double (N.x * (cross3 (sub3 b a) (sub3 p a)).x) +
      (double (N.y * (cross3 (sub3 b a) (sub3 p a)).y) + double (N.z * (cross3 (sub3 b a) (sub3 p a)).z)) := by
    simp [leftTerms]
  have e2 : ((leftTerms N p a b).map abs).sum = |double (N.x * (cross3 (sub3 b a) (sub3 p a)).x)| +
      (|double (N.y * (cross3 (sub3 b a) (sub3 p a)).y)| + |double (N.z * (cross3 (sub3 b a) (sub3 p a)).z)|) := by
    simp [leftTerms]
  rw [e1, e2] at hs
  have e3 : N.dot ((b - a).cross (p - a)) = N.x * ((b.y - a.y) * (p.z - a.z) - (b.z - a.z) * (p.y - a.y)) +
      N.y * ((b.z - a.z) * (p.x - a.x) - (b.x - a.x) * (p.z - a.z)) +
      N.z * ((b.x - a.x) * (p.y - a.y) - (b.y - a.y) * (p.x - a.x)) := rfl
  have ax := tx.abs_le
  have ay := ty.abs_le
  have az := tz.abs_le
  have bx := tx.2
  have by_ := ty.2
  have bz := tz.2
  have px := (abs_nonneg _).trans tx.1
  have py := (abs_nonneg _).trans ty.1
  have pz := (abs_nonneg _).trans tz.1
  have f1 : double (N.x * (cross3 (sub3 b a) (sub3 p a)).x) = double (N.x * double (double (double (b.y - a.y) * double (p.z - a.z)) -
    double (double (b.z - a.z) * double (p.y - a.y)))) := rfl
  have f2 : double (N.y * (cross3 (sub3 b a) (sub3 p a)).y) = double (N.y * double (double (double (b.z - a.z) * double (p.x - a.x)) -
    double (double (b.x - a.x) * double (p.z - a.z)))) := rfl
  have f3 : double (N.z * (cross3 (sub3 b a) (sub3 p a)).z) = double (N.z * double (double (double (b.x - a.x) * double (p.y - a.y)) -
    double (double (b.y - a.y) * double (p.x - a.x)))) := rfl
  rw [f1, f2, f3] at hs
  rw [e3]
  unfold leftSize
  clear tx ty tz e1 e2 e3 f1 f2 f3 hlen term diff
  generalize sum (leftTerms N p a b) = s at *
  generalize double (N.x * double (double (double (b.y - a.y) * double (p.z - a.z)) -
    double (double (b.z - a.z) * double (p.y - a.y)))) = cx at *
  generalize double (N.y * double (double (double (b.z - a.z) * double (p.x - a.x)) -
    double (double (b.x - a.x) * double (p.z - a.z)))) = cy at *
  generalize double (N.z * double (double (double (b.x - a.x) * double (p.y - a.y)) -
    double (double (b.y - a.y) * double (p.x - a.x)))) = cz at *
  generalize |N.x| * (|(b.y - a.y) * (p.z - a.z)| + |(b.z - a.z) * (p.y - a.y)|) = X at *
  generalize |N.y| * (|(b.z - a.z) * (p.x - a.x)| + |(b.x - a.x) * (p.z - a.z)|) = Y at *
  generalize |N.z| * (|(b.x - a.x) * (p.y - a.y)| + |(b.y - a.y) * (p.x - a.x)|) = Z at *
  generalize N.x * ((b.y - a.y) * (p.z - a.z) - (b.z - a.z) * (p.y - a.y)) = x at *
  generalize N.y * ((b.z - a.z) * (p.x - a.x) - (b.x - a.x) * (p.z - a.z)) = y at *
  generalize N.z * ((b.x - a.x) * (p.y - a.y) - (b.y - a.y) * (p.x - a.x)) = z at *
  have t : |s - (x + y + z)| ≤ |s - (cx + (cy + cz))| + (|cx - x| + (|cy - y| + |cz - z|)) := by
    have e : s - (x + y + z) = (s - (cx + (cy + cz))) + ((cx - x) + ((cy - y) + (cz - z))) := by ring
    rw [e]
    exact (abs_add_le _ _).trans (add_le_add le_rfl ((abs_add_le _ _).trans (add_le_add le_rfl (abs_add_le _ _))))
  norm_num at *
  linarith

/-- **C166.** In double precision, however the sum is computed, the answer is right for every point that is farther from the line than the
rounding: if the exact product is not within `2^-49` of the sizes of its terms from 0. -/
theorem C166_double_partial {sum : List ℚ → ℚ} (hsum : ∀ l, FlSum l (sum l)) (N p a b : Vec3 ℚ)
    (h : leftSize N p a b / 2 ^ 49 < |N.dot ((b - a).cross (p - a))|) : onLeft sum N p a b = Sumo.onLeft N p a b := by
  have e := left_err hsum N p a b
  unfold onLeft Sumo.onLeft
  generalize N.dot ((b - a).cross (p - a)) = x at *
  generalize sum (leftTerms N p a b) = s at *
  generalize leftSize N p a b / 2 ^ 49 = m at *
  rw [_root_.abs_le] at e
  rw [decide_eq_decide]
  rcases le_or_gt 0 x with hx | hx
  · rw [abs_of_nonneg hx] at h
    exact ⟨fun _ => hx, fun _ => by linarith [e.1]⟩
  · rw [abs_of_neg hx] at h
    exact ⟨fun hs => by linarith [e.2], fun h0 => by linarith⟩

/-- **C166.** Without this the answer can be wrong: a point to the right of a line is said to be on the left. -/
theorem C166_false : ∃ sum, (∀ l, FlSum l (sum l)) ∧ ∃ N p a b : Vec3 ℚ,
    (IsDouble p.x ∧ IsDouble p.y ∧ IsDouble b.x ∧ IsDouble b.y) ∧ Sumo.onLeft N p a b = false ∧ onLeft sum N p a b = true := by
  have h1 : IsDouble (1 + 1 / 2 ^ 52) := ⟨2 ^ 52 + 1, -52, by norm_num, by norm_num [zpow_neg]⟩
  have h2 : IsDouble (1 + 1 / 2 ^ 51) := ⟨2 ^ 51 + 1, -51, by norm_num, by norm_num [zpow_neg]⟩
  exact ⟨leftSum, leftSum_flSum, ⟨0, 0, 1⟩, ⟨1 + 1 / 2 ^ 52, 1 + 1 / 2 ^ 51, 0⟩, 0, ⟨1, 1 + 1 / 2 ^ 52, 0⟩,
    ⟨h1, h2, isDouble_one, h1⟩, by decide +kernel, by decide +kernel⟩

/-- Non-vacuity: the test of the project. -/
example : leftSize ⟨0, 0, 1⟩ ⟨0, 2, 0⟩ ⟨0, 0, 0⟩ ⟨1, 0, 0⟩ / 2 ^ 49 <
    |(⟨0, 0, 1⟩ : Vec3 ℚ).dot (((⟨1, 0, 0⟩ : Vec3 ℚ) - ⟨0, 0, 0⟩).cross (⟨0, 2, 0⟩ - ⟨0, 0, 0⟩))| ∧
    onLeft leftSum ⟨0, 0, 1⟩ ⟨0, 2, 0⟩ ⟨0, 0, 0⟩ ⟨1, 0, 0⟩ = true := ⟨by decide +kernel, by decide +kernel⟩

end Fl

/-- Non-vacuity of `C166_triangle`: a point on a side. -/
example : (0 : ℚ) < (⟨0, 0, 1⟩ : Vec3 ℚ).dot (((⟨2, 0, 0⟩ : Vec3 ℚ) - 0).cross (⟨0, 2, 0⟩ - 0)) ∧
    (⟨1, 0, 0⟩ : Vec3 ℚ) = 0 + Vec3.smul (1 / 2) (⟨2, 0, 0⟩ - 0) + Vec3.smul 0 (⟨0, 2, 0⟩ - 0) ∧
    onLeft (⟨0, 0, 1⟩ : Vec3 ℚ) ⟨1, 0, 0⟩ 0 ⟨2, 0, 0⟩ = true := ⟨by decide +kernel, by decide +kernel, by decide +kernel⟩

end Sumo
