import Verif.Lemmas.FloatRigid
import Verif.Lemmas.FloatRms
import Verif.Lemmas.RangeImage
import Verif.Spec.FloatRange

/-! # Helper lemmas for point clouds from range images in double precision -/

namespace Sumo
open FloatRigidSpec FloatRangeSpec

theorem isDouble_half {n : ℤ} (h : |n| ≤ 2 ^ 53) : IsDouble ((n : ℚ) / 2) := ⟨n, -1, h, by rw [zpow_neg_one]; ring⟩

theorem double_half {n : ℤ} {x : ℚ} (h : |n| ≤ 2 ^ 53) (hx : x = (n : ℚ) / 2) : double x = x := by
  rw [hx]; exact double_of_isDouble (isDouble_half h)

theorem double_centre {n : ℕ} (h : n ≤ 2 ^ 40) : double ((n : ℚ) + 1 / 2) = (n : ℚ) + 1 / 2 :=
  double_half (n := (2 * n + 1 : ℤ)) (abs_le.2 ⟨by omega, by omega⟩) (by push_cast; ring)

/-- The quotient of a column by the side falls into the right face, also when it is rounded. -/
theorem face_eq {side col : ℕ} (hs : side ≤ 2 ^ 31) (h0 : 0 < side) (hc : col < 6 * side) :
    CubeMap.toSizeT (double (((col : ℚ) + 1 / 2) / side)) = col / side := by
  have hsq : (0 : ℚ) < side := by exact_mod_cast h0
  have hs' : (side : ℚ) ≤ 2 ^ 31 := by exact_mod_cast hs
  have hf : col / side < 6 := by rw [Nat.div_lt_iff_lt_mul h0]; exact hc
  have hd : (col : ℚ) = side * ((col / side : ℕ) : ℚ) + ((col % side : ℕ) : ℚ) := by
    exact_mod_cast (Nat.div_add_mod col side).symm
  have hm : ((col % side : ℕ) : ℚ) + 1 ≤ side := by exact_mod_cast Nat.mod_lt col h0
  have hm0 : (0 : ℚ) ≤ ((col % side : ℕ) : ℚ) := Nat.cast_nonneg _
  set f : ℕ := col / side with hfdef
  set m : ℚ := ((col % side : ℕ) : ℚ) with hmdef
  have hf6 : (f : ℚ) ≤ 5 := by exact_mod_cast (by omega : f ≤ 5)
  have hq : ((col : ℚ) + 1 / 2) / side = f + (m + 1 / 2) / side := by
    rw [hd]; field_simp; ring
  have hlo : (f : ℚ) ≤ double (((col : ℚ) + 1 / 2) / side) := by
    refine le_double ?_ (isDouble_nat (by omega))
    rw [hq]
    have : 0 ≤ (m + 1 / 2) / (side : ℚ) := by positivity
    linarith
  have hr : (m + 1 / 2) / (side : ℚ) ≤ 1 - 1 / 2 ^ 32 := by
    rw [div_le_iff₀ hsq]
    nlinarith
  have hhi : double (((col : ℚ) + 1 / 2) / side) < f + 1 := by
    have hq0 : 0 ≤ ((col : ℚ) + 1 / 2) / side := by positivity
    have := double_le_mul hq0
    rw [hq] at this ⊢
    have h6 : (f : ℚ) + (m + 1 / 2) / side ≤ 6 := by linarith
    nlinarith
  have hf0 : (0 : ℚ) ≤ f := Nat.cast_nonneg f
  unfold CubeMap.toSizeT
  rw [if_neg (by linarith), if_neg (by linarith)]
  have : ⌊double (((col : ℚ) + 1 / 2) / side)⌋ = (f : ℤ) := by
    rw [Int.floor_eq_iff]; exact ⟨by exact_mod_cast hlo, by exact_mod_cast hhi⟩
  rw [this]; simp

/-- The coordinates on a face are the exact ones, rounded once. -/
theorem sensor_eq {side c r : ℕ} (hs : side ≤ 2 ^ 31) (h0 : 0 < side) (hc : c < side) (hr : r < side) :
    Fl.sensorOfPixel side ⟨(c : ℚ) + 1 / 2, (r : ℚ) + 1 / 2⟩ =
      ⟨double ((2 * (c : ℚ) + 1) / side - 1), double ((2 * (r : ℚ) + 1) / side - 1)⟩ := by
  have hsq : (0 : ℚ) < side := by exact_mod_cast h0
  have e1 : double (side : ℚ) = side := double_nat (by omega)
  have e2 : double ((side : ℚ) / 2) = side / 2 :=
    double_half (n := (side : ℤ)) (abs_le.2 ⟨by omega, by omega⟩) (by push_cast; ring)
  have e3 : ∀ k : ℕ, k < side → double ((k : ℚ) + 1 / 2 - (side : ℚ) / 2) = (k : ℚ) + 1 / 2 - (side : ℚ) / 2 := fun k hk =>
    double_half (n := (2 * k + 1 - side : ℤ)) (abs_le.2 ⟨by omega, by omega⟩) (by push_cast; ring)
  have e4 : ∀ k : ℚ, (k + 1 / 2 - (side : ℚ) / 2) / ((side : ℚ) / 2) = (2 * k + 1) / side - 1 := fun k => by
    field_simp
  unfold Fl.sensorOfPixel
  simp only [e1, e2, e3 c hc, e3 r hr, e4]

/-- The ray of a pixel: the exact ray with its coordinates rounded. -/
theorem fl_unproject {side row col : ℕ} (hs : side ≤ 2 ^ 31) (hrow : row < side) (hcol : col < 6 * side) :
    ∃ F : CubeFace ℚ, (cubeFaces : List (CubeFace ℚ))[col / side]? = some F ∧
      Fl.unproject side ⟨(col : ℚ) + 1 / 2, (row : ℚ) + 1 / 2⟩ =
        .ok (F.at (double ((2 * ((col % side : ℕ) : ℚ) + 1) / side - 1)) (double ((2 * (row : ℚ) + 1) / side - 1))) := by
  have h0 : 0 < side := by omega
  have hf : col / side < 6 := by rw [Nat.div_lt_iff_lt_mul h0]; exact hcol
  have hsd : double (side : ℚ) = side := double_nat (by omega)
  have h6 : double ((6 * side : ℕ) : ℚ) = (6 * side : ℕ) := double_nat (by omega)
  have hx : ¬ ((col : ℚ) + 1 / 2 = double ((6 * side : ℕ) : ℚ)) := by
    rw [h6]
    have : (col : ℚ) + 1 ≤ (6 * side : ℕ) := by exact_mod_cast hcol
    intro h; linarith
  have hdm := Nat.div_add_mod col side
  have hm := Nat.mod_lt col h0
  have ho : double (((side * (col / side) : ℕ)) : ℚ) = (side * (col / side) : ℕ) :=
    double_nat (by omega)
  have hd : (col : ℚ) + 1 / 2 - ((side * (col / side) : ℕ) : ℚ) = ((col % side : ℕ) : ℚ) + 1 / 2 := by
    have : (col : ℚ) = ((side * (col / side) : ℕ) : ℚ) + ((col % side : ℕ) : ℚ) := by exact_mod_cast hdm.symm
    rw [this]; ring
  have hd' : double (((col % side : ℕ) : ℚ) + 1 / 2) = ((col % side : ℕ) : ℚ) + 1 / 2 :=
    double_centre (by omega)
  have hr' : double ((row : ℚ) + 1 / 2 - 0) = (row : ℚ) + 1 / 2 := by
    rw [sub_zero]
    exact double_centre (by omega)
  unfold Fl.unproject
  simp only [if_neg hx, hsd, face_eq hs h0 hcol, if_neg (not_le.2 hf), ho, hd, hd', hr', sensor_eq hs h0 hm hrow]
  generalize double ((2 * ((col % side : ℕ) : ℚ) + 1) / side - 1) = s
  generalize double ((2 * (row : ℚ) + 1) / side - 1) = t
  generalize col / side = f at hf
  interval_cases f
  all_goals
    refine ⟨_, rfl, ?_⟩
    simp only [CubeFace.at, Vec3.smul]
    congr 1
    ext <;> simp

/-- `a` is `b` up to one rounding. -/
theorem cube_real {f : ℕ} (hf : f < 6) {F : CubeFace ℚ} (hF : (cubeFaces : List (CubeFace ℚ))[f]? = some F) (s t : ℚ) :
    ∃ G : CubeFace ℝ, (cubeFaces : List (CubeFace ℝ))[f]? = some G ∧ rv (F.at s t) = G.at s t ∧
      (|((F.at (double s) (double t)).x : ℝ) - (G.at s t).x| ≤ 1 / 2 ^ 53 * |(G.at s t).x|) ∧
      (|((F.at (double s) (double t)).y : ℝ) - (G.at s t).y| ≤ 1 / 2 ^ 53 * |(G.at s t).y|) ∧
      (|((F.at (double s) (double t)).z : ℝ) - (G.at s t).z| ≤ 1 / 2 ^ 53 * |(G.at s t).z|) := by
  have hs := double_errR s
  have ht := double_errR t
  have hs' : |-(double s : ℝ) - -(s : ℝ)| ≤ 1 / 2 ^ 53 * |(s : ℝ)| := by rw [← abs_neg]; convert hs using 2; ring
  have ht' : |-(double t : ℝ) - -(t : ℝ)| ≤ 1 / 2 ^ 53 * |(t : ℝ)| := by rw [← abs_neg]; convert ht using 2; ring
  have hu : (0 : ℝ) ≤ 1 / 2 ^ 53 := by positivity
  interval_cases f <;>
  · simp only [cubeFaces, List.getElem?_cons_zero, List.getElem?_cons_succ, Option.some.injEq] at hF
    subst hF
    refine ⟨_, rfl, by ext <;> simp [rv, CubeFace.at, Vec3.smul], ?_, ?_, ?_⟩ <;>
    · simp only [CubeFace.at, Vec3.smul, Vec3.add_x, Vec3.add_y, Vec3.add_z, mul_zero, mul_one, mul_neg, zero_add, add_zero,
        Rat.cast_neg, Rat.cast_one, abs_neg, sub_self, abs_zero]
      first
        | exact hs
        | exact ht
        | exact hs'
        | exact ht'
        | positivity

/-- The square of a number that is right up to one rounding. -/
theorem near_sq {a : ℝ} {a' : ℚ} (h : |(a' : ℝ) - a| ≤ 1 / 2 ^ 53 * |a|) : Fl.Near 2 ((a' * a' : ℚ) : ℝ) (a * a) := by
  have ha : a * a = |a| * |a| := (abs_mul_abs_self a).symm
  have ha' : ((a' * a' : ℚ) : ℝ) = |(a' : ℝ)| * |(a' : ℝ)| := by push_cast; exact (abs_mul_abs_self _).symm
  have h1 : |(a' : ℝ)| ≤ |a| * (1 + 1 / 2 ^ 53) := by
    have := abs_sub_abs_le_abs_sub (a' : ℝ) a
    linarith
  have h2 : |a| * (1 - 1 / 2 ^ 53) ≤ |(a' : ℝ)| := by
    have := abs_sub_abs_le_abs_sub a (a' : ℝ)
    rw [abs_sub_comm] at this
    linarith
  rw [ha, ha']
  constructor
  · calc |a| * |a| * (1 - 1 / 2 ^ 53) ^ 2 = (|a| * (1 - 1 / 2 ^ 53)) * (|a| * (1 - 1 / 2 ^ 53)) := by ring
      _ ≤ _ := mul_self_le_mul_self (mul_nonneg (abs_nonneg a) (by norm_num)) h2
  · calc |(a' : ℝ)| * |(a' : ℝ)| ≤ (|a| * (1 + 1 / 2 ^ 53)) * (|a| * (1 + 1 / 2 ^ 53)) := mul_self_le_mul_self (abs_nonneg _) h1
      _ = _ := by ring

/-- The norm of a vector that is right up to one rounding. -/
theorem norm_near {norm : Vec3 ℚ → ℚ} (hn : GoodNorm norm) {w : Vec3 ℚ} {v : Vec3 ℝ}
    (hx : |(w.x : ℝ) - v.x| ≤ 1 / 2 ^ 53 * |v.x|) (hy : |(w.y : ℝ) - v.y| ≤ 1 / 2 ^ 53 * |v.y|)
    (hz : |(w.z : ℝ) - v.z| ≤ 1 / 2 ^ 53 * |v.z|) : |(norm w : ℝ) - v.norm| ≤ v.norm * (6 / 2 ^ 52) := by
  obtain ⟨s, hs, hw⟩ := hn w
  have f : ∀ a : ℚ, 0 ≤ double (a * a) := fun a => double_nonneg (mul_self_nonneg a)
  obtain ⟨-, h1⟩ := Fl.Near.flSum hs (by
    intro x hx
    simp only [List.mem_cons, List.not_mem_nil, or_false] at hx
    rcases hx with rfl | rfl | rfl <;> exact f _)
  have g := ((near_sq hx).double (mul_self_nonneg v.x)).add (((near_sq hy).double (mul_self_nonneg v.y)).add
    ((near_sq hz).double (mul_self_nonneg v.z)))
  have e : ((([double (w.x * w.x), double (w.y * w.y), double (w.z * w.z)].sum : ℚ)) : ℝ) =
      ((double (w.x * w.x) : ℚ) : ℝ) + (((double (w.y * w.y) : ℚ) : ℝ) + ((double (w.z * w.z) : ℚ) : ℝ)) := by
    rw [List.sum_cons, List.sum_cons, List.sum_cons, List.sum_nil, add_zero, Rat.cast_add, Rat.cast_add]
  rw [e] at h1
  have h2 : Fl.Near (2 + 1 + 3) (s : ℝ) v.normSq := by
    have e2 : v.normSq = v.x * v.x + (v.y * v.y + v.z * v.z) := by simp only [Vec3.normSq, Vec3.dot]; ring
    rw [e2]
    exact h1.trans g
  have h3 : Fl.Near 6 ((sqrtD s : ℚ) : ℝ) (Real.sqrt v.normSq) := h2.sqrt (normSq_nonneg' v) (by norm_num)
  rw [hw]
  have := h3.abs_le (Real.sqrt_nonneg _) (by norm_num)
  push_cast at this
  exact this

/-- The scale factor of a ray. -/
theorem scale_err {n' r : ℚ} {n : ℝ} (hn : 0 < n) (hr : 0 < r) (h : |(n' : ℝ) - n| ≤ n * (6 / 2 ^ 52)) :
    |((double (r / n') : ℚ) : ℝ) - r / n| ≤ 1 / 2 ^ 49 * (r / n) := by
  have hr' : (0 : ℝ) < r := by exact_mod_cast hr
  obtain ⟨h1, h2⟩ := abs_le.1 h
  have hn' : (0 : ℝ) < n' := by nlinarith
  have hq : 0 < (r : ℝ) / n := div_pos hr' hn
  have k1 : |(r : ℝ) / n' - r / n| ≤ 7 / 2 ^ 52 * (r / n) := by
    have e : (r : ℝ) / n' - r / n = (r / n) * ((n - n') / n') := by field_simp
    rw [e, abs_mul, abs_of_pos hq, mul_comm]
    refine mul_le_mul_of_nonneg_right ?_ hq.le
    rw [abs_div, abs_of_pos hn', div_le_iff₀ hn', abs_sub_comm]
    nlinarith
  have k2 := double_errR (r / n')
  push_cast at k2
  have k3 : |(r : ℝ) / n'| ≤ (1 + 7 / 2 ^ 52) * (r / n) := by
    have := abs_sub_abs_le_abs_sub ((r : ℝ) / n') (r / n)
    rw [abs_of_pos hq] at this
    linarith
  have k4 := abs_sub_le ((double (r / n') : ℚ) : ℝ) ((r : ℝ) / n') (r / n)
  nlinarith

theorem coord_err {a' k' : ℚ} {a k : ℝ} (hk : 0 < k) (ha : |(a' : ℝ) - a| ≤ 1 / 2 ^ 53 * |a|)
    (hk' : |(k' : ℝ) - k| ≤ 1 / 2 ^ 49 * k) : |((double (a' * k') : ℚ) : ℝ) - k * a| ≤ 1 / 2 ^ 48 * |k * a| := by
  have h1 := double_errR (a' * k')
  push_cast at h1
  have h2 : |(a' : ℝ) * k' - k * a| ≤ (1 / 2 ^ 49 + 1 / 2 ^ 51) * |k * a| := by
    have e : (a' : ℝ) * k' - k * a = (a' - a) * k' + a * (k' - k) := by ring
    rw [e]
    have t := abs_add_le (((a' : ℝ) - a) * k') (a * (k' - k))
    rw [abs_mul, abs_mul] at t
    have hk2 : |(k' : ℝ)| ≤ 2 * k := by
      have := abs_sub_abs_le_abs_sub (k' : ℝ) k
      rw [abs_of_pos hk] at this
      linarith
    have hp : 0 ≤ 1 / 2 ^ 53 * |a| := mul_nonneg (by norm_num) (abs_nonneg a)
    have t1 : |(a' : ℝ) - a| * |(k' : ℝ)| ≤ (1 / 2 ^ 53 * |a|) * (2 * k) := mul_le_mul ha hk2 (abs_nonneg _) hp
    have t2 : |a| * |(k' : ℝ) - k| ≤ |a| * (1 / 2 ^ 49 * k) := mul_le_mul_of_nonneg_left hk' (abs_nonneg _)
    rw [abs_mul k a, abs_of_pos hk]
    have := mul_nonneg hk.le (abs_nonneg a)
    nlinarith
  have h3 : |(a' : ℝ) * k'| ≤ 2 * |k * a| := by
    have := abs_sub_abs_le_abs_sub ((a' : ℝ) * k') (k * a)
    have := abs_nonneg (k * a)
    linarith
  have h4 := abs_sub_le ((double (a' * k') : ℚ) : ℝ) ((a' : ℝ) * k') (k * a)
  have := abs_nonneg (k * a)
  linarith

/-- The point of one pixel with a valid range. -/
theorem fl_point {norm : Vec3 ℚ → ℚ} (hn : GoodNorm norm) {side row col : ℕ} {r : ℚ} (hs : side ≤ 2 ^ 31) (hrow : row < side)
    (hcol : col < 6 * side) (hr : 0 < r) :
    ∃ q, Fl.pointFromRange norm side ⟨(col : ℚ) + 1 / 2, (row : ℚ) + 1 / 2⟩ r = .ok q ∧
      ∃ p, SeenAt side row col r p ∧ (rv q - p).norm ≤ r / 2 ^ 48 := by
  have h0 : 0 < side := by omega
  have hf : col / side < 6 := by rw [Nat.div_lt_iff_lt_mul h0]; exact hcol
  obtain ⟨F, hF, hu⟩ := fl_unproject hs hrow hcol
  obtain ⟨G, hG, -, hx, hy, hz⟩ := cube_real hf hF ((2 * ((col % side : ℕ) : ℚ) + 1) / side - 1) ((2 * (row : ℚ) + 1) / side - 1)
  have hr' : (0 : ℝ) < r := by exact_mod_cast hr
  obtain ⟨p, -, G', hG', hp, k, hk, rfl⟩ := pointFromRange_seen side row col r hrow hcol hr'
  obtain rfl : G' = G := by rw [hG] at hG'; exact (Option.some.inj hG').symm
  push_cast at hx hy hz
  set v := G'.at ((2 * ((col % side : ℕ) : ℝ) + 1) / side - 1) ((2 * (row : ℝ) + 1) / side - 1) with hv
  set w := F.at (double ((2 * ((col % side : ℕ) : ℚ) + 1) / side - 1)) (double ((2 * (row : ℚ) + 1) / side - 1)) with hw
  have hvn : 0 < v.norm := by
    rcases (vnorm_nonneg v).eq_or_lt with h | h
    · rw [norm_smul_pos hk.le, ← h, mul_zero] at hp
      exact absurd hp hr'.ne
    · exact h
  have hkr : k = r / v.norm := by
    rw [norm_smul_pos hk.le] at hp
    rw [eq_div_iff hvn.ne', hp]
  have hsc := scale_err hvn hr (norm_near hn hx hy hz)
  rw [← hkr] at hsc
  refine ⟨⟨double (w.x * double (r / norm w)), double (w.y * double (r / norm w)), double (w.z * double (r / norm w))⟩,
    by simp only [Fl.pointFromRange, hu, bind, Except.bind, pure, Except.pure], Vec3.smul k v,
    ⟨G', hG, hp, k, hk, rfl⟩, ?_⟩
  have := vnorm_le_scaled (k := 1 / 2 ^ 48) (e := rv ⟨double (w.x * double (r / norm w)), double (w.y * double (r / norm w)),
    double (w.z * double (r / norm w))⟩ - Vec3.smul k v) (w := Vec3.smul k v) (by positivity) (coord_err hk hx hsc)
    (coord_err hk hy hsc) (coord_err hk hz hsc)
  rw [hp] at this
  linarith

theorem fl_validRange_iff (v : FVal ℚ) : (∃ r, ValidRange (asReal v) r) ↔ ∃ q, Fl.validRange v = some q := by
  cases v with
  | fin x =>
    simp only [asReal, ValidRange, Fl.validRange, FVal.fin.injEq]
    split_ifs with h
    · simp; exact_mod_cast h
    · simp; exact_mod_cast not_lt.1 h
  | posInf => simp [asReal, ValidRange, Fl.validRange]
  | negInf => simp [asReal, ValidRange, Fl.validRange]
  | nan => simp [asReal, ValidRange, Fl.validRange]

theorem fl_validRange_some {v : FVal ℚ} {q : ℚ} (h : Fl.validRange v = some q) : ValidRange (asReal v) q ∧ 0 < q := by
  cases v with
  | fin x =>
    simp only [Fl.validRange] at h
    split_ifs at h with h'
    obtain rfl := Option.some.inj h
    exact ⟨⟨rfl, by exact_mod_cast h'⟩, h'⟩
  | posInf => simp [Fl.validRange] at h
  | negInf => simp [Fl.validRange] at h
  | nan => simp [Fl.validRange] at h

theorem next_pixel {side col : ℕ} (hs : side ≤ 2 ^ 31) (hc : col ≤ 6 * side) :
    double ((col : ℚ) + 1 / 2 + 1) = ((col + 1 : ℕ) : ℚ) + 1 / 2 := by
  rw [double_half (n := (2 * col + 3 : ℤ)) (abs_le.2 ⟨by omega, by omega⟩) (by push_cast; ring)]
  push_cast; ring

theorem fl_cloudRow {norm : Vec3 ℚ → ℚ} (hn : GoodNorm norm) {side row : ℕ} (hs : side ≤ 2 ^ 31) (hrow : row < side) :
    ∀ (l : List (Color × FVal ℚ)) (col : ℕ), col + l.length ≤ 6 * side →
    (∃ out, Fl.cloudRow norm side false ((row : ℚ) + 1 / 2) ((col : ℚ) + 1 / 2) l = .ok out ∧
      List.Forall₂ (PixelNear side) (validPixels ((l.zipIdx col).map fun p => ⟨row, p.2, p.1.1, asReal p.1.2⟩)) out) ∧
    (∃ out, Fl.cloudRow norm side true ((row : ℚ) + 1 / 2) ((col : ℚ) + 1 / 2) l = .ok out ∧
      List.Forall₂ (PixelNearAll side) ((l.zipIdx col).map fun p => ⟨row, p.2, p.1.1, asReal p.1.2⟩) out) := by
  intro l
  induction l with
  | nil => intro col _; exact ⟨⟨[], rfl, .nil⟩, [], rfl, .nil⟩
  | cons a l ih =>
    intro col hcol
    obtain ⟨color, range⟩ := a
    simp only [List.length_cons] at hcol
    obtain ⟨⟨out, h1, h2⟩, out', h1', h2'⟩ := ih (col + 1) (by omega)
    rw [← next_pixel hs (by omega)] at h1 h1'
    rw [List.zipIdx_cons, List.map_cons, Fl.cloudRow, Fl.cloudRow]
    cases hv : Fl.validRange range with
    | none =>
      have hno : ¬ ∃ r, ValidRange (asReal range) r := by rw [fl_validRange_iff, hv]; simp
      rw [validPixels_cons_of_not hno]
      refine ⟨⟨out, ?_, h2⟩, (⟨0, 0, 0⟩, ⟨0, 0, 0⟩) :: out', ?_, .cons (.inr ⟨hno, rfl⟩) h2'⟩
      · simp only [h1, bind, Except.bind, pure, Except.pure]; rfl
      · simp only [h1', bind, Except.bind, pure, Except.pure]; rfl
    | some r =>
      obtain ⟨hr, hr0⟩ := fl_validRange_some hv
      rw [validPixels_cons_of_valid ⟨_, hr⟩]
      obtain ⟨q, hq, p, hp, hpq⟩ := fl_point hn hs hrow (show col < 6 * side by omega) hr0
      refine ⟨⟨(q, color) :: out, ?_, .cons ⟨r, p, hr, hp, hpq, rfl⟩ h2⟩, (q, color) :: out', ?_,
        .cons (.inl ⟨r, p, hr, hp, hpq, rfl⟩) h2'⟩
      · simp only [hq, h1, bind, Except.bind, pure, Except.pure]; rfl
      · simp only [hq, h1', bind, Except.bind, pure, Except.pure]; rfl

theorem first_pixel {row : ℕ} (h : row ≤ 2 ^ 31) : Fl.pixelCoordinates row 0 = ⟨((0 : ℕ) : ℚ) + 1 / 2, (row : ℚ) + 1 / 2⟩ := by
  have e1 : double ((0 : ℕ) : ℚ) = ((0 : ℕ) : ℚ) := double_nat (by omega)
  have e2 : double (row : ℚ) = row := double_nat (by omega)
  unfold Fl.pixelCoordinates
  rw [e1, e2, double_centre (by omega), double_centre (by omega)]

theorem fl_cloudRows {norm : Vec3 ℚ → ℚ} (hn : GoodNorm norm) {side : ℕ} (hs : side ≤ 2 ^ 31) :
    ∀ (rows : List (List Color × List (FVal ℚ))) (row : ℕ), row + rows.length ≤ side →
    (∀ r ∈ rows, (List.zip r.1 r.2).length ≤ 6 * side) →
    (∃ out, Fl.cloudRows norm side false row (rows.map fun r => List.zip r.1 r.2) = .ok out ∧
      List.Forall₂ (PixelNear side) (validPixels ((rows.zipIdx row).flatMap fun rows =>
        (List.zip rows.1.1 rows.1.2).zipIdx.map fun p => ⟨rows.2, p.2, p.1.1, asReal p.1.2⟩)) out) ∧
    (∃ out, Fl.cloudRows norm side true row (rows.map fun r => List.zip r.1 r.2) = .ok out ∧
      List.Forall₂ (PixelNearAll side) ((rows.zipIdx row).flatMap fun rows =>
        (List.zip rows.1.1 rows.1.2).zipIdx.map fun p => ⟨rows.2, p.2, p.1.1, asReal p.1.2⟩) out) := by
  intro rows
  induction rows with
  | nil => intro row _ _; exact ⟨⟨[], rfl, .nil⟩, [], rfl, .nil⟩
  | cons r rows ih =>
    intro row hlen hw
    simp only [List.length_cons] at hlen
    obtain ⟨⟨out, h1, h2⟩, out', h1', h2'⟩ := ih (row + 1) (by omega) fun x hx => hw x (by simp [hx])
    obtain ⟨⟨out0, h3, h4⟩, out0', h3', h4'⟩ := fl_cloudRow hn hs (show row < side by omega) (List.zip r.1 r.2) 0
      (by have := hw r (by simp); omega)
    have hpix := first_pixel (show row ≤ 2 ^ 31 by omega)
    refine ⟨⟨out0 ++ out, ?_, ?_⟩, out0' ++ out', ?_, ?_⟩
    · rw [List.map_cons, Fl.cloudRows, hpix]
      simp only [h3, h1, bind, Except.bind, pure, Except.pure]
    · rw [List.zipIdx_cons, List.flatMap_cons, validPixels_append]
      exact List.rel_append h4 h2
    · rw [List.map_cons, Fl.cloudRows, hpix]
      simp only [h3', h1', bind, Except.bind, pure, Except.pure]
    · rw [List.zipIdx_cons, List.flatMap_cons]
      exact List.rel_append h4' h2'

/-- The pixels of an image with its ranges as real numbers. -/
theorem rasterPixels_asReal (rgb : List (List Color)) (range : List (List (FVal ℚ))) :
    rasterPixels rgb (range.map (List.map asReal)) = (List.zip rgb range).zipIdx.flatMap fun rows =>
      (List.zip rows.1.1 rows.1.2).zipIdx.map fun p => ⟨rows.2, p.2, p.1.1, asReal p.1.2⟩ := by
  unfold rasterPixels
  rw [List.zip_map_right, List.zipIdx_map, List.flatMap_map]
  congr 1
  funext rows
  simp only [Prod.map, id]
  rw [List.zip_map_right, List.zipIdx_map, List.map_map]
  rfl

end Sumo
