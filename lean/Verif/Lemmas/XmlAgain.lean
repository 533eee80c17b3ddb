import Verif.Lemmas.Xml
import Verif.Spec.XmlAgain

/-! # Helper lemmas for saving and loading again and again -/

namespace Sumo

/-- At most eight decimals. -/
def Dec8 (x : ℚ) : Prop := ∃ k : ℤ, x = k / 10 ^ 8

/-- At most nine significant digits. -/
def Sig9 (x : ℚ) : Prop := ∃ m j : ℤ, |m| < 10 ^ 9 ∧ x = m * (10 : ℚ) ^ j

theorem ten_ne : (10 : ℚ) ≠ 0 := by norm_num

theorem dec8_round (x : ℚ) : Dec8 (roundDecimals 8 x) := ⟨roundHalfEven (x * 10 ^ (8 : ℤ)), by
  unfold roundDecimals
  rw [show ((10 : ℚ) ^ (8 : ℤ)) = 10 ^ 8 by norm_cast]⟩

theorem roundHalfEven_abs_le {x : ℚ} {n : ℕ} (h : |x| ≤ n) : |roundHalfEven x| ≤ n := by
  have h1 := roundHalfEven_err x
  have h2 := abs_sub_abs_le_abs_sub (roundHalfEven x : ℚ) x
  have h3 : |(roundHalfEven x : ℚ)| < n + 1 := by linarith
  have h4 : |roundHalfEven x| < (n : ℤ) + 1 := by exact_mod_cast h3
  omega

theorem sig9_of_le {m j : ℤ} (h : |m| ≤ 10 ^ 9) {x : ℚ} (hx : x = m * (10 : ℚ) ^ j) : Sig9 x := by
  rcases h.lt_or_eq with h | h
  · exact ⟨m, j, h, hx⟩
  · rcases abs_choice m with e | e
    · refine ⟨10 ^ 8, j + 1, by norm_num, ?_⟩
      rw [hx, show m = 10 ^ 9 by omega, zpow_add₀ ten_ne, zpow_one]
      push_cast; ring
    · refine ⟨-10 ^ 8, j + 1, by norm_num, ?_⟩
      rw [hx, show m = -10 ^ 9 by omega, zpow_add₀ ten_ne, zpow_one]
      push_cast; ring

theorem sig9_round (x : ℚ) : Sig9 (roundScientific 8 x) := by
  by_cases hx : x = 0
  · rw [hx, roundScientific_zero]; exact ⟨0, 0, by norm_num, by simp⟩
  have hp : 0 < |x| := abs_pos.2 hx
  have h2 : |x| < (10 : ℚ) ^ (Int.log 10 |x| + 1) := by
    have := Int.lt_zpow_succ_log_self (b := 10) (by norm_num) |x|
    exact_mod_cast this
  unfold roundScientific roundDecimals
  generalize Int.log 10 |x| = L at h2
  refine sig9_of_le (m := roundHalfEven (x * 10 ^ (8 - L))) (j := L - 8) ?_ ?_
  · have : |x * 10 ^ (8 - L)| ≤ ((10 ^ 9 : ℕ) : ℚ) := by
      rw [abs_mul, abs_of_pos (ten_zpow_pos _)]
      have h3 := mul_lt_mul_of_pos_right h2 (ten_zpow_pos (8 - L))
      rw [← zpow_add₀ ten_ne, show L + 1 + (8 - L) = 9 by ring] at h3
      have e : ((10 : ℚ) ^ (9 : ℤ)) = ((10 ^ 9 : ℕ) : ℚ) := by norm_cast
      rw [e] at h3
      exact h3.le
    exact_mod_cast roundHalfEven_abs_le this
  · rw [div_eq_mul_inv, ← zpow_neg, neg_sub]

theorem dec8_sci {x : ℚ} (h : Dec8 x) : Dec8 (roundScientific 8 x) := by
  obtain ⟨k, hk⟩ := h
  unfold roundScientific
  generalize Int.log 10 |x| = L
  rcases le_total L 0 with hL | hL
  · obtain ⟨d, hd⟩ := Int.eq_ofNat_of_zero_le (neg_nonneg.2 hL)
    rw [roundDecimals_exact (k * 10 ^ d)]
    · exact ⟨k, hk⟩
    · rw [sub_eq_add_neg, hd, zpow_add₀ ten_ne, hk, show ((10 : ℚ) ^ (8 : ℤ)) = 10 ^ 8 by norm_cast]
      push_cast
      norm_num
      rw [div_mul_eq_mul_div, mul_comm (100000000 : ℚ), ← mul_assoc]
      norm_num
  · obtain ⟨d, rfl⟩ := Int.eq_ofNat_of_zero_le hL
    refine ⟨roundHalfEven (x * 10 ^ (8 - (d : ℤ))) * 10 ^ d, ?_⟩
    unfold roundDecimals
    rw [zpow_sub₀ ten_ne, show ((10 : ℚ) ^ (8 : ℤ)) = 10 ^ 8 by norm_cast, zpow_natCast, div_div_eq_mul_div]
    push_cast
    rfl

theorem sig9_dec {x : ℚ} (h : Sig9 x) : Sig9 (roundDecimals 8 x) := by
  obtain ⟨m, j, hm, hx⟩ := h
  rcases le_total (-8) j with hj | hj
  · obtain ⟨d, hd⟩ := Int.eq_ofNat_of_zero_le (show 0 ≤ j + 8 by omega)
    rw [roundDecimals_exact (m * 10 ^ d)]
    · exact ⟨m, j, hm, hx⟩
    · rw [hx, mul_assoc, ← zpow_add₀ ten_ne, hd]; push_cast; norm_cast
  · refine ⟨roundHalfEven (x * 10 ^ (8 : ℤ)), -8, ?_, ?_⟩
    · have hmq : |(m : ℚ)| < 10 ^ 9 := by exact_mod_cast hm
      have : |x * 10 ^ (8 : ℤ)| ≤ ((10 ^ 9 - 1 : ℕ) : ℚ) := by
        rw [hx, mul_assoc, ← zpow_add₀ ten_ne, abs_mul, abs_of_pos (ten_zpow_pos _)]
        have h1 : (10 : ℚ) ^ (j + 8) ≤ 1 := by
          rw [show (1 : ℚ) = 10 ^ (0 : ℤ) by simp]
          exact zpow_le_zpow_right₀ (by norm_num) (by omega)
        have h2 : |(m : ℚ)| ≤ ((10 ^ 9 - 1 : ℕ) : ℚ) := by
          have : |m| ≤ 10 ^ 9 - 1 := by omega
          exact_mod_cast this
        calc |(m : ℚ)| * 10 ^ (j + 8) ≤ |(m : ℚ)| * 1 := mul_le_mul_of_nonneg_left h1 (abs_nonneg _)
          _ ≤ _ := by rw [mul_one]; exact h2
      have h3 := roundHalfEven_abs_le this
      have e : (((10 ^ 9 - 1 : ℕ)) : ℤ) = 10 ^ 9 - 1 := by norm_num
      rw [e] at h3
      exact lt_of_le_of_lt h3 (by norm_num)
    · unfold roundDecimals
      rw [zpow_neg]; rfl

theorem sig9_sci_id {x : ℚ} (h : Sig9 x) : roundScientific 8 x = x := by
  obtain ⟨m, j, hm, hx⟩ := h
  exact roundScientific_exact hm hx

theorem dec8_dec_id {x : ℚ} (h : Dec8 x) : roundDecimals 8 x = x := by
  obtain ⟨k, hk⟩ := h
  apply roundDecimals_exact k
  rw [hk, show ((10 : ℚ) ^ (8 : ℤ)) = 10 ^ 8 by norm_cast]
  field_simp

/-- How one number of a vector is printed. -/
def printedNum (e : Bool) (x : ℚ) : ℚ := if e then roundScientific 8 x else roundDecimals 8 x

theorem printedVec_eq (v : Vec3 ℚ) :
    printedVec v = ⟨printedNum (expNotation v) v.x, printedNum (expNotation v) v.y, printedNum (expNotation v) v.z⟩ := by
  unfold printedVec printedNum
  cases expNotation v <;> simp

theorem num_once (e : Bool) (x : ℚ) : Dec8 (printedNum e x) ∨ Sig9 (printedNum e x) := by
  cases e
  · exact .inl (dec8_round x)
  · exact .inr (sig9_round x)

/-- A short number does not change; one that is printed in the same notation again does not either; one that changes is short
then. -/
theorem num_again (e : Bool) {x : ℚ} (h : Dec8 x ∨ Sig9 x) :
    (Dec8 (printedNum e x) ∨ Sig9 (printedNum e x)) ∧ (ShortDecimal x → printedNum e x = x) ∧
      (printedNum e x = x ∨ ShortDecimal (printedNum e x)) := by
  refine ⟨num_once e x, ?_, ?_⟩
  · intro hs
    cases e
    · exact dec8_dec_id hs.1
    · exact sig9_sci_id hs.2
  · cases e
    · rcases h with h | h
      · exact .inl (dec8_dec_id h)
      · exact .inr ⟨dec8_round x, sig9_dec h⟩
    · rcases h with h | h
      · exact .inr ⟨dec8_sci h, sig9_round x⟩
      · exact .inl (sig9_sci_id h)

theorem num_same (e : Bool) (x : ℚ) : printedNum e (printedNum e x) = printedNum e x := by
  cases e
  · exact dec8_dec_id (dec8_round x)
  · exact sig9_sci_id (sig9_round x)

theorem num_other (e : Bool) (x : ℚ) : ShortDecimal (printedNum (!e) (printedNum e x)) := by
  cases e
  · exact ⟨dec8_sci (dec8_round x), sig9_round _⟩
  · exact ⟨dec8_round _, sig9_dec (sig9_round x)⟩

/-- The third time nothing changes. -/
theorem printedVec_third (v : Vec3 ℚ) : printedVec (printedVec (printedVec v)) = printedVec (printedVec v) := by
  have h1 := printedVec_eq v
  have h2 := printedVec_eq (printedVec v)
  by_cases he : expNotation (printedVec v) = expNotation v
  · have : printedVec (printedVec v) = printedVec v := by
      rw [h2, he, h1]
      simp only [num_same]
    rw [this, this]
  · have he : expNotation (printedVec v) = !expNotation v := by
      cases h : expNotation v <;> cases h' : expNotation (printedVec v) <;> simp_all
    apply printedVec_short
    rw [h2, he, h1]
    exact ⟨num_other _ _, num_other _ _, num_other _ _⟩

theorem close7_twice {a b c : ℚ} (h1 : Close8 a b) (h2 : Close8 b c) : Close7 a c := by
  unfold Close8 at *
  unfold Close7
  have t := abs_sub_le c b a
  have hb : |b| ≤ |a| + |b - a| := by
    have := abs_sub_abs_le_abs_sub b a; linarith
  have hm : max 1 |b| ≤ max 1 |a| + |b - a| := by
    refine max_le ?_ ?_
    · have := le_max_left 1 |a|; have := abs_nonneg (b - a); linarith
    · have := le_max_right 1 |a|; linarith
  have hM : 1 ≤ max 1 |a| := le_max_left _ _
  nlinarith

theorem close7_once {a b : ℚ} (h1 : Close8 a b) : Close7 a b := by
  unfold Close8 at *
  unfold Close7
  have hM : 1 ≤ max 1 |a| := le_max_left _ _
  linarith

theorem vecClose7_twice (v : Vec3 ℚ) : VecClose7 v (printedVec (printedVec v)) := by
  have h1 := printedVec_close v
  have h2 := printedVec_close (printedVec v)
  exact ⟨close7_twice h1.1 h2.1, close7_twice h1.2.1 h2.2.1, close7_twice h1.2.2 h2.2.2⟩

theorem vecClose7_once (v : Vec3 ℚ) : VecClose7 v (printedVec v) := by
  have h1 := printedVec_close v
  exact ⟨close7_once h1.1, close7_once h1.2.1, close7_once h1.2.2⟩

/-- A pose as it is read back. -/
def printedPose (p : Pose3 ℚ) : Pose3 ℚ :=
  ⟨Mat3.ofColumns (printedVec p.R.col0) (printedVec p.R.col1) (printedVec p.R.col2), printedVec p.t⟩

theorem col_ofColumns (a b c : Vec3 ℚ) : (Mat3.ofColumns a b c).col0 = a ∧ (Mat3.ofColumns a b c).col1 = b ∧
    (Mat3.ofColumns a b c).col2 = c := ⟨rfl, rfl, rfl⟩

theorem printedPose_third (p : Pose3 ℚ) : printedPose (printedPose (printedPose p)) = printedPose (printedPose p) := by
  unfold printedPose
  simp only [(col_ofColumns _ _ _).1, (col_ofColumns _ _ _).2.1, (col_ofColumns _ _ _).2.2, printedVec_third]

theorem poseAgain_eq (T : NumText) (n : ℕ) (p : Pose3 ℚ) : poseAgain T n p = .ok (printedPose^[n] p) := by
  induction n with
  | zero => rfl
  | succ n ih =>
    rw [poseAgain, ih, Function.iterate_succ_apply']
    exact pose3_fromXml_toXml T _

theorem iterate_stable {α : Type} {f : α → α} {k : ℕ} {a : α} (h : f (f^[k] a) = f^[k] a) (n : ℕ) (hn : k ≤ n) : f^[n] a = f^[k] a := by
  obtain ⟨d, rfl⟩ := Nat.exists_eq_add_of_le hn
  clear hn
  induction d with
  | zero => rfl
  | succ d ih => rw [← Nat.add_assoc, Function.iterate_succ_apply', ih, h]

/-! ### Boxes -/

/-- A box as it is read back. -/
def printedBox (b : Box3d ℚ) : Box3d ℚ := Box3d.mk' (printedVec b.minCorner) (printedVec b.maxCorner)

theorem boxAgain_eq (T : NumText) (n : ℕ) (b : Box3d ℚ) : boxAgain T n b = .ok (printedBox^[n] b) := by
  induction n with
  | zero => rfl
  | succ n ih =>
    rw [boxAgain, ih, Function.iterate_succ_apply']
    exact box3d_fromXml_toXml T _

open Classical in
/-- One for a number that is not short. -/
noncomputable def long (x : ℚ) : ℕ := if ShortDecimal x then 0 else 1

/-- The numbers of a box that are not short. -/
noncomputable def longs (b : Box3d ℚ) : ℕ :=
  long b.minCorner.x + long b.maxCorner.x + (long b.minCorner.y + long b.maxCorner.y) + (long b.minCorner.z + long b.maxCorner.z)

/-- Every number has at most eight decimals or nine significant digits, and the corners are ordered. -/
def HalfShort (b : Box3d ℚ) : Prop :=
  (∀ x ∈ [b.minCorner.x, b.maxCorner.x, b.minCorner.y, b.maxCorner.y, b.minCorner.z, b.maxCorner.z], Dec8 x ∨ Sig9 x) ∧
    b.minCorner.x ≤ b.maxCorner.x ∧ b.minCorner.y ≤ b.maxCorner.y ∧ b.minCorner.z ≤ b.maxCorner.z

theorem min_or {P : ℚ → Prop} {a b : ℚ} (ha : P a) (hb : P b) : P (min a b) := by
  rcases min_choice a b with h | h <;> rw [h] <;> assumption

theorem max_or {P : ℚ → Prop} {a b : ℚ} (ha : P a) (hb : P b) : P (max a b) := by
  rcases max_choice a b with h | h <;> rw [h] <;> assumption

theorem halfShort_printed (b : Box3d ℚ) : HalfShort (printedBox b) := by
  unfold printedBox
  rw [printedVec_eq, printedVec_eq]
  refine ⟨?_, min_le_max, min_le_max, min_le_max⟩
  intro x hx
  simp only [Box3d.mk', List.mem_cons, List.not_mem_nil, or_false] at hx
  have h := num_once
  rcases hx with rfl | rfl | rfl | rfl | rfl | rfl
  · exact min_or (P := fun x => Dec8 x ∨ Sig9 x) (h _ _) (h _ _)
  · exact max_or (P := fun x => Dec8 x ∨ Sig9 x) (h _ _) (h _ _)
  · exact min_or (P := fun x => Dec8 x ∨ Sig9 x) (h _ _) (h _ _)
  · exact max_or (P := fun x => Dec8 x ∨ Sig9 x) (h _ _) (h _ _)
  · exact min_or (P := fun x => Dec8 x ∨ Sig9 x) (h _ _) (h _ _)
  · exact max_or (P := fun x => Dec8 x ∨ Sig9 x) (h _ _) (h _ _)

theorem long_min_max (a b : ℚ) : long (min a b) + long (max a b) = long a + long b := by
  rcases le_total a b with h | h
  · rw [min_eq_left h, max_eq_right h]
  · rw [min_eq_right h, max_eq_left h]; omega

/-- A number that is printed changes only if it was long and gets short. -/
theorem long_print (e : Bool) {x : ℚ} (h : Dec8 x ∨ Sig9 x) :
    long (printedNum e x) ≤ long x ∧ (long (printedNum e x) = long x → printedNum e x = x) := by
  obtain ⟨-, h1, h2⟩ := num_again e h
  unfold long
  by_cases hs : ShortDecimal x
  · rw [h1 hs]; exact ⟨le_refl _, fun _ => rfl⟩
  · rcases h2 with h2 | h2
    · rw [h2]; exact ⟨le_refl _, fun _ => rfl⟩
    · rw [if_pos h2, if_neg hs]; exact ⟨by omega, by omega⟩

theorem printedBox_step {b : Box3d ℚ} (h : HalfShort b) : printedBox b = b ∨ longs (printedBox b) < longs b := by
  obtain ⟨h, hx, hy, hz⟩ := h
  simp only [List.mem_cons, List.not_mem_nil, or_false, forall_eq_or_imp, forall_eq] at h
  obtain ⟨h1, h2, h3, h4, h5, h6⟩ := h
  generalize he : expNotation b.minCorner = e
  generalize hf : expNotation b.maxCorner = f
  have k1 := long_print e h1
  have k2 := long_print f h2
  have k3 := long_print e h3
  have k4 := long_print f h4
  have k5 := long_print e h5
  have k6 := long_print f h6
  have hl : longs (printedBox b) = long (printedNum e b.minCorner.x) + long (printedNum f b.maxCorner.x) +
      (long (printedNum e b.minCorner.y) + long (printedNum f b.maxCorner.y)) +
      (long (printedNum e b.minCorner.z) + long (printedNum f b.maxCorner.z)) := by
    unfold printedBox longs
    rw [printedVec_eq, printedVec_eq, he, hf]
    simp only [Box3d.mk', Vec3.vmin, Vec3.vmax, long_min_max]
  by_cases hlt : longs (printedBox b) < longs b
  · exact .inr hlt
  · left
    rw [hl] at hlt
    unfold longs at hlt
    have e1 := k1.2 (by omega)
    have e2 := k2.2 (by omega)
    have e3 := k3.2 (by omega)
    have e4 := k4.2 (by omega)
    have e5 := k5.2 (by omega)
    have e6 := k6.2 (by omega)
    unfold printedBox
    rw [printedVec_eq, printedVec_eq, he, hf, e1, e2, e3, e4, e5, e6]
    unfold Box3d.mk' Vec3.vmin Vec3.vmax
    simp only [min_eq_left hx, min_eq_left hy, min_eq_left hz, max_eq_right hx, max_eq_right hy, max_eq_right hz]

theorem longs_le (b : Box3d ℚ) : longs b ≤ 6 := by
  have k : ∀ x, long x ≤ 1 := fun x => by unfold long; split_ifs <;> omega
  have := k b.minCorner.x
  have := k b.maxCorner.x
  have := k b.minCorner.y
  have := k b.maxCorner.y
  have := k b.minCorner.z
  have := k b.maxCorner.z
  unfold longs
  omega

theorem printedBox_stable (b : Box3d ℚ) : printedBox (printedBox^[7] b) = printedBox^[7] b := by
  have key : ∀ n : ℕ, printedBox (printedBox^[n + 1] b) = printedBox^[n + 1] b ∨ longs (printedBox^[n + 1] b) + n ≤ 6 := by
    intro n
    induction n with
    | zero => exact .inr (longs_le _)
    | succ n ih =>
      rcases ih with ih | ih
      · left
        rw [Function.iterate_succ_apply', ih, ih]
      · have hh : HalfShort (printedBox^[n + 1] b) := by rw [Function.iterate_succ_apply']; exact halfShort_printed _
        rcases printedBox_step hh with h | h
        · left
          rw [Function.iterate_succ_apply', h, h]
        · right
          rw [Function.iterate_succ_apply' _ (n + 1)]
          omega
  rcases key 6 with h | h
  · exact h
  · have h : longs (printedBox^[7] b) + 6 ≤ 6 := h
    have hh : HalfShort (printedBox^[7] b) := by rw [Function.iterate_succ_apply']; exact halfShort_printed _
    rcases printedBox_step hh with h' | h'
    · exact h'
    · omega

end Sumo
