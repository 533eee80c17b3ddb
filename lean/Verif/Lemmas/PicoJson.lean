import Verif.Lemmas.Ply
import Verif.Lemmas.PointCloudText
import Verif.Model.PicoJson

/-! # Helper lemmas for the text of the metadata -/

namespace Sumo.PicoJson

open Ply (Bytes txt isDigit decimal)

/-! ### Digits -/

theorem digitsNat_foldl (l : Bytes) (a : ℕ) :
    l.foldl (fun n b => 10 * n + (b.toNat - 48)) a = a * 10 ^ l.length + digitsNat l := by
  induction l generalizing a with
  | nil => simp [digitsNat]
  | cons b l ih =>
    unfold digitsNat
    rw [List.foldl_cons, List.foldl_cons, ih, ih (10 * 0 + (b.toNat - 48)), List.length_cons, pow_succ]
    ring

theorem digitsNat_append (a b : Bytes) : digitsNat (a ++ b) = digitsNat a * 10 ^ b.length + digitsNat b := by
  conv_lhs => unfold digitsNat
  rw [List.foldl_append, digitsNat_foldl]
  rfl

theorem digitsNat_zeros (k : ℕ) : digitsNat (List.replicate k 48) = 0 := by
  induction k with
  | zero => rfl
  | succ k ih => rw [List.replicate_succ', digitsNat_append, ih]; rfl

theorem digitsNat_decimal (n : ℕ) : digitsNat (decimal n) = n := by
  rw [Ply.decimal_eq_digits]; exact Ply.digits_foldl n

theorem decimal_isDigit (n : ℕ) : ∀ b ∈ decimal n, isDigit b = true := by
  rw [Ply.decimal_eq_digits]; exact Ply.digits_isDigit n

theorem decimal_ne_nil (n : ℕ) : decimal n ≠ [] := by
  rw [Ply.decimal_eq_digits]; exact Ply.digits_ne_nil n

theorem decimal_length17 {m : ℕ} (h1 : 10 ^ 16 ≤ m) (h2 : m < 10 ^ 17) : (decimal m).length = 17 := by
  have h0 : m ≠ 0 := by rintro rfl; norm_num at h1
  rw [decimal, if_neg h0, List.length_map, List.length_reverse, Nat.length_digits 10 m (by norm_num) h0,
    (Nat.log_eq_iff (b := 10) (m := 16) (n := m) (by norm_num)).2 ⟨h1, h2⟩]

theorem stripZeros_spec (l : Bytes) : ∃ k, l = stripZeros l ++ List.replicate k 48 := by
  refine ⟨(l.reverse.takeWhile fun b => b = 48).length, ?_⟩
  have h1 : l.reverse.takeWhile (fun b => b = 48) = List.replicate (l.reverse.takeWhile fun b => b = 48).length 48 := by
    rw [List.eq_replicate_iff]
    exact ⟨rfl, fun b hb => by simpa using List.all_eq_true.1 (List.all_takeWhile (l := l.reverse)) b hb⟩
  have h2 := List.takeWhile_append_dropWhile (p := fun b : UInt8 => decide (b = 48)) (l := l.reverse)
  have h3 := congrArg List.reverse h2
  rw [List.reverse_append, List.reverse_reverse] at h3
  conv_lhs => rw [← h3]
  unfold stripZeros
  congr 1
  rw [h1, List.reverse_replicate, List.length_replicate]

theorem stripZeros_mem {l : Bytes} {b : UInt8} (h : b ∈ stripZeros l) : b ∈ l := by
  obtain ⟨k, hk⟩ := stripZeros_spec l
  rw [hk]
  exact List.mem_append_left _ h

/-! ### What a text spells -/

/-- A sign, or none for a number that is not negative. -/
def signText (neg : Bool) : Bytes := if neg then [45] else []

theorem signOf_signText (neg : Bool) {t : Bytes} (ht : ∃ b r, t = b :: r ∧ isDigit b = true) :
    signOf (signText neg ++ t) = (neg, t) := by
  cases neg with
  | true => rfl
  | false =>
    obtain ⟨b, r, rfl, hb⟩ := ht
    have h45 : b ≠ 45 := by rintro rfl; exact absurd hb (by decide)
    have h43 : b ≠ 43 := by rintro rfl; exact absurd hb (by decide)
    show signOf (b :: r) = _
    rw [signOf, if_neg h45, if_neg h43]

theorem takeWhile_digits {l : Bytes} (h : ∀ b ∈ l, isDigit b = true) : l.takeWhile isDigit = l := by
  have := List.takeWhile_append_of_pos (l₂ := []) h
  rwa [List.append_nil, List.takeWhile_nil, List.append_nil] at this

theorem dropWhile_digits {l : Bytes} (h : ∀ b ∈ l, isDigit b = true) : l.dropWhile isDigit = [] := by
  have := List.dropWhile_append_of_pos (l₂ := []) h
  rwa [List.append_nil, List.dropWhile_nil] at this

theorem fractionOf_fraction {fp ex : Bytes} (hf : ∀ b ∈ fp, isDigit b = true) (hex : ex = [] ∨ ∃ r, ex = 101 :: r) :
    fractionOf (fraction fp ++ ex) = (fp, ex) := by
  have hd : ex.takeWhile isDigit = [] ∧ ex.dropWhile isDigit = ex := by
    rcases hex with rfl | ⟨r, rfl⟩
    · exact ⟨rfl, rfl⟩
    · exact ⟨by rw [List.takeWhile_cons_of_neg (by decide)], by rw [List.dropWhile_cons_of_neg (by decide)]⟩
  by_cases h : fp = []
  · subst h
    rcases hex with rfl | ⟨r, rfl⟩
    · rfl
    · rfl
  · rw [fraction, if_neg h, List.cons_append, fractionOf, if_pos rfl, List.takeWhile_append_of_pos hf,
      List.dropWhile_append_of_pos hf, hd.1, hd.2, List.append_nil]

theorem wholeDecimal_text (neg : Bool) {ip fp ex : Bytes} {e : ℤ} (hi : ∀ b ∈ ip, isDigit b = true) (hne : ip ≠ [])
    (hf : ∀ b ∈ fp, isDigit b = true) (hex : ex = [] ∨ ∃ r, ex = 101 :: r) (he : exponentValue ex = some e) :
    wholeDecimal (signText neg ++ (ip ++ (fraction fp ++ ex))) =
      some ((applySign neg 1 : ℤ) * (digitsNat (ip ++ fp) : ℚ) * 10 ^ (e - (fp.length : ℤ))) := by
  have hs : signOf (signText neg ++ (ip ++ (fraction fp ++ ex))) = (neg, ip ++ (fraction fp ++ ex)) := by
    apply signOf_signText
    cases ip with
    | nil => exact absurd rfl hne
    | cons b r => exact ⟨b, r ++ (fraction fp ++ ex), rfl, hi b List.mem_cons_self⟩
  have hn : (fraction fp ++ ex).takeWhile isDigit = [] ∧ (fraction fp ++ ex).dropWhile isDigit = fraction fp ++ ex := by
    by_cases h : fp = []
    · subst h
      rcases hex with rfl | ⟨r, rfl⟩
      · exact ⟨rfl, rfl⟩
      · exact ⟨by rw [fraction, if_pos rfl, List.nil_append, List.takeWhile_cons_of_neg (by decide)],
          by rw [fraction, if_pos rfl, List.nil_append, List.dropWhile_cons_of_neg (by decide)]⟩
    · rw [fraction, if_neg h, List.cons_append]
      exact ⟨by rw [List.takeWhile_cons_of_neg (by decide)], by rw [List.dropWhile_cons_of_neg (by decide)]⟩
  unfold wholeDecimal
  simp only [hs]
  rw [List.takeWhile_append_of_pos hi, List.dropWhile_append_of_pos hi, hn.1, hn.2, List.append_nil,
    fractionOf_fraction hf hex]
  simp only [he]
  rw [if_neg]
  intro h
  exact hne (List.append_eq_nil_iff.1 h).1

theorem wholeInt_digits (neg : Bool) {t : Bytes} (h : ∀ b ∈ t, isDigit b = true) (hne : t ≠ []) :
    wholeInt (signText neg ++ t) = some (applySign neg (digitsNat t)) := by
  have hs : signOf (signText neg ++ t) = (neg, t) := by
    apply signOf_signText
    cases t with
    | nil => exact absurd rfl hne
    | cons b r => exact ⟨b, r, rfl, h b List.mem_cons_self⟩
  unfold wholeInt
  simp only [hs]
  rw [if_pos ⟨hne, List.all_eq_true.2 h⟩]

theorem wholeDecimal_of_wholeInt {t : Bytes} {i : ℤ} (h : wholeInt t = some i) : wholeDecimal t = some (i : ℚ) := by
  unfold wholeInt at h
  unfold wholeDecimal
  generalize signOf t = st at h ⊢
  obtain ⟨neg, r⟩ := st
  simp only at h ⊢
  split at h
  · rename_i hr
    have hd : ∀ b ∈ r, isDigit b = true := List.all_eq_true.1 hr.2
    rw [takeWhile_digits hd, dropWhile_digits hd]
    simp only [fractionOf, List.append_nil, exponentValue]
    rw [if_neg hr.1]
    obtain rfl := Option.some.inj h
    cases neg <;> simp [applySign]
  · exact absurd h (by simp)

theorem wholeInt_plus (t : Bytes) : wholeInt (43 :: t) = if t ≠ [] ∧ t.all isDigit = true then some (digitsNat t : ℤ) else none := rfl

theorem exponentValue_exponent (e : ℤ) : exponentValue (exponent e) = some e := by
  have hd : ∀ b ∈ (if e.natAbs < 10 then [48] else []) ++ decimal e.natAbs, isDigit b = true := by
    intro b hb
    rcases List.mem_append.1 hb with hb | hb
    · split at hb
      · rw [List.mem_singleton.1 hb]; decide
      · exact absurd hb (by simp)
    · exact decimal_isDigit _ b hb
  have hne : (if e.natAbs < 10 then [48] else []) ++ decimal e.natAbs ≠ [] := fun h =>
    decimal_ne_nil _ (List.append_eq_nil_iff.1 h).2
  have hv : digitsNat ((if e.natAbs < 10 then [48] else []) ++ decimal e.natAbs) = e.natAbs := by
    rw [digitsNat_append, digitsNat_decimal]
    split <;> simp [digitsNat]
  unfold exponent
  rw [exponentValue, if_pos (Or.inl rfl)]
  by_cases h : e < 0
  · rw [if_pos h]
    have := wholeInt_digits true hd hne
    rw [hv] at this
    refine this.trans ?_
    simp only [applySign, if_true]
    congr 1; omega
  · rw [if_neg h, wholeInt_plus, if_pos ⟨hne, List.all_eq_true.2 hd⟩, hv]
    congr 1; omega

/-! ### Seventeen digits -/

theorem digits_scaled {d ip fp : Bytes} {k m : ℕ} {E e : ℤ} (hd : d = ip ++ fp ++ List.replicate k 48) (hm : digitsNat d = m)
    (he : E - (fp.length : ℤ) = e - 16 + k) :
    (digitsNat (ip ++ fp) : ℚ) * 10 ^ (E - (fp.length : ℤ)) = m * 10 ^ (e - 16) := by
  have h1 : m = digitsNat (ip ++ fp) * 10 ^ k := by
    rw [← hm, hd, digitsNat_append, digitsNat_zeros, List.length_replicate, Nat.add_zero]
  rw [he, zpow_add₀ (by norm_num), h1, zpow_natCast]
  push_cast
  ring

theorem wholeDecimal_general17 (neg : Bool) {m : ℕ} (e : ℤ) (h1 : 10 ^ 16 ≤ m) (h2 : m < 10 ^ 17) :
    wholeDecimal (signText neg ++ general17 m e) = some ((applySign neg 1 : ℤ) * ((m : ℚ) * 10 ^ (e - 16))) := by
  have hl := decimal_length17 h1 h2
  have hdig := decimal_isDigit m
  have hval := digitsNat_decimal m
  unfold general17
  simp only
  generalize decimal m = d at hl hdig hval
  have ht : ∀ j, ∀ b ∈ d.take j, isDigit b = true := fun j b hb => hdig b (List.mem_of_mem_take hb)
  have hf : ∀ j, ∀ b ∈ stripZeros (d.drop j), isDigit b = true := fun j b hb =>
    hdig b (List.mem_of_mem_drop (stripZeros_mem hb))
  have hn : ∀ j, 0 < j → d.take j ≠ [] := by
    intro j hj h
    have := congrArg List.length h
    rw [List.length_take, hl, List.length_nil] at this
    omega
  split
  · rw [List.append_assoc, wholeDecimal_text neg (ht 1) (hn 1 (by omega)) (hf 1) (ex := exponent e) (Or.inr ⟨_, rfl⟩) (exponentValue_exponent e),
      mul_assoc]
    obtain ⟨k, hk⟩ := stripZeros_spec (d.drop 1)
    have hlen := congrArg List.length hk
    rw [List.length_drop, hl, List.length_append, List.length_replicate] at hlen
    rw [digits_scaled (d := d) (k := k) (m := m) (e := e) ?_ hval (by omega)]
    rw [List.append_assoc, ← hk, List.take_append_drop]
  · rename_i hr
    rw [not_or, not_lt, not_le] at hr
    split
    · rename_i h0
      obtain ⟨n, rfl⟩ := Int.eq_ofNat_of_zero_le h0
      have := wholeDecimal_text neg (ht ((n : ℤ).toNat + 1)) (hn _ (by omega)) (hf ((n : ℤ).toNat + 1)) (Or.inl rfl)
        (show exponentValue [] = some 0 from rfl)
      rw [List.append_nil] at this
      rw [this, mul_assoc]
      obtain ⟨k, hk⟩ := stripZeros_spec (d.drop ((n : ℤ).toNat + 1))
      have hlen := congrArg List.length hk
      rw [List.length_drop, hl, List.length_append, List.length_replicate] at hlen
      have hn17 : (n : ℤ).toNat = n := by omega
      rw [digits_scaled (d := d) (k := k) (m := m) (e := n) ?_ hval (by omega)]
      rw [List.append_assoc, ← hk, List.take_append_drop]
    · rename_i h0
      have hz : ∀ b ∈ List.replicate (-e - 1).toNat 48 ++ stripZeros d, isDigit b = true := by
        intro b hb
        rcases List.mem_append.1 hb with hb | hb
        · rw [(List.mem_replicate.1 hb).2]; decide
        · exact hdig b (stripZeros_mem hb)
      have := wholeDecimal_text neg (ip := [48]) (by decide) (by simp) hz (Or.inl rfl) (show exponentValue [] = some 0 from rfl)
      rw [List.append_nil] at this
      rw [this, mul_assoc]
      obtain ⟨k, hk⟩ := stripZeros_spec d
      have hlen := congrArg List.length hk
      rw [hl, List.length_append, List.length_replicate] at hlen
      have hlen2 : (List.replicate (-e - 1).toNat (48 : UInt8) ++ stripZeros d).length = (-e - 1).toNat + (stripZeros d).length := by
        rw [List.length_append, List.length_replicate]
      rw [digits_scaled (d := [48] ++ List.replicate (-e - 1).toNat 48 ++ d) (k := k) (m := m) (e := e) ?_ ?_
        (by rw [hlen2]; omega)]
      · conv_lhs => rw [hk]
        simp only [List.append_assoc]
      · rw [digitsNat_append, digitsNat_append, digitsNat_zeros, hval]; simp [digitsNat]

theorem digits17_spec {x : ℚ} (hx : x ≠ 0) :
    10 ^ 16 ≤ (digits17 x).1 ∧ (digits17 x).1 < 10 ^ 17 ∧
      |((digits17 x).1 : ℚ) * 10 ^ ((digits17 x).2 - 16) - (|x|)| ≤ |x| / (2 * 10 ^ 16) := by
  have hp : 0 < |x| := abs_pos.2 hx
  have l1 : (10 : ℚ) ^ Int.log 10 |x| ≤ |x| := by
    have := Int.zpow_log_le_self (b := 10) (by norm_num) hp
    exact_mod_cast this
  have l2 : |x| < (10 : ℚ) ^ (Int.log 10 |x| + 1) := by
    have := Int.lt_zpow_succ_log_self (b := 10) (by norm_num) |x|
    exact_mod_cast this
  generalize he : Int.log 10 |x| = e at l1 l2
  have pz : ∀ k : ℤ, (0 : ℚ) < 10 ^ k := fun k => zpow_pos (by norm_num) k
  have hmul : ∀ a b : ℤ, (10 : ℚ) ^ a * 10 ^ b = 10 ^ (a + b) := fun a b => (zpow_add₀ (by norm_num) a b).symm
  set v := |x| * 10 ^ (16 - e) with hv
  have v1 : (10 : ℚ) ^ 16 ≤ v := by
    have := mul_le_mul_of_nonneg_right l1 (pz (16 - e)).le
    rw [hmul, show e + (16 - e) = ((16 : ℕ) : ℤ) by push_cast; ring, zpow_natCast] at this
    exact this
  have v2 : v < (10 : ℚ) ^ 17 := by
    have := mul_lt_mul_of_pos_right l2 (pz (16 - e))
    rw [hmul, show e + 1 + (16 - e) = ((17 : ℕ) : ℤ) by push_cast; ring, zpow_natCast] at this
    exact this
  have r1 := roundEven_le v
  have r2 := le_roundEven v
  have hr1 : (10 : ℤ) ^ 16 ≤ roundEven v := by
    have : ((10 : ℤ) ^ 16 : ℤ) - 1 < roundEven v := by
      have : (((10 : ℤ) ^ 16 - 1 : ℤ) : ℚ) < roundEven v := by push_cast; linarith
      exact_mod_cast this
    omega
  have hr2 : roundEven v ≤ 10 ^ 17 := by
    have : roundEven v < 10 ^ 17 + 1 := by
      have : (roundEven v : ℚ) < ((10 ^ 17 + 1 : ℤ) : ℚ) := by push_cast; linarith
      exact_mod_cast this
    omega
  have hxv : |x| = v * 10 ^ (e - 16) := by
    rw [hv, mul_assoc, hmul, show 16 - e + (e - 16) = 0 by ring, zpow_zero, mul_one]
  have hb : |(roundEven v : ℚ) * 10 ^ (e - 16) - (|x|)| ≤ |x| / (2 * 10 ^ 16) := by
    rw [hxv, ← sub_mul, abs_mul, abs_of_pos (pz (e - 16))]
    have h3 : |(roundEven v : ℚ) - v| ≤ 1 / 2 := abs_le.2 ⟨by linarith, by linarith⟩
    have h4 : (1 : ℚ) / 2 ≤ v / (2 * 10 ^ 16) := by
      rw [div_le_div_iff₀ (by norm_num) (by norm_num)]; linarith
    calc |(roundEven v : ℚ) - v| * 10 ^ (e - 16) ≤ v / (2 * 10 ^ 16) * 10 ^ (e - 16) :=
          mul_le_mul_of_nonneg_right (h3.trans h4) (pz _).le
      _ = v * 10 ^ (e - 16) / (2 * 10 ^ 16) := by ring
  have hcast : (((roundEven v).toNat : ℕ) : ℚ) = roundEven v := by
    have : (((roundEven v).toNat : ℕ) : ℤ) = roundEven v := Int.toNat_of_nonneg (by omega)
    exact_mod_cast this
  unfold digits17
  simp only [he]
  rw [← hv]
  split
  · rename_i hm
    have hm' : (roundEven v : ℚ) = 10 ^ 17 := by rw [← hcast, hm]; norm_num
    refine ⟨le_refl _, by norm_num, ?_⟩
    rw [hm'] at hb
    have e1 : (((10 ^ 16 : ℕ) : ℚ)) * 10 ^ (e + 1 - 16) = 10 ^ 17 * 10 ^ (e - 16) := by
      rw [show e + 1 - 16 = 1 + (e - 16) by ring, zpow_add₀ (by norm_num), zpow_one]
      push_cast
      ring
    rw [e1]
    exact hb
  · rename_i hm
    refine ⟨by omega, by omega, ?_⟩
    simp only [hcast]
    exact hb

/-! ### Numbers -/

theorem minus_eq (x : ℚ) : minus x = signText (decide (x < 0)) := by
  unfold minus signText
  by_cases h : x < 0 <;> simp [h]

theorem applySign_abs (x : ℚ) : ((applySign (decide (x < 0)) 1 : ℤ) : ℚ) * |x| = x := by
  by_cases h : x < 0
  · simp [h, applySign, abs_of_neg h]
  · simp [h, applySign, abs_of_nonneg (not_lt.1 h)]

/-- What is printed is read as the same double. -/
theorem wholeDecimal_numberText {x : ℚ} (hx : IsDouble x) : ∃ y, wholeDecimal (numberText x) = some y ∧ double y = x := by
  unfold numberText
  rw [minus_eq]
  split
  · rename_i h
    refine ⟨x, ?_, double_of_isDouble hx⟩
    have := wholeDecimal_text (decide (x < 0)) (decimal_isDigit ⌊x⌋.natAbs) (decimal_ne_nil _) (fp := []) (by simp) (Or.inl rfl)
      (show exponentValue [] = some 0 from rfl)
    simp only [fraction, if_true, List.append_nil, List.length_nil] at this
    rw [this, digitsNat_decimal, Nat.cast_natAbs]
    push_cast
    rw [h.2, mul_one, applySign_abs]
  · rename_i h
    have h0 : x ≠ 0 := by
      rintro rfl
      apply h
      simp
    obtain ⟨a, b, c⟩ := digits17_spec h0
    refine ⟨_, wholeDecimal_general17 (decide (x < 0)) _ a b, ?_⟩
    apply double_of_near hx
    have hs := applySign_abs x
    have habs : |((applySign (decide (x < 0)) 1 : ℤ) : ℚ)| = 1 := by
      by_cases h : x < 0 <;> simp [h, applySign]
    have hpos : 0 < |x| := abs_pos.2 h0
    generalize ((applySign (decide (x < 0)) 1 : ℤ) : ℚ) = s at hs habs ⊢
    have : s * (((digits17 x).1 : ℚ) * 10 ^ ((digits17 x).2 - 16)) - x =
        s * (((digits17 x).1 : ℚ) * 10 ^ ((digits17 x).2 - 16) - |x|) := by
      rw [mul_sub, hs]
    rw [this, abs_mul, habs, one_mul]
    refine lt_of_le_of_lt c ?_
    rw [div_lt_div_iff_of_pos_left hpos (by norm_num) (by norm_num)]
    norm_num

theorem isNumberChar_of_digit {b : UInt8} (h : isDigit b = true) : isNumberChar b = true := by
  unfold isNumberChar; simp [h]

theorem signText_chars (neg : Bool) : ∀ b ∈ signText neg, isNumberChar b = true := by
  cases neg <;> decide

theorem fraction_chars {l : Bytes} (h : ∀ b ∈ l, isDigit b = true) : ∀ b ∈ fraction l, isNumberChar b = true := by
  intro b hb
  unfold fraction at hb
  split at hb
  · exact absurd hb (by simp)
  · rcases List.mem_cons.1 hb with rfl | hb
    · decide
    · exact isNumberChar_of_digit (h b hb)

theorem exponent_chars (e : ℤ) : ∀ b ∈ exponent e, isNumberChar b = true := by
  intro b hb
  unfold exponent at hb
  rcases List.mem_cons.1 hb with rfl | hb
  · decide
  · rcases List.mem_cons.1 hb with rfl | hb
    · split <;> decide
    · rcases List.mem_append.1 hb with hb | hb
      · split at hb
        · rw [List.mem_singleton.1 hb]; decide
        · exact absurd hb (by simp)
      · exact isNumberChar_of_digit (decimal_isDigit _ b hb)

theorem numberText_chars (x : ℚ) : ∀ b ∈ numberText x, isNumberChar b = true := by
  intro b hb
  unfold numberText at hb
  rw [minus_eq] at hb
  split at hb
  · rcases List.mem_append.1 hb with hb | hb
    · exact signText_chars _ b hb
    · exact isNumberChar_of_digit (decimal_isDigit _ b hb)
  · rcases List.mem_append.1 hb with hb | hb
    · exact signText_chars _ b hb
    · unfold general17 at hb
      simp only at hb
      have hdig := decimal_isDigit (digits17 x).1
      split at hb
      · rcases List.mem_append.1 hb with hb | hb
        · rcases List.mem_append.1 hb with hb | hb
          · exact isNumberChar_of_digit (hdig b (List.mem_of_mem_take hb))
          · exact fraction_chars (fun c hc => hdig c (List.mem_of_mem_drop (stripZeros_mem hc))) b hb
        · exact exponent_chars _ b hb
      · split at hb
        · rcases List.mem_append.1 hb with hb | hb
          · exact isNumberChar_of_digit (hdig b (List.mem_of_mem_take hb))
          · exact fraction_chars (fun c hc => hdig c (List.mem_of_mem_drop (stripZeros_mem hc))) b hb
        · rcases List.mem_append.1 hb with hb | hb
          · rw [List.mem_singleton.1 hb]; decide
          · refine fraction_chars (fun c hc => ?_) b hb
            rcases List.mem_append.1 hc with hc | hc
            · rw [(List.mem_replicate.1 hc).2]; decide
            · exact hdig c (stripZeros_mem hc)

theorem wholeDecimal_head {t : Bytes} {y : ℚ} (h : wholeDecimal t = some y) : t ≠ [] := by
  rintro rfl
  exact absurd h (by simp [wholeDecimal, signOf, fractionOf])

theorem digits_cons_head {l r : Bytes} (hne : l ≠ []) (hd : ∀ b ∈ l, isDigit b = true) :
    ∃ b t, l ++ r = b :: t ∧ (isDigit b || b = 45) = true := by
  cases l with
  | nil => exact absurd rfl hne
  | cons b t => exact ⟨b, t ++ r, rfl, by simp [hd b List.mem_cons_self]⟩

theorem sign_head (neg : Bool) {t : Bytes} (h : ∃ b r, t = b :: r ∧ (isDigit b || b = 45) = true) :
    ∃ b r, signText neg ++ t = b :: r ∧ (isDigit b || b = 45) = true := by
  cases neg with
  | true => exact ⟨45, t, rfl, by decide⟩
  | false => exact h

/-- The text of a number begins with a digit or a minus sign. -/
theorem numberText_head (x : ℚ) : ∃ b r, numberText x = b :: r ∧ (isDigit b || b = 45) = true := by
  unfold numberText
  rw [minus_eq]
  split
  · apply sign_head
    have := digits_cons_head (r := []) (decimal_ne_nil ⌊x⌋.natAbs) (decimal_isDigit _)
    rwa [List.append_nil] at this
  · apply sign_head
    have hdig := decimal_isDigit (digits17 x).1
    have hn : ∀ j, (decimal (digits17 x).1).take (j + 1) ≠ [] := by
      intro j h
      exact decimal_ne_nil _ ((List.take_eq_nil_iff.1 h).resolve_left (by omega))
    unfold general17
    simp only
    split
    · rw [List.append_assoc]
      exact digits_cons_head (hn 0) fun b hb => hdig b (List.mem_of_mem_take hb)
    · split
      · exact digits_cons_head (hn _) fun b hb => hdig b (List.mem_of_mem_take hb)
      · exact ⟨48, _, rfl, by decide⟩

/-- A number that is printed is parsed, up to the first character that is not part of a number. -/
theorem parseNumber_numberText {x : ℚ} (hx : IsDouble x) (hb : |x| < 2 ^ 1024) (out : Value) {r : Bytes}
    (hc : ∀ b ∈ r.head?, isNumberChar b = false) : ∃ v, parseNumber out (numberText x ++ r) = .ok v r ∧ v.getDouble = .ok x := by
  obtain ⟨y, hy, hyx⟩ := wholeDecimal_numberText hx
  have hr : r.takeWhile isNumberChar = [] ∧ r.dropWhile isNumberChar = r := by
    cases r with
    | nil => exact ⟨rfl, rfl⟩
    | cons c r =>
      have := hc c rfl
      exact ⟨List.takeWhile_cons_of_neg (by simp [this]), List.dropWhile_cons_of_neg (by simp [this])⟩
  have ht : (numberText x ++ r).takeWhile isNumberChar = numberText x := by
    rw [List.takeWhile_append_of_pos (numberText_chars x), hr.1, List.append_nil]
  have hd : (numberText x ++ r).dropWhile isNumberChar = r := by
    rw [List.dropWhile_append_of_pos (numberText_chars x), hr.2]
  unfold parseNumber
  simp only [ht, hd]
  cases hs : strtoimax (numberText x) with
  | some i =>
    refine ⟨.int i, rfl, ?_⟩
    unfold strtoimax at hs
    split at hs
    · exact absurd hs (by simp)
    · rename_i j hj
      split at hs
      · obtain rfl := Option.some.inj hs
        rw [wholeDecimal_of_wholeInt hj] at hy
        obtain rfl := Option.some.inj hy
        rw [Value.getDouble, hyx]
      · exact absurd hs (by simp)
  | none =>
    simp only [hy, hyx]
    rw [if_neg (not_le.2 hb)]
    exact ⟨_, rfl, rfl⟩

theorem parse_numberText {x : ℚ} (hx : IsDouble x) (hb : |x| < 2 ^ 1024) (n : ℕ) (out : Value) {r : Bytes}
    (hc : ∀ b ∈ r.head?, isNumberChar b = false) :
    ∃ v, parse (n + 1) out (numberText x ++ r) = .ok v r ∧ v.getDouble = .ok x := by
  obtain ⟨v, hv, hg⟩ := parseNumber_numberText hx hb out hc
  refine ⟨v, ?_, hg⟩
  obtain ⟨b, t, he, hbt⟩ := numberText_head x
  rw [he] at hv ⊢
  have hne : ∀ d : UInt8, (isDigit d || d = 45) = false → b ≠ d := by
    rintro d hd rfl
    rw [hbt] at hd
    exact absurd hd (by decide)
  have hskip : skipWs (b :: t ++ r) = b :: (t ++ r) := by
    have hbl : isBlank b = false := by
      unfold isBlank
      simp [hne 32 (by decide), hne 9 (by decide), hne 10 (by decide), hne 13 (by decide)]
    rw [skipWs, List.cons_append, List.dropWhile_cons_of_neg (by simp [hbl])]
  rw [parse, hskip]
  simp only
  rw [if_neg (hne 110 (by decide)), if_neg (hne 102 (by decide)), if_neg (hne 116 (by decide)), if_neg (hne 34 (by decide)),
    if_neg (hne 91 (by decide)), if_neg (hne 123 (by decide)), if_pos hbt]
  exact hv

/-! ### Strings and objects -/

theorem stringSteps_plain {p : Bytes} (hp : ∀ b ∈ p, 32 ≤ b ∧ b ≠ 34 ∧ b ≠ 92) :
    ∀ (n : ℕ) (out r : Bytes), p.length < n → stringSteps n out (p ++ 34 :: r) = (out ++ p, some r) := by
  induction p with
  | nil =>
    intro n out r hn
    obtain ⟨k, rfl⟩ := Nat.exists_eq_add_one_of_ne_zero (by simp at hn; omega : n ≠ 0)
    rw [List.nil_append, List.append_nil]
    rfl
  | cons a p ih =>
    intro n out r hn
    obtain ⟨k, rfl⟩ := Nat.exists_eq_add_one_of_ne_zero (by omega : n ≠ 0)
    obtain ⟨h1, h2, h3⟩ := hp a List.mem_cons_self
    rw [List.cons_append, stringSteps.eq_def]
    simp only
    rw [if_neg (UInt8.not_lt.2 h1), if_neg h2, if_neg h3,
      ih (fun b hb => hp b (List.mem_cons_of_mem _ hb)) k _ _ (by simp at hn; omega), List.append_assoc]
    rfl

theorem parseString_plain {p : Bytes} (hp : ∀ b ∈ p, 32 ≤ b ∧ b ≠ 34 ∧ b ≠ 92) (r : Bytes) :
    parseString (p ++ 34 :: r) = (p, some r) := by
  rw [parseString, stringSteps_plain hp _ _ _ (by rw [List.length_append]; omega), List.nil_append]

theorem metadataText_eq (x : ℚ) : metadataText x = 123 :: 34 :: (nearTag ++ 34 :: 58 :: (numberText x ++ 44 :: 34 :: (versionTag ++
    34 :: 58 :: 49 :: [125]))) := by
  have h : metadataText x = [123] ++ (strText nearTag ++ [58] ++ numberText x ++ [44] ++ (strText versionTag ++ [58] ++ intText 1)) ++
      [125] := by
    unfold metadataText
    simp only [serialize, serializeMembers]
  rw [h, show strText nearTag = 34 :: (nearTag ++ [34]) from rfl, show strText versionTag = 34 :: (versionTag ++ [34]) from rfl,
    show intText 1 = [49] by decide]
  simp only [List.append_assoc, List.cons_append, List.nil_append]

theorem expect_cons {c : UInt8} (h : isBlank c = false) (r : Bytes) : expect c (c :: r) = some r := by
  unfold expect skipWs
  rw [List.dropWhile_cons_of_neg (by simp [h])]
  simp

theorem expect_ne {c b : UInt8} (h : isBlank b = false) (hb : b ≠ c) (r : Bytes) : expect c (b :: r) = none := by
  unfold expect skipWs
  rw [List.dropWhile_cons_of_neg (by simp [h])]
  simp [hb]

theorem parse_object {n : ℕ} (out : Value) (r : Bytes) :
    parse (n + 1) out (123 :: 34 :: r) = parseMembers n [] (34 :: r) := by
  rw [parse, skipWs, List.dropWhile_cons_of_neg (by decide)]
  simp only
  rw [if_neg (by decide), if_neg (by decide), if_neg (by decide), if_neg (by decide), if_neg (by decide), if_pos (by decide),
    expect_ne (by decide) (by decide)]

/-- A text that ends after the number is parsed to an object with the near plane. -/
theorem parseText_truncated {x : ℚ} (hx : IsDouble x) (hb : |x| < 2 ^ 1024) :
    ∃ v, parseText (123 :: 34 :: (nearTag ++ 34 :: 58 :: numberText x)) = .fail (.object [(nearTag, v)]) ∧ v.getDouble = .ok x := by
  obtain ⟨n, hn⟩ : ∃ n, 2 * (123 :: 34 :: (nearTag ++ 34 :: 58 :: numberText x)).length + 2 = n + 3 :=
    ⟨2 * (123 :: 34 :: (nearTag ++ 34 :: 58 :: numberText x)).length - 1, by simp only [List.length_cons]; omega⟩
  obtain ⟨v, hv, hg⟩ := parse_numberText hx hb n .null (r := []) (fun b hb => by simp at hb)
  rw [List.append_nil] at hv
  refine ⟨v, ?_, hg⟩
  unfold parseText
  rw [hn, parse_object, parseMembers, expect_cons (by decide)]
  simp only
  rw [parseString_plain (by decide)]
  simp only
  rw [expect_cons (by decide)]
  simp only [List.lookup_nil, Option.getD_none]
  rw [hv]
  rfl

/-- The text that is written is parsed to an object with the two entries, whatever follows it. -/
theorem parseText_metadataText {x : ℚ} (hx : IsDouble x) (hb : |x| < 2 ^ 1024) (junk : Bytes) :
    ∃ v, parseText (metadataText x ++ junk) = .ok (.object [(nearTag, v), (versionTag, .int 1)]) junk ∧ v.getDouble = .ok x := by
  rw [metadataText_eq]
  simp only [List.cons_append, List.append_assoc, List.nil_append]
  obtain ⟨n, hn⟩ : ∃ n, 2 * (123 :: 34 :: (nearTag ++ 34 :: 58 :: (numberText x ++ 44 :: 34 :: (versionTag ++
      34 :: 58 :: 49 :: 125 :: junk)))).length + 2 = n + 5 := by
    refine ⟨2 * (123 :: 34 :: (nearTag ++ 34 :: 58 :: (numberText x ++ 44 :: 34 :: (versionTag ++
      34 :: 58 :: 49 :: 125 :: junk)))).length - 3, ?_⟩
    simp only [List.length_cons]
    omega
  obtain ⟨v, hv, hg⟩ := parse_numberText hx hb (n + 2) .null
    (r := 44 :: 34 :: (versionTag ++ 34 :: 58 :: 49 :: 125 :: junk)) (fun b hb => by obtain rfl := Option.some.inj hb; decide)
  refine ⟨v, ?_, hg⟩
  unfold parseText
  rw [hn]
  rw [parse_object, parseMembers, expect_cons (by decide)]
  simp only
  rw [parseString_plain (by decide)]
  simp only
  rw [expect_cons (by decide)]
  simp only [List.lookup_nil, Option.getD_none]
  rw [hv]
  simp only
  rw [expect_cons (by decide)]
  simp only [setMember]
  rw [parseMembers, expect_cons (by decide)]
  simp only
  rw [parseString_plain (by decide)]
  simp only
  rw [expect_cons (by decide)]
  have hlook : List.lookup versionTag [(nearTag, v)] = none := by
    rw [List.lookup_cons, show (versionTag == nearTag) = false from by decide]
    rfl
  simp only [hlook, Option.getD_none]
  have hnum : parse (n + 2) .null (49 :: 125 :: junk) = .ok (.int 1) (125 :: junk) := by
    rw [parse, skipWs, List.dropWhile_cons_of_neg (by decide)]
    simp only
    rw [if_neg (by decide), if_neg (by decide), if_neg (by decide), if_neg (by decide), if_neg (by decide), if_neg (by decide),
      if_pos (by decide), parseNumber]
    rw [List.takeWhile_cons_of_pos (by decide), List.takeWhile_cons_of_neg (by decide), List.dropWhile_cons_of_pos (by decide),
      List.dropWhile_cons_of_neg (by decide), show strtoimax [49] = some 1 by decide]
  rw [hnum]
  simp only
  rw [expect_ne (by decide) (by decide), expect_cons (by decide)]
  simp only [setMember]
  rw [if_neg (by decide)]

/-! ### Which values are parsed -/

/-- The outcome is an array, or filled in one, or an exception. -/
def Outcome.IsArray : Outcome → Prop
  | .ok (.array _) _ => True
  | .fail (.array _) => True
  | .overflow => True
  | _ => False

theorem parseItems_isArray : ∀ (n : ℕ) (l : List Value) (s : Bytes), (parseItems n l s).IsArray
  | 0, _, _ => by rw [parseItems]; trivial
  | n + 1, l, s => by
    rw [parseItems]
    cases parse n .null s with
    | overflow => trivial
    | fail v => trivial
    | ok v r =>
      simp only
      cases expect 44 r with
      | some r => exact parseItems_isArray n _ r
      | none =>
        simp only
        cases expect 93 r <;> trivial

/-- The value an outcome leaves behind. -/
def Outcome.value : Outcome → Option Value
  | .ok v _ => some v
  | .fail v => some v
  | .overflow => none

theorem literal_value {p : Bytes} {v out w : Value} {r : Bytes} (h : (literal p v out r).value = some w) : w = v ∨ w = out := by
  unfold literal at h
  split at h
  · exact Or.inr (Option.some.inj h).symm
  · exact Or.inl (Option.some.inj h).symm

/-- Only a text that begins with a brace gives an object. -/
theorem parse_object_head {n : ℕ} {s : Bytes} {l : List (Bytes × Value)} (h : (parse n .null s).value = some (.object l)) :
    (skipWs s).head? = some 123 := by
  cases n with
  | zero => exact absurd h (by simp [parse, Outcome.value])
  | succ n =>
    rw [parse] at h
    split at h
    · exact absurd h (by simp [Outcome.value])
    · rename_i c r hs
      rw [hs]
      by_cases hc : c = 123
      · rw [hc]; rfl
      · exfalso
        split_ifs at h
        · rcases literal_value h with h | h <;> exact absurd h (by simp)
        · rcases literal_value h with h | h <;> exact absurd h (by simp)
        · rcases literal_value h with h | h <;> exact absurd h (by simp)
        · unfold stringValue at h
          split at h <;> exact absurd (Option.some.inj h) (by simp)
        · split at h
          · exact absurd (Option.some.inj h) (by simp)
          · have := parseItems_isArray n [] r
            cases ho : parseItems n [] r with
            | overflow => rw [ho] at h; exact absurd h (by simp [Outcome.value])
            | fail v =>
              rw [ho] at h this
              obtain rfl := Option.some.inj h
              exact this
            | ok v r =>
              rw [ho] at h this
              obtain rfl := Option.some.inj h
              exact this
        · unfold parseNumber at h
          simp only at h
          split at h
          · exact absurd (Option.some.inj h) (by simp)
          · split at h
            · exact absurd (Option.some.inj h) (by simp)
            · split at h
              · exact absurd h (by simp [Outcome.value])
              · exact absurd (Option.some.inj h) (by simp)
        · exact absurd (Option.some.inj h) (by simp)

end Sumo.PicoJson
