import Verif.Lemmas.InverseDepth
import Mathlib.Data.Rat.Floor

/-!
# Properties of inverse depth codes (C70, C89)

`ρ` is any lawful rounding (monotone, relative error at most half a unit in the last place), `near` any positive number;
`ρ.IsSingle near` says that `near` is itself a single precision number, as the code's typed argument is.
-/

namespace Sumo

set_option linter.unusedSectionVars false

variable {K : Type} [Field K] [LinearOrder K] [IsStrictOrderedRing K] [FloorRing K]

/-- The rounding laws are satisfiable (exact arithmetic). -/
theorem exact_lawful : (Rounding.exact K).Lawful where
  mono32 := fun h => h
  mono64 := fun h => h
  err32 := fun x => by simp only [Rounding.exact, id, sub_self, abs_zero]; positivity
  err64 := fun x => by simp only [Rounding.exact, id, sub_self, abs_zero]; positivity

theorem exact_isSingle (x : K) : (Rounding.exact K).IsSingle x where
  single := rfl
  double := rfl
  mul := fun _ _ => rfl

/-- **C70.** Code 0, and only code 0, means infinity (16 and 8 bit). -/
theorem C70_zero_is_infinity (ρ : Rounding K) (near : K) (c : ℕ) :
    (depthOfInverseDepth ρ c near = .posInf ↔ c = 0) ∧ (depthOfUint8InverseDepth ρ c near = .posInf ↔ c = 0) := by
  constructor
  · unfold depthOfInverseDepth
    split_ifs with h <;> simp [h]
  · unfold depthOfUint8InverseDepth
    split_ifs with h <;> simp [h]

example : depthOfInverseDepth (Rounding.exact ℚ) 0 1 = .posInf := by decide +kernel

/-- **C70.** All 16 bit codes other than 0 decode to a depth between the near plane and the depth of code 1; the largest
code decodes to the near plane exactly; greater codes mean smaller depths; and the depth of code `c` is
`near * 65535 / c` up to a relative error of `2^-23`. -/
theorem C70_decode16 (ρ : Rounding K) (hρ : ρ.Lawful) (near : K) (hnear : 0 < near) (hs : ρ.IsSingle near) (c : ℕ)
    (h0 : c ≠ 0) (hc : c ≤ 65535) :
    ∃ d far, depthOfInverseDepth ρ c near = .fin d ∧ depthOfInverseDepth ρ 1 near = .fin far ∧
      near ≤ d ∧ d ≤ far ∧ depthOfInverseDepth ρ 65535 near = .fin near ∧
      |d - near * 65535 / c| ≤ near * 65535 / c / 2 ^ 23 ∧
      ∀ c', c ≤ c' → ∃ d', depthOfInverseDepth ρ c' near = .fin d' ∧ d' ≤ d := by
  have hA : ρ.f64 (near * 65535) = near * 65535 := by
    simpa using hs.mul 65535 (by norm_num)
  have anti : ∀ {a b : ℕ}, 0 < a → a ≤ b →
      ρ.f32 (ρ.f64 (ρ.f64 (near * 65535) / (b : K))) ≤ ρ.f32 (ρ.f64 (ρ.f64 (near * 65535) / (a : K))) := by
    intro a b ha hab
    apply hρ.mono32
    apply hρ.mono64
    rw [hA]
    have ha' : (0 : K) < a := by exact_mod_cast ha
    have hab' : (a : K) ≤ b := by exact_mod_cast hab
    exact div_le_div_of_nonneg_left (by positivity) ha' hab'
  have hfull : ρ.f32 (ρ.f64 (ρ.f64 (near * 65535) / ((65535 : ℕ) : K))) = near := by
    rw [hA]
    have : near * 65535 / ((65535 : ℕ) : K) = near := by
      push_cast
      rw [mul_div_assoc, div_self (by norm_num), mul_one]
    rw [this, hs.double, hs.single]
  have hcpos : 0 < c := Nat.pos_of_ne_zero h0
  refine ⟨_, _, by rw [depthOfInverseDepth, if_neg h0], by rw [depthOfInverseDepth, if_neg one_ne_zero], ?_, ?_, ?_, ?_,
    ?_⟩
  · have := anti hcpos hc
    rwa [hfull] at this
  · exact anti one_pos hcpos
  · rw [depthOfInverseDepth, if_neg (by norm_num), hfull]
  · have hN : 0 < near * 65535 := by positivity
    have hc' : (0 : K) < c := by exact_mod_cast hcpos
    have a := relErr64 hρ hN.le
    have hA0 := a.pos hN (by norm_num)
    have b := relErr64 hρ (div_pos hA0 hc').le
    have hB0 := b.pos (div_pos hA0 hc') (by norm_num)
    obtain ⟨h1, h2⟩ := decode_rel_fine hN hcpos a b (relErr32 hρ hB0.le)
    set d := ρ.f32 (ρ.f64 (ρ.f64 (near * 65535) / (c : K)))
    rw [abs_le]
    have e : near * 65535 / c * c = near * 65535 := by field_simp
    constructor
    · have : near * 65535 / c * (1 - 1 / 2 ^ 23) ≤ d := by
        rw [div_mul_eq_mul_div, div_le_iff₀ hc']
        exact h1
      linarith
    · have : d ≤ near * 65535 / c * (1 + 1 / 2 ^ 23) := by
        rw [div_mul_eq_mul_div, le_div_iff₀ hc']
        exact h2
      linarith
  · intro c' hcc
    exact ⟨_, by rw [depthOfInverseDepth, if_neg (by omega)], anti hcpos hcc⟩

example : ∃ d far, depthOfInverseDepth (Rounding.exact ℚ) 7 1 = .fin d ∧
    depthOfInverseDepth (Rounding.exact ℚ) 1 1 = .fin far ∧ d = 65535 / 7 ∧ far = 65535 := by
  refine ⟨_, _, rfl, rfl, ?_, ?_⟩ <;> decide +kernel

/-- **C70.** The same for 8 bit codes. -/
theorem C70_decode8 (ρ : Rounding K) (hρ : ρ.Lawful) (near : K) (hnear : 0 < near) (hs : ρ.IsSingle near) (c : ℕ)
    (h0 : c ≠ 0) (hc : c ≤ 255) :
    ∃ d far, depthOfUint8InverseDepth ρ c near = .fin d ∧ depthOfUint8InverseDepth ρ 1 near = .fin far ∧
      near ≤ d ∧ d ≤ far ∧ depthOfUint8InverseDepth ρ 255 near = .fin near ∧
      |d - near * 255 / c| ≤ near * 255 / c / 2 ^ 23 ∧
      ∀ c', c ≤ c' → ∃ d', depthOfUint8InverseDepth ρ c' near = .fin d' ∧ d' ≤ d := by
  have hA : ρ.f64 (near * 255) = near * 255 := by
    simpa using hs.mul 255 (by norm_num)
  have anti : ∀ {a b : ℕ}, 0 < a → a ≤ b →
      ρ.f32 (ρ.f64 (ρ.f64 (near * 255) / (b : K))) ≤ ρ.f32 (ρ.f64 (ρ.f64 (near * 255) / (a : K))) := by
    intro a b ha hab
    apply hρ.mono32
    apply hρ.mono64
    rw [hA]
    have ha' : (0 : K) < a := by exact_mod_cast ha
    have hab' : (a : K) ≤ b := by exact_mod_cast hab
    exact div_le_div_of_nonneg_left (by positivity) ha' hab'
  have hfull : ρ.f32 (ρ.f64 (ρ.f64 (near * 255) / ((255 : ℕ) : K))) = near := by
    rw [hA]
    have : near * 255 / ((255 : ℕ) : K) = near := by
      push_cast
      rw [mul_div_assoc, div_self (by norm_num), mul_one]
    rw [this, hs.double, hs.single]
  have hcpos : 0 < c := Nat.pos_of_ne_zero h0
  refine ⟨_, _, by rw [depthOfUint8InverseDepth, if_neg h0], by rw [depthOfUint8InverseDepth, if_neg one_ne_zero], ?_,
    ?_, ?_, ?_, ?_⟩
  · have := anti hcpos hc
    rwa [hfull] at this
  · exact anti one_pos hcpos
  · rw [depthOfUint8InverseDepth, if_neg (by norm_num), hfull]
  · have hN : 0 < near * 255 := by positivity
    have hc' : (0 : K) < c := by exact_mod_cast hcpos
    have a := relErr64 hρ hN.le
    have hA0 := a.pos hN (by norm_num)
    have b := relErr64 hρ (div_pos hA0 hc').le
    have hB0 := b.pos (div_pos hA0 hc') (by norm_num)
    obtain ⟨h1, h2⟩ := decode_rel_fine hN hcpos a b (relErr32 hρ hB0.le)
    set d := ρ.f32 (ρ.f64 (ρ.f64 (near * 255) / (c : K)))
    rw [abs_le]
    constructor
    · have : near * 255 / c * (1 - 1 / 2 ^ 23) ≤ d := by
        rw [div_mul_eq_mul_div, div_le_iff₀ hc']
        exact h1
      linarith
    · have : d ≤ near * 255 / c * (1 + 1 / 2 ^ 23) := by
        rw [div_mul_eq_mul_div, le_div_iff₀ hc']
        exact h2
      linarith
  · intro c' hcc
    exact ⟨_, by rw [depthOfUint8InverseDepth, if_neg (by omega)], anti hcpos hcc⟩

/-- A body that does not raise gives the code. -/
theorem code_of_body {ρ : Rounding K} {d : FVal K} {near : K} {n : ℕ} (h : inverseDepthBody ρ d near = some n) :
    inverseDepthOfDepth ρ d near = n := by rw [inverseDepthOfDepth, h]; rfl

theorem body_roundtrip16 (ρ : Rounding K) (hρ : ρ.Lawful) (near : K) (hnear : 0 < near) (c : ℕ) (hc : c ≤ 65535) :
    inverseDepthBody ρ (depthOfInverseDepth ρ c near) near = some c := by
  by_cases h0 : c = 0
  · subst h0
    simp only [depthOfInverseDepth, if_true, inverseDepthBody]
    exact half_toUint (by norm_num)
  have hcpos : 0 < c := Nat.pos_of_ne_zero h0
  have hc' : (0 : K) < c := by exact_mod_cast hcpos
  have hN : 0 < near * 65535 := by positivity
  have a := relErr64 hρ hN.le
  have hA0 := a.pos hN (by norm_num)
  have b := relErr64 hρ (div_pos hA0 hc').le
  have hB0 := b.pos (div_pos hA0 hc') (by norm_num)
  have dd := relErr32 hρ hB0.le
  have hd0 := dd.pos hB0 (by norm_num)
  obtain ⟨h1, h2⟩ := decode_rel_fine hN hcpos a b dd
  rw [depthOfInverseDepth, if_neg h0, inverseDepthBody]
  rw [if_neg hd0.ne']
  set d := ρ.f32 (ρ.f64 (ρ.f64 (near * 65535) / (c : K)))
  split_ifs with hle
  · have : near * 65535 * (1 - 1 / 2 ^ 23) ≤ near * c := h1.trans (mul_le_mul_of_nonneg_right hle hc'.le)
    rw [mul_assoc] at this
    have h3 := le_of_mul_le_mul_left this hnear
    have h4 : (65534 : K) < c := by linarith
    have h5 : 65534 < c := by exact_mod_cast h4
    have : c = 65535 := by omega
    rw [this]
  · have q := relErr64' hρ (div_pos hA0 hd0).le
    have hq0 := q.pos (div_pos hA0 hd0) (by norm_num)
    exact roundtrip_core (M := 65535) le_rfl hN hcpos hc hd0 (by linarith) (by linarith) (a.weaken hN.le (by norm_num)) q
      (relErr64 hρ (by positivity))

/-- **C70.** Encoding the decoded depth of any 16 bit code gives the code back. -/
theorem C70_roundtrip16 (ρ : Rounding K) (hρ : ρ.Lawful) (near : K) (hnear : 0 < near) (c : ℕ) (hc : c ≤ 65535) :
    inverseDepthOfDepth ρ (depthOfInverseDepth ρ c near) near = c := code_of_body (body_roundtrip16 ρ hρ near hnear c hc)

/-- **C70.** Encoding the decoded depth of any 8 bit code gives the code back. -/
theorem C70_roundtrip8 (ρ : Rounding K) (hρ : ρ.Lawful) (near : K) (hnear : 0 < near) (c : ℕ) (hc : c ≤ 255) :
    uint8InverseDepthOfDepth ρ (depthOfUint8InverseDepth ρ c near) near = some c := by
  by_cases h0 : c = 0
  · subst h0
    simp only [depthOfUint8InverseDepth, if_true, uint8InverseDepthOfDepth]
    exact half_toUint (by norm_num)
  have hcpos : 0 < c := Nat.pos_of_ne_zero h0
  have hc' : (0 : K) < c := by exact_mod_cast hcpos
  have hN : 0 < near * 255 := by positivity
  have a := relErr64 hρ hN.le
  have hA0 := a.pos hN (by norm_num)
  have b := relErr64 hρ (div_pos hA0 hc').le
  have hB0 := b.pos (div_pos hA0 hc') (by norm_num)
  have dd := relErr32 hρ hB0.le
  have hd0 := dd.pos hB0 (by norm_num)
  obtain ⟨h1, h2⟩ := decode_rel_fine hN hcpos a b dd
  rw [depthOfUint8InverseDepth, if_neg h0, uint8InverseDepthOfDepth]
  rw [if_neg hd0.ne']
  set d := ρ.f32 (ρ.f64 (ρ.f64 (near * 255) / (c : K)))
  split_ifs with hle
  · have : near * 255 * (1 - 1 / 2 ^ 23) ≤ near * c := h1.trans (mul_le_mul_of_nonneg_right hle hc'.le)
    rw [mul_assoc] at this
    have h3 := le_of_mul_le_mul_left this hnear
    have h4 : (254 : K) < c := by linarith
    have h5 : 254 < c := by exact_mod_cast h4
    have : c = 255 := by omega
    rw [this]
  · have a' := relErr32 hρ hN.le
    have hA0' := a'.pos hN (by norm_num)
    have q := relErr32 hρ (div_pos hA0' hd0).le
    have hq0 := q.pos (div_pos hA0' hd0) (by norm_num)
    exact roundtrip_core (M := 255) (by norm_num) hN hcpos hc hd0 (by linarith) (by linarith) a' q
      (relErr64 hρ (by positivity))

/-- The hypotheses are met, and the codes are not all the same. -/
example : inverseDepthOfDepth (Rounding.exact ℚ) (depthOfInverseDepth (Rounding.exact ℚ) 1234 (3 / 10)) (3 / 10) = 1234 :=
  C70_roundtrip16 _ exact_lawful _ (by norm_num) _ (by norm_num)

example : uint8InverseDepthOfDepth (Rounding.exact ℚ) (depthOfUint8InverseDepth (Rounding.exact ℚ) 254 (3 / 10)) (3 / 10)
    = some 254 :=
  C70_roundtrip8 _ exact_lawful _ (by norm_num) _ (by norm_num)

theorem body_error16 (ρ : Rounding K) (hρ : ρ.Lawful) (near d : K) (hnear : 0 < near) (hd : 0 < d) :
    ∃ n, inverseDepthBody ρ (.fin d) near = some n ∧ n ≤ 65535 ∧
      (d ≤ near → n = 65535) ∧
      (near < d → |(n : K) - near * 65535 / d| ≤ 1 / 2 + 1 / 2 ^ 34) := by
  simp only [inverseDepthBody, if_neg hd.ne']
  split_ifs with hle
  · exact ⟨_, rfl, le_rfl, fun _ => rfl, fun h => absurd hle (not_le.2 h)⟩
  · have hlt := not_le.1 hle
    have hN : 0 < near * ((65535 : ℕ) : K) := by positivity
    have e : near * 65535 = near * ((65535 : ℕ) : K) := by norm_num
    have a := relErr64 hρ hN.le
    have hA0 := a.pos hN (by norm_num)
    have q := relErr64 hρ (div_pos hA0 hd).le
    have hq0 := q.pos (div_pos hA0 hd) (by norm_num)
    obtain ⟨-, n, hn, hn', herr⟩ := encode_core (M := 65535) (by norm_num) (by norm_num) le_rfl hnear hlt (by norm_num)
      (by norm_num) a q (relErr64 hρ (by positivity))
    rw [e]
    refine ⟨n, hn, hn', fun h => absurd h hle, fun _ => herr.trans ?_⟩
    norm_num

/-- **C70.** Every depth beyond the near plane is encoded, and the code is within half a unit (and the rounding error of
double precision) of `near * 65535 / depth`; depths in `(0, near]` get the largest code. -/
theorem C70_error16 (ρ : Rounding K) (hρ : ρ.Lawful) (near d : K) (hnear : 0 < near) (hd : 0 < d) :
    ∃ n, inverseDepthOfDepth ρ (.fin d) near = n ∧ n ≤ 65535 ∧
      (d ≤ near → n = 65535) ∧
      (near < d → |(n : K) - near * 65535 / d| ≤ 1 / 2 + 1 / 2 ^ 34) := by
  obtain ⟨n, h, h'⟩ := body_error16 ρ hρ near d hnear hd
  exact ⟨n, code_of_body h, h'⟩

theorem body_error16_exact (near d : K) (hnear : 0 < near) (hd : near < d) :
    ∃ n : ℕ, inverseDepthBody (Rounding.exact K) (.fin d) near = some n ∧
      |(n : K) - near * 65535 / d| ≤ 1 / 2 := by
  have hd0 := hnear.trans hd
  obtain ⟨n, hn, -⟩ := body_error16 _ exact_lawful near d hnear hd0
  refine ⟨n, hn, ?_⟩
  simp only [inverseDepthBody, if_neg hd0.ne', if_neg (not_le.2 hd), Rounding.exact, id] at hn
  obtain ⟨h1, h2, -⟩ := toUint_some (by positivity) hn
  rw [abs_le]
  constructor <;> linarith

/-- **C70.** With exact arithmetic the error is at most half a code. -/
theorem C70_error16_exact (near d : K) (hnear : 0 < near) (hd : near < d) :
    ∃ n : ℕ, inverseDepthOfDepth (Rounding.exact K) (.fin d) near = n ∧
      |(n : K) - near * 65535 / d| ≤ 1 / 2 := by
  obtain ⟨n, h, h'⟩ := body_error16_exact near d hnear hd
  exact ⟨n, code_of_body h, h'⟩

/-- **C70.** The same for 8 bit codes (single precision arithmetic). -/
theorem C70_error8 (ρ : Rounding K) (hρ : ρ.Lawful) (near d : K) (hnear : 0 < near) (hd : 0 < d) :
    ∃ n, uint8InverseDepthOfDepth ρ (.fin d) near = some n ∧ n ≤ 255 ∧
      (d ≤ near → n = 255) ∧
      (near < d → |(n : K) - near * 255 / d| ≤ 1 / 2 + 1 / 2 ^ 14) := by
  simp only [uint8InverseDepthOfDepth, if_neg hd.ne']
  split_ifs with hle
  · exact ⟨_, rfl, le_rfl, fun _ => rfl, fun h => absurd hle (not_le.2 h)⟩
  · have hlt := not_le.1 hle
    have hN : 0 < near * ((255 : ℕ) : K) := by positivity
    have e : near * 255 = near * ((255 : ℕ) : K) := by norm_num
    have a := relErr32 hρ hN.le
    have hA0 := a.pos hN (by norm_num)
    have q := relErr32 hρ (div_pos hA0 hd).le
    have hq0 := q.pos (div_pos hA0 hd) (by norm_num)
    obtain ⟨-, n, hn, hn', herr⟩ := encode_core (M := 255) (by norm_num) (by norm_num) (by norm_num) hnear hlt
      (by norm_num) (by norm_num) a q (relErr64 hρ (by positivity))
    rw [e]
    refine ⟨n, hn, hn', fun h => absurd h hle, fun _ => herr.trans ?_⟩
    norm_num

example : inverseDepthOfDepth (Rounding.exact ℚ) (.fin 3) 1 = 21845 := by decide +kernel
example : uint8InverseDepthOfDepth (Rounding.exact ℚ) (.fin 3) 1 = some 85 := by decide +kernel

theorem body_monotone16 (ρ : Rounding K) (hρ : ρ.Lawful) (near d d' : K) (hnear : 0 < near) (hd : 0 < d) (hdd : d ≤ d') :
    ∃ m n far, inverseDepthBody ρ (.fin d) near = some m ∧ inverseDepthBody ρ (.fin d') near = some n ∧
      inverseDepthBody ρ .posInf near = some far ∧ far ≤ n ∧ n ≤ m := by
  obtain ⟨m, hm, hm1, hm2, -⟩ := body_error16 ρ hρ near d hnear hd
  obtain ⟨n, hn, hn1, hn2, -⟩ := body_error16 ρ hρ near d' hnear (hd.trans_le hdd)
  refine ⟨m, n, 0, hm, hn, half_toUint (by norm_num), Nat.zero_le _, ?_⟩
  by_cases hle : d ≤ near
  · rw [hm2 hle]; exact hn1
  have hd0' := hd.trans_le hdd
  have hle' : ¬ d' ≤ near := fun h => hle (hdd.trans h)
  simp only [inverseDepthBody, if_neg hd.ne', if_neg hle] at hm
  simp only [inverseDepthBody, if_neg hd0'.ne', if_neg hle'] at hn
  have hN : 0 < near * 65535 := by positivity
  have a := relErr64 hρ hN.le
  have hA0 := a.pos hN (by norm_num)
  have q := relErr64 hρ (div_pos hA0 hd0').le
  have hq0 := q.pos (div_pos hA0 hd0') (by norm_num)
  have s := relErr64 hρ (show (0 : K) ≤ 1 / 2 + ρ.f64 (ρ.f64 (near * 65535) / d') by positivity)
  refine toUint_mono (s.pos (by positivity) (by norm_num)).le ?_ hn hm
  apply hρ.mono64
  have := hρ.mono64 (div_le_div_of_nonneg_left hA0.le hd hdd)
  linarith

/-- **C70.** Encoding is monotone: a farther positive depth never gets a greater code (16 bit). -/
theorem C70_monotone16 (ρ : Rounding K) (hρ : ρ.Lawful) (near d d' : K) (hnear : 0 < near) (hd : 0 < d) (hdd : d ≤ d') :
    inverseDepthOfDepth ρ .posInf near ≤ inverseDepthOfDepth ρ (.fin d') near ∧
      inverseDepthOfDepth ρ (.fin d') near ≤ inverseDepthOfDepth ρ (.fin d) near := by
  obtain ⟨m, n, far, hm, hn, hf, h1, h2⟩ := body_monotone16 ρ hρ near d d' hnear hd hdd
  rw [code_of_body hm, code_of_body hn, code_of_body hf]
  exact ⟨h1, h2⟩

/-- **C70.** Encoding is monotone (8 bit). -/
theorem C70_monotone8 (ρ : Rounding K) (hρ : ρ.Lawful) (near d d' : K) (hnear : 0 < near) (hd : 0 < d) (hdd : d ≤ d') :
    ∃ m n far, uint8InverseDepthOfDepth ρ (.fin d) near = some m ∧ uint8InverseDepthOfDepth ρ (.fin d') near = some n ∧
      uint8InverseDepthOfDepth ρ .posInf near = some far ∧ far ≤ n ∧ n ≤ m := by
  obtain ⟨m, hm, hm1, hm2, -⟩ := C70_error8 ρ hρ near d hnear hd
  obtain ⟨n, hn, hn1, hn2, -⟩ := C70_error8 ρ hρ near d' hnear (hd.trans_le hdd)
  refine ⟨m, n, 0, hm, hn, half_toUint (by norm_num), Nat.zero_le _, ?_⟩
  by_cases hle : d ≤ near
  · rw [hm2 hle]; exact hn1
  have hd0' := hd.trans_le hdd
  have hle' : ¬ d' ≤ near := fun h => hle (hdd.trans h)
  simp only [uint8InverseDepthOfDepth, if_neg hd.ne', if_neg hle] at hm
  simp only [uint8InverseDepthOfDepth, if_neg hd0'.ne', if_neg hle'] at hn
  have hN : 0 < near * 255 := by positivity
  have a := relErr32 hρ hN.le
  have hA0 := a.pos hN (by norm_num)
  have q := relErr32 hρ (div_pos hA0 hd0').le
  have hq0 := q.pos (div_pos hA0 hd0') (by norm_num)
  have s := relErr64 hρ (show (0 : K) ≤ 1 / 2 + ρ.f32 (ρ.f32 (near * 255) / d') by positivity)
  refine toUint_mono (s.pos (by positivity) (by norm_num)).le ?_ hn hm
  apply hρ.mono64
  have := hρ.mono32 (div_le_div_of_nonneg_left hA0.le hd hdd)
  linarith

theorem body_upgrade (ρ : Rounding K) (hρ : ρ.Lawful) (c : ℕ) (hc : c ≤ 255) :
    inverseDepthBody ρ (depthOfUint8InverseDepth ρ c defaultNear) (ρ.f32 defaultNear) = some (257 * c) := by
  by_cases h0 : c = 0
  · subst h0
    simp only [depthOfUint8InverseDepth, if_true, inverseDepthBody]
    exact half_toUint (by norm_num)
  have hcpos : 0 < c := Nat.pos_of_ne_zero h0
  have hc' : (0 : K) < c := by exact_mod_cast hcpos
  have hD : (0 : K) < defaultNear := by unfold defaultNear; norm_num
  have hN : (0 : K) < defaultNear * 255 := by positivity
  have a := relErr64 hρ hN.le
  have hA0 := a.pos hN (by norm_num)
  have b := relErr64 hρ (div_pos hA0 hc').le
  have hB0 := b.pos (div_pos hA0 hc') (by norm_num)
  have dd := relErr32 hρ hB0.le
  have hd0 := dd.pos hB0 (by norm_num)
  obtain ⟨h1, h2⟩ := decode_rel_fine hN hcpos a b dd
  have nn := relErr32 hρ hD.le
  have hn0 := nn.pos hD (by norm_num)
  rw [depthOfUint8InverseDepth, if_neg h0, inverseDepthBody]
  rw [if_neg hd0.ne']
  set d := ρ.f32 (ρ.f64 (ρ.f64 ((defaultNear : K) * 255) / (c : K)))
  set near := ρ.f32 (defaultNear : K)
  obtain ⟨n1, n2⟩ := nn
  split_ifs with hle
  · have h3 : (defaultNear : K) * 255 * (1 - 1 / 2 ^ 23) ≤ defaultNear * (1 + 1 / 2 ^ 24) * c :=
      h1.trans (mul_le_mul_of_nonneg_right (hle.trans n2) hc'.le)
    rw [mul_assoc, mul_assoc] at h3
    have h4 := le_of_mul_le_mul_left h3 hD
    have h5 : (c : K) ≤ 255 := by exact_mod_cast hc
    have h6 : (254 : K) < c := by linarith
    have h7 : 254 < c := by exact_mod_cast h6
    have : c = 255 := by omega
    rw [this]
  · have hN' : 0 < near * 65535 := by positivity
    have a' := relErr64 hρ hN'.le
    have hA0' := a'.pos hN' (by norm_num)
    have q := relErr64' hρ (div_pos hA0' hd0).le
    have hq0 := q.pos (div_pos hA0' hd0) (by norm_num)
    refine roundtrip_core (M := 65535) (c := 257 * c) le_rfl hN' (by omega) (by omega) hd0 ?_ ?_
      (a'.weaken hN'.le (by norm_num)) q (relErr64 hρ (by positivity))
    · push_cast; linarith
    · push_cast; linarith

/-- **C70.** Upgrading 8 bit codes to 16 bit codes at the default near plane multiplies by 257 (255 becomes 65535), for
every lawful rounding. -/
theorem C70_upgrade (ρ : Rounding K) (hρ : ρ.Lawful) (c : ℕ) (hc : c ≤ 255) :
    inverseDepthFromUint8 ρ defaultNear c defaultNear = 257 * c := code_of_body (body_upgrade ρ hρ c hc)

example : inverseDepthFromUint8 (Rounding.exact ℚ) defaultNear 255 defaultNear = 65535 :=
  C70_upgrade _ exact_lawful _ le_rfl

/-- **C70.** Upgrading 8 bit codes made with a farther near plane (the legacy near plane is 1 m) gives the 16 bit code of
the same depth: the code is within `1/2 + 1/32` of `65535 * 0.3 / depth`, where `depth = near * 255 / c`. -/
theorem C70_upgrade_legacy (ρ : Rounding K) (hρ : ρ.Lawful) (near : K) (hnear : 31 / 100 ≤ near) (c : ℕ)
    (h0 : c ≠ 0) (hc : c ≤ 255) :
    ∃ n : ℕ, inverseDepthFromUint8 ρ defaultNear c near = n ∧
      |(n : K) - 65535 * (3 / 10) / (near * 255 / c)| ≤ 1 / 2 + 1 / 32 := by
  have hcpos : 0 < c := Nat.pos_of_ne_zero h0
  have hc' : (0 : K) < c := by exact_mod_cast hcpos
  have hnear0 : 0 < near := by linarith
  have hD : (0 : K) < defaultNear := by unfold defaultNear; norm_num
  have hDe : (defaultNear : K) = 3 / 10 := rfl
  have hN : (0 : K) < near * 255 := by positivity
  have a := relErr64 hρ hN.le
  have hA0 := a.pos hN (by norm_num)
  have b := relErr64 hρ (div_pos hA0 hc').le
  have hB0 := b.pos (div_pos hA0 hc') (by norm_num)
  have dd := relErr32 hρ hB0.le
  have hd0 := dd.pos hB0 (by norm_num)
  obtain ⟨h1, h2⟩ := decode_rel_fine hN hcpos a b dd
  have nn := relErr32 hρ hD.le
  have hn0 := nn.pos hD (by norm_num)
  unfold inverseDepthFromUint8
  rw [depthOfUint8InverseDepth, if_neg h0]
  set d := ρ.f32 (ρ.f64 (ρ.f64 (near * 255) / (c : K)))
  set near' := ρ.f32 (defaultNear : K)
  obtain ⟨n1, n2⟩ := nn
  have hc255 : (c : K) ≤ 255 := by exact_mod_cast hc
  have hlt : near' < d := by
    rw [hDe] at n2
    by_contra hcon
    have hcon := not_lt.1 hcon
    have : d * c ≤ 3 / 10 * (1 + 1 / 2 ^ 24) * 255 := by
      apply mul_le_mul (hcon.trans n2) hc255 hc'.le (by norm_num)
    linarith
  obtain ⟨n, hn, -, -, herr⟩ := C70_error16 ρ hρ near' d hn0 hd0
  refine ⟨n, hn, ?_⟩
  have herr := abs_le.1 (herr hlt)
  -- compare `near' * 65535 / d` with `65535 * 0.3 * c / (near * 255)`
  have eT : 65535 * (3 / 10) / (near * 255 / (c : K)) = 257 * (3 / 10) * c / near := by
    field_simp
    ring
  rw [eT]
  set T := 257 * (3 / 10) * (c : K) / near with hT
  have hTn : T * near = 257 * (3 / 10) * c := by rw [hT]; field_simp
  have hT0 : 0 < T := by positivity
  have hTle : T ≤ 65535 := by
    rw [hT, div_le_iff₀ hnear0]; linarith
  set X := near' * 65535 / d with hX
  have hXd : X * d = near' * 65535 := by rw [hX]; field_simp
  have hX0 : 0 < X := by positivity
  rw [hDe] at n1 n2
  -- `X d c = near' 65535 c`
  have k1 : X ≤ T * (1 + 1 / 2 ^ 21) := by
    have e1 : near' * 65535 * c ≤ T * near * 255 * (1 + 1 / 2 ^ 24) := by
      rw [hTn]
      have := mul_le_mul_of_nonneg_right n2 hc'.le
      linarith
    have e2 : X * (near * 255 * (1 - 1 / 2 ^ 23)) ≤ X * (d * c) := mul_le_mul_of_nonneg_left h1 hX0.le
    have e3 : X * (d * c) = near' * 65535 * c := by rw [← mul_assoc, hXd]
    have e4 : X * (1 - 1 / 2 ^ 23) * (near * 255) ≤ T * (1 + 1 / 2 ^ 24) * (near * 255) := by
      linarith
    have e5 := le_of_mul_le_mul_right e4 hN
    linarith
  have k2 : T * (1 - 1 / 2 ^ 21) ≤ X := by
    have e1 : T * near * 255 * (1 - 1 / 2 ^ 24) ≤ near' * 65535 * c := by
      rw [hTn]
      have := mul_le_mul_of_nonneg_right n1 hc'.le
      linarith
    have e2 : X * (d * c) ≤ X * (near * 255 * (1 + 1 / 2 ^ 23)) := mul_le_mul_of_nonneg_left h2 hX0.le
    have e3 : X * (d * c) = near' * 65535 * c := by rw [← mul_assoc, hXd]
    have e4 : T * (1 - 1 / 2 ^ 24) * (near * 255) ≤ X * (1 + 1 / 2 ^ 23) * (near * 255) := by
      linarith
    have e5 := le_of_mul_le_mul_right e4 hN
    linarith
  rw [abs_le]
  constructor
  · linarith [herr.1]
  · linarith [herr.2]

example : inverseDepthFromUint8 (Rounding.exact ℚ) defaultNear 100 1 = 7710 := by decide +kernel

/-- **C70.** Converting a whole code image to depths and back returns the image, and the depth image has the shape of the
code image. -/
theorem C70_image_roundtrip (ρ : Rounding K) (hρ : ρ.Lawful) (near : K) (hnear : 0 < near) (im : List (List ℕ))
    (him : ∀ row ∈ im, ∀ c ∈ row, c ≤ 65535) :
    inverseDepthMapOfDepthImage ρ (depthImageOfInverseDepthMap ρ im near) near = im ∧
      (depthImageOfInverseDepthMap ρ im near).map List.length = im.map List.length := by
  constructor
  · simp only [inverseDepthMapOfDepthImage, depthImageOfInverseDepthMap, mapImage, List.map_map]
    refine (List.map_congr_left (g := id) ?_).trans (List.map_id im)
    intro row hrow
    simp only [Function.comp, List.map_map]
    refine (List.map_congr_left (g := id) ?_).trans (List.map_id row)
    intro c hc
    exact C70_roundtrip16 ρ hρ near hnear c (him row hrow c hc)
  · simp [depthImageOfInverseDepthMap, mapImage, Function.comp_def]

/-- **C70.** The same for 8 bit images, and an 8 bit image converted to 16 bit at the default near plane has every code
multiplied by 257. -/
theorem C70_image8 (ρ : Rounding K) (hρ : ρ.Lawful) (near : K) (hnear : 0 < near) (im : List (List ℕ))
    (him : ∀ row ∈ im, ∀ c ∈ row, c ≤ 255) :
    uint8InverseDepthMapOfDepthImage ρ (depthImageOfUint8InverseDepthMap ρ im near) near = im.map (·.map some) ∧
      uint16OfUint8InverseDepthMap ρ im (defaultNear : K) = im.map (·.map (257 * ·)) := by
  constructor
  · simp only [uint8InverseDepthMapOfDepthImage, depthImageOfUint8InverseDepthMap, mapImage, List.map_map]
    apply List.map_congr_left
    intro row hrow
    simp only [Function.comp, List.map_map]
    apply List.map_congr_left
    intro c hc
    exact C70_roundtrip8 ρ hρ near hnear c (him row hrow c hc)
  · simp only [uint16OfUint8InverseDepthMap, mapImage]
    apply List.map_congr_left
    intro row hrow
    apply List.map_congr_left
    intro c hc
    exact C70_upgrade ρ hρ c (him row hrow c hc)

example : inverseDepthMapOfDepthImage (Rounding.exact ℚ)
    (depthImageOfInverseDepthMap (Rounding.exact ℚ) [[0, 1], [65535, 300]] 1) 1
      = [[0, 1], [65535, 300]] :=
  (C70_image_roundtrip _ exact_lawful _ one_pos _ (by decide)).1

/-- **C89** is false as documented: "Depth values <=0 will cause an exception, all depth > near * PIXEL_MAX will yield 0"
(`geometry/inverse_depth.pyx:107`).  A negative depth gets the code of the near plane, and depths between
`near * PIXEL_MAX` and twice that get the code 1. -/
theorem C89_false :
    inverseDepthOfDepth (Rounding.exact ℚ) (.fin (-1)) 1 = 65535 ∧
      inverseDepthOfDepth (Rounding.exact ℚ) (.fin 0) 1 = 0 ∧
      inverseDepthOfDepth (Rounding.exact ℚ) (.fin (3 / 2 * 65535)) 1 = 1 ∧
      uint8InverseDepthOfDepth (Rounding.exact ℚ) (.fin (-1)) 1 = some 255 ∧
      uint8InverseDepthOfDepth (Rounding.exact ℚ) (.fin (3 / 2 * 255)) 1 = some 1 := by
  decide +kernel

theorem body_boundaries (ρ : Rounding K) (near d : K) (hnear : 0 < near) :
    inverseDepthBody ρ (.fin 0) near = some 0 ∧
      inverseDepthBody ρ (.posInf) near = some 0 ∧
      (d < 0 → inverseDepthBody ρ (.fin d) near = some 65535) ∧
      (near < d → (inverseDepthBody (Rounding.exact K) (.fin d) near = some 0 ↔ 2 * near * 65535 < d)) := by
  refine ⟨by simp [inverseDepthBody], half_toUint (by norm_num), ?_, ?_⟩
  · intro hd
    simp [inverseDepthBody, hd.ne, (hd.trans hnear).le]
  · intro hd
    have hd0 := hnear.trans hd
    have hx0 : 0 < near * 65535 / d := by positivity
    simp only [inverseDepthBody, if_neg hd0.ne', if_neg (not_le.2 hd), Rounding.exact, id]
    constructor
    · intro h
      obtain ⟨-, h2, -⟩ := toUint_some (by positivity) h
      have h3 : near * 65535 / d < 1 / 2 := by push_cast at h2; linarith
      rw [div_lt_iff₀ hd0] at h3
      linarith
    · intro h
      have h3 : near * 65535 / d < 1 / 2 := by
        rw [div_lt_iff₀ hd0]; linarith
      exact toUint_eq_some (by positivity) (by push_cast; positivity) (by push_cast; linarith) (by norm_num)

/-- A NaN depth makes the conversion raise, the exception is lost in the function with a C result type, and the code is 0. -/
theorem code_nan (ρ : Rounding K) (near : K) : inverseDepthOfDepth ρ .nan near = 0 := rfl

/-- **C89** (partial).  What holds at the boundaries: depth 0 (unknown) and infinity get code 0; every negative depth gets
the greatest code, like the depths up to `near`; with exact arithmetic a depth beyond `near` gets code 0 exactly if it is
greater than `2 * near * 65535` (not `near * 65535` as documented).  A depth that is not a number gets code 0 too: the exception is lost in a function
with a C result type. -/
theorem C89_boundaries_partial (ρ : Rounding K) (near d : K) (hnear : 0 < near) :
    inverseDepthOfDepth ρ (.fin 0) near = 0 ∧
      inverseDepthOfDepth ρ (.posInf) near = 0 ∧
      inverseDepthOfDepth ρ .nan near = 0 ∧
      (d < 0 → inverseDepthOfDepth ρ (.fin d) near = 65535) ∧
      (near < d → (inverseDepthOfDepth (Rounding.exact K) (.fin d) near = 0 ↔ 2 * near * 65535 < d)) := by
  obtain ⟨h1, h2, h3, h4⟩ := body_boundaries ρ near d hnear
  refine ⟨code_of_body h1, code_of_body h2, code_nan ρ near, fun h => code_of_body (h3 h), fun h => ?_⟩
  obtain ⟨n, hn, -⟩ := body_error16_exact near d hnear h
  rw [← h4 h, code_of_body hn, hn, Option.some.injEq]

example : inverseDepthOfDepth (Rounding.exact ℚ) (.fin (2 * 65535)) 1 = 1 ∧
    inverseDepthOfDepth (Rounding.exact ℚ) (.fin (2 * 65535 + 1)) 1 = 0 := by decide +kernel

end Sumo
