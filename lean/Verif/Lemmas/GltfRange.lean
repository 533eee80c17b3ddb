import Verif.Spec.Gltf
import Mathlib.Tactic.Ring
import Mathlib.Tactic.Linarith
import Mathlib.Tactic.NormNum
import Mathlib.Tactic.FieldSimp
import Mathlib.Algebra.Order.Field.Rat
import Mathlib.Order.Monotone.Basic
import Mathlib.Algebra.Order.Field.Power

/-! # Lemmas about single precision numbers and the bounds in accessors -/

namespace Sumo

/-- The value of a magnitude. -/
def magValue (m : ℕ) : ℚ :=
  if m / 2 ^ 23 = 0 then ((m % 2 ^ 23 : ℕ) : ℚ) / 2 ^ 149
  else (2 ^ 23 + ((m % 2 ^ 23 : ℕ) : ℚ)) * 2 ^ (m / 2 ^ 23) / 2 ^ 150

theorem magValue_strictMono : StrictMono magValue := by
  apply strictMono_nat_of_lt_succ
  intro m
  unfold magValue
  by_cases h : m % 2 ^ 23 + 1 < 2 ^ 23
  · have h1 : (m + 1) / 2 ^ 23 = m / 2 ^ 23 := by omega
    have h2 : (m + 1) % 2 ^ 23 = m % 2 ^ 23 + 1 := by omega
    rw [h1, h2]
    split_ifs
    · push_cast
      apply div_lt_div_of_pos_right _ (by positivity)
      linarith
    · push_cast
      apply div_lt_div_of_pos_right _ (by positivity)
      apply mul_lt_mul_of_pos_right _ (by positivity)
      linarith
  · have h1 : (m + 1) / 2 ^ 23 = m / 2 ^ 23 + 1 := by omega
    have h2 : (m + 1) % 2 ^ 23 = 0 := by omega
    have h3 : m % 2 ^ 23 = 2 ^ 23 - 1 := by omega
    rw [h1, h2, h3, if_neg (Nat.succ_ne_zero _)]
    split_ifs with h0
    · rw [h0]; norm_num
    · apply div_lt_div_of_pos_right _ (by positivity)
      generalize m / 2 ^ 23 = e
      have h5 : (0 : ℚ) < 2 ^ e := by positivity
      have h6 : (2 : ℚ) ^ (e + 1) = 2 ^ e * 2 := pow_succ _ _
      rw [h6]
      norm_num
      linarith

theorem magValue_zero : magValue 0 = 0 := by norm_num [magValue]

theorem magValue_nonneg (m : ℕ) : 0 ≤ magValue m := by
  rw [← magValue_zero]
  exact magValue_strictMono.monotone (Nat.zero_le m)

namespace F32

theorem value_eq {x : F32} {v : ℚ} (h : x.value = some v) :
    x.isNaN = false ∧ v = if 2147483648 ≤ x.bits.toNat then -magValue x.magnitude else magValue x.magnitude := by
  have hb := x.bits.toNat_lt
  unfold F32.value at h
  simp only at h
  have e1 : x.bits.toNat / 2 ^ 23 % 256 = x.magnitude / 2 ^ 23 := by unfold magnitude; omega
  have e2 : x.bits.toNat % 2 ^ 23 = x.magnitude % 2 ^ 23 := by unfold magnitude; omega
  have e3 : x.bits.toNat / 2 ^ 31 = 1 ↔ 2147483648 ≤ x.bits.toNat := by omega
  rw [e1, e2] at h
  split_ifs at h with h1 h2 h3 h3
  all_goals
    refine ⟨?_, ?_⟩
    · unfold isNaN
      simp only [decide_eq_false_iff_not, not_lt]
      omega
    · simp only [Option.some.injEq] at h
      subst h
      first
        | rw [if_pos (e3.1 h3)]
        | rw [if_neg (fun h => h3 (e3.2 h))]
      unfold magValue
      first
        | rw [if_pos h2]
        | rw [if_neg h2]
      ring

theorem lt_iff {a b : F32} {p q : ℚ} (ha : a.value = some p) (hb : b.value = some q) : a.lt b = true ↔ p < q := by
  obtain ⟨na, ea⟩ := value_eq ha
  obtain ⟨nb, eb⟩ := value_eq hb
  unfold lt
  rw [na, nb]
  simp only [Bool.not_false, Bool.true_and, decide_eq_true_eq]
  unfold key
  have hm := @StrictMono.lt_iff_lt ℕ ℚ _ _ magValue magValue_strictMono
  have p0 := magValue_nonneg a.magnitude
  have q0 := magValue_nonneg b.magnitude
  have z : ∀ m, magValue m = 0 ↔ m = 0 := fun m => by
    rw [← magValue_zero]; exact magValue_strictMono.injective.eq_iff
  by_cases h1 : 2147483648 ≤ a.bits.toNat <;> by_cases h2 : 2147483648 ≤ b.bits.toNat
  · rw [if_pos h1, if_pos h2]
    rw [if_pos h1] at ea
    rw [if_pos h2] at eb
    rw [ea, eb, neg_lt_neg_iff, neg_lt_neg_iff, hm]
    exact Nat.cast_lt
  · rw [if_pos h1, if_neg h2]
    rw [if_pos h1] at ea
    rw [if_neg h2] at eb
    rw [ea, eb]
    constructor
    · intro h
      by_contra hc
      have h3 : magValue a.magnitude = 0 := by linarith
      have h4 : magValue b.magnitude = 0 := by linarith
      rw [z] at h3 h4
      omega
    · intro h
      by_contra hc
      have h3 : a.magnitude = 0 := by omega
      have h4 : b.magnitude = 0 := by omega
      rw [h3, h4, magValue_zero] at h
      norm_num at h
  · rw [if_neg h1, if_pos h2]
    rw [if_neg h1] at ea
    rw [if_pos h2] at eb
    rw [ea, eb]
    constructor
    · intro h; omega
    · intro h; linarith
  · rw [if_neg h1, if_neg h2]
    rw [if_neg h1] at ea
    rw [if_neg h2] at eb
    rw [ea, eb, hm]
    exact Nat.cast_lt

theorem value_intMax : intMax.value = some (2 ^ 31) := by
  rw [show intMax = ⟨0x4F000000⟩ from rfl]
  norm_num [F32.value, UInt32.toNat_ofNat]

theorem value_intMin : intMin.value = some (-2 ^ 31) := by
  rw [show intMin = ⟨0xCF000000⟩ from rfl]
  norm_num [F32.value, UInt32.toNat_ofNat]

end F32

namespace Gltf

theorem foldl_min_spec : ∀ (l : List F32) (m : F32) (a : ℚ), m.value = some a → (∀ x ∈ l, x.value ≠ none) →
    ∃ c, (l.foldl F32.min m).value = some c ∧ c ≤ a ∧ (∀ x ∈ l, ∃ v, x.value = some v ∧ c ≤ v) ∧
      (c = a ∨ ∃ x ∈ l, x.value = some c) := by
  intro l
  induction l with
  | nil => intro m a h _; exact ⟨a, h, le_refl _, by simp, Or.inl rfl⟩
  | cons x l ih =>
    intro m a h hl
    obtain ⟨v, hv⟩ := Option.ne_none_iff_exists'.1 (hl x (by simp))
    rw [List.foldl_cons]
    have hmin : ∃ b, (F32.min m x).value = some b ∧ b ≤ a ∧ b ≤ v ∧ (b = a ∨ b = v) := by
      unfold F32.min
      by_cases hx : x.lt m = true
      · rw [if_pos hx]
        exact ⟨v, hv, ((F32.lt_iff hv h).1 hx).le, le_refl _, Or.inr rfl⟩
      · rw [if_neg hx]
        rw [F32.lt_iff hv h, not_lt] at hx
        exact ⟨a, h, le_refl _, hx, Or.inl rfl⟩
    obtain ⟨b, hb, hba, hbv, hor⟩ := hmin
    obtain ⟨c, h1, h2, h3, h4⟩ := ih _ b hb fun y hy => hl y (by simp [hy])
    refine ⟨c, h1, h2.trans hba, ?_, ?_⟩
    · intro y hy
      rcases List.mem_cons.1 hy with rfl | hy
      · exact ⟨v, hv, h2.trans hbv⟩
      · exact h3 y hy
    · rcases h4 with h4 | ⟨y, hy, h4⟩
      · rcases hor with hor | hor
        · exact Or.inl (h4.trans hor)
        · exact Or.inr ⟨x, by simp, by rw [hv, h4, hor]⟩
      · exact Or.inr ⟨y, by simp [hy], h4⟩

theorem foldl_max_spec : ∀ (l : List F32) (m : F32) (a : ℚ), m.value = some a → (∀ x ∈ l, x.value ≠ none) →
    ∃ c, (l.foldl F32.max m).value = some c ∧ a ≤ c ∧ (∀ x ∈ l, ∃ v, x.value = some v ∧ v ≤ c) ∧
      (c = a ∨ ∃ x ∈ l, x.value = some c) := by
  intro l
  induction l with
  | nil => intro m a h _; exact ⟨a, h, le_refl _, by simp, Or.inl rfl⟩
  | cons x l ih =>
    intro m a h hl
    obtain ⟨v, hv⟩ := Option.ne_none_iff_exists'.1 (hl x (by simp))
    rw [List.foldl_cons]
    have hmin : ∃ b, (F32.max m x).value = some b ∧ a ≤ b ∧ v ≤ b ∧ (b = a ∨ b = v) := by
      unfold F32.max
      by_cases hx : m.lt x = true
      · rw [if_pos hx]
        exact ⟨v, hv, ((F32.lt_iff h hv).1 hx).le, le_refl _, Or.inr rfl⟩
      · rw [if_neg hx]
        rw [F32.lt_iff h hv, not_lt] at hx
        exact ⟨a, h, le_refl _, hx, Or.inl rfl⟩
    obtain ⟨b, hb, hba, hbv, hor⟩ := hmin
    obtain ⟨c, h1, h2, h3, h4⟩ := ih _ b hb fun y hy => hl y (by simp [hy])
    refine ⟨c, h1, hba.trans h2, ?_, ?_⟩
    · intro y hy
      rcases List.mem_cons.1 hy with rfl | hy
      · exact ⟨v, hv, hbv.trans h2⟩
      · exact h3 y hy
    · rcases h4 with h4 | ⟨y, hy, h4⟩
      · rcases hor with hor | hor
        · exact Or.inl (h4.trans hor)
        · exact Or.inr ⟨x, by simp, by rw [hv, h4, hor]⟩
      · exact Or.inr ⟨y, by simp [hy], h4⟩

theorem float_range (l : List F32) (hne : l ≠ []) (h : ∀ x ∈ l, Moderate x) :
    IsRange (l.map .float) (.float (minOf l)) (.float (maxOf l)) := by
  have hn : ∀ x ∈ l, x.value ≠ none := fun x hx => by
    obtain ⟨v, hv, _⟩ := h x hx
    rw [hv]; simp
  obtain ⟨x0, hx0⟩ := List.exists_mem_of_ne_nil l hne
  obtain ⟨v0, hv0, hlo, hhi⟩ := h x0 hx0
  obtain ⟨a, a1, a2, a3, a4⟩ := foldl_min_spec l _ _ F32.value_intMax hn
  obtain ⟨b, b1, b2, b3, b4⟩ := foldl_max_spec l _ _ F32.value_intMin hn
  refine ⟨a, b, a1, b1, ?_, ?_, ?_⟩
  · rcases a4 with a4 | ⟨x, hx, hxv⟩
    · obtain ⟨w, hw, haw⟩ := a3 x0 hx0
      rw [hv0] at hw
      simp only [Option.some.injEq] at hw
      subst hw
      exact ⟨.float x0, List.mem_map_of_mem hx0, by
        show x0.value = _
        rw [hv0]; congr 1; linarith⟩
    · exact ⟨.float x, List.mem_map_of_mem hx, hxv⟩
  · rcases b4 with b4 | ⟨x, hx, hxv⟩
    · obtain ⟨w, hw, haw⟩ := b3 x0 hx0
      rw [hv0] at hw
      simp only [Option.some.injEq] at hw
      subst hw
      exact ⟨.float x0, List.mem_map_of_mem hx0, by
        show x0.value = _
        rw [hv0]; congr 1; linarith⟩
    · exact ⟨.float x, List.mem_map_of_mem hx, hxv⟩
  · intro y hy
    obtain ⟨x, hx, rfl⟩ := List.mem_map.1 hy
    obtain ⟨v, hv, hav⟩ := a3 x hx
    obtain ⟨w, hw, hwb⟩ := b3 x hx
    rw [hv] at hw
    simp only [Option.some.injEq] at hw
    subst hw
    exact ⟨v, hv, hav, hwb⟩

theorem nat_foldl_min : ∀ (l : List ℕ) (m : ℕ), l.foldl Nat.min m ≤ m ∧ (∀ x ∈ l, l.foldl Nat.min m ≤ x) ∧
    (l.foldl Nat.min m = m ∨ l.foldl Nat.min m ∈ l) := by
  intro l
  induction l with
  | nil => intro m; simp
  | cons x l ih =>
    intro m
    rw [List.foldl_cons]
    obtain ⟨h1, h2, h3⟩ := ih (Nat.min m x)
    have e1 : Nat.min m x ≤ m := Nat.min_le_left _ _
    have e2 : Nat.min m x ≤ x := Nat.min_le_right _ _
    refine ⟨h1.trans e1, fun y hy => ?_, ?_⟩
    · rcases List.mem_cons.1 hy with rfl | hy
      · exact h1.trans e2
      · exact h2 y hy
    · rcases h3 with h3 | h3
      · rcases Nat.le_total m x with h | h
        · left; rw [h3]; exact Nat.min_eq_left h
        · right; rw [h3, show Nat.min m x = x from Nat.min_eq_right h]; simp
      · right; simp [h3]

theorem nat_foldl_max : ∀ (l : List ℕ) (m : ℕ), m ≤ l.foldl Nat.max m ∧ (∀ x ∈ l, x ≤ l.foldl Nat.max m) ∧
    (l.foldl Nat.max m = m ∨ l.foldl Nat.max m ∈ l) := by
  intro l
  induction l with
  | nil => intro m; simp
  | cons x l ih =>
    intro m
    rw [List.foldl_cons]
    obtain ⟨h1, h2, h3⟩ := ih (Nat.max m x)
    have e1 : m ≤ Nat.max m x := Nat.le_max_left _ _
    have e2 : x ≤ Nat.max m x := Nat.le_max_right _ _
    refine ⟨e1.trans h1, fun y hy => ?_, ?_⟩
    · rcases List.mem_cons.1 hy with rfl | hy
      · exact e2.trans h1
      · exact h2 y hy
    · rcases h3 with h3 | h3
      · rcases Nat.le_total x m with h | h
        · left; rw [h3]; exact Nat.max_eq_left h
        · right; rw [h3, show Nat.max m x = x from Nat.max_eq_right h]; simp
      · right; simp [h3]

theorem uint_range (l : List ℕ) (hne : l ≠ []) (h : ∀ x ∈ l, x < 2 ^ 31) :
    IsRange (l.map .uint) (.uint (l.foldl Nat.min 2147483647)) (.uint (l.foldl Nat.max 0)) := by
  obtain ⟨a1, a2, a3⟩ := nat_foldl_min l 2147483647
  obtain ⟨b1, b2, b3⟩ := nat_foldl_max l 0
  obtain ⟨x0, hx0⟩ := List.exists_mem_of_ne_nil l hne
  refine ⟨_, _, rfl, rfl, ?_, ?_, ?_⟩
  · refine ⟨.uint (l.foldl Nat.min 2147483647), List.mem_map_of_mem ?_, rfl⟩
    rcases a3 with a3 | a3
    · have h1 := a2 x0 hx0
      have h2 := h x0 hx0
      have : l.foldl Nat.min 2147483647 = x0 := by omega
      rw [this]; exact hx0
    · exact a3
  · refine ⟨.uint (l.foldl Nat.max 0), List.mem_map_of_mem ?_, rfl⟩
    rcases b3 with b3 | b3
    · have h1 := b2 x0 hx0
      have : l.foldl Nat.max 0 = x0 := by omega
      rw [this]; exact hx0
    · exact b3
  · intro y hy
    obtain ⟨x, hx, rfl⟩ := List.mem_map.1 hy
    exact ⟨x, rfl, by exact_mod_cast a2 x hx, by exact_mod_cast b2 x hx⟩

end Gltf
end Sumo
