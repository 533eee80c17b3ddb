import Mathlib.Algebra.Order.Ring.Pow
import Verif.Model.FloatRms
import Verif.Props.FloatPoints
import Verif.Props.Points

/-!
# Counting roundings

`Near k a b`: the number `a` results from the non-negative `b` by at most `k` roundings.
-/

namespace Sumo
namespace Fl

/-- `a` is `b` up to `k` relative errors of one rounding. -/
def Near (k : ℕ) (a b : ℝ) : Prop := b * (1 - 1 / 2 ^ 53) ^ k ≤ a ∧ a ≤ b * (1 + 1 / 2 ^ 53) ^ k

namespace Near

theorem refl (a : ℝ) : Near 0 a a := by constructor <;> simp

theorem mono {k j : ℕ} {a b : ℝ} (h : Near k a b) (hb : 0 ≤ b) (hk : k ≤ j) : Near j a b :=
  ⟨(mul_le_mul_of_nonneg_left (pow_le_pow_of_le_one (by norm_num) (by norm_num) hk) hb).trans h.1,
   h.2.trans (mul_le_mul_of_nonneg_left (pow_le_pow_right₀ (by norm_num) hk) hb)⟩

theorem nonneg {k : ℕ} {a b : ℝ} (h : Near k a b) (hb : 0 ≤ b) : 0 ≤ a :=
  (mul_nonneg hb (pow_nonneg (by norm_num) k)).trans h.1

theorem add {k : ℕ} {a b a' b' : ℝ} (h : Near k a b) (h' : Near k a' b') : Near k (a + a') (b + b') :=
  ⟨by rw [add_mul]; exact add_le_add h.1 h'.1, by rw [add_mul]; exact add_le_add h.2 h'.2⟩

theorem trans {k j : ℕ} {a b c : ℝ} (h : Near k a b) (h' : Near j b c) : Near (j + k) a c := by
  constructor
  · rw [pow_add, ← mul_assoc]
    exact (mul_le_mul_of_nonneg_right h'.1 (pow_nonneg (by norm_num) k)).trans h.1
  · rw [pow_add, ← mul_assoc]
    exact h.2.trans (mul_le_mul_of_nonneg_right h'.2 (pow_nonneg (by norm_num) k))

theorem mul {k j : ℕ} {a b a' b' : ℝ} (h : Near k a b) (h' : Near j a' b') (hb : 0 ≤ b) (hb' : 0 ≤ b') :
    Near (k + j) (a * a') (b * b') := by
  have ha := h.nonneg hb
  have ha' := h'.nonneg hb'
  constructor
  · rw [pow_add, mul_mul_mul_comm]
    exact mul_le_mul h.1 h'.1 (mul_nonneg hb' (pow_nonneg (by norm_num) j)) ha
  · rw [pow_add, mul_mul_mul_comm]
    exact mul_le_mul h.2 h'.2 ha' (mul_nonneg hb (pow_nonneg (by norm_num) k))

theorem div {k : ℕ} {a b m : ℝ} (h : Near k a b) (hm : 0 ≤ m) : Near k (a / m) (b / m) := by
  constructor
  · rw [div_mul_eq_mul_div]; exact div_le_div_of_nonneg_right h.1 hm
  · rw [div_mul_eq_mul_div]; exact div_le_div_of_nonneg_right h.2 hm

theorem rnd {a : ℚ} (h : 0 ≤ a) : Near 1 ((double a : ℚ) : ℝ) a := by
  have h1 : (((a * (1 - 1 / 2 ^ 53) : ℚ)) : ℝ) ≤ (double a : ℚ) := by exact_mod_cast mul_le_double h
  have h2 : ((double a : ℚ) : ℝ) ≤ ((a * (1 + 1 / 2 ^ 53) : ℚ) : ℝ) := by exact_mod_cast double_le_mul h
  push_cast at h1 h2
  constructor <;> rw [pow_one] <;> assumption

theorem double {k : ℕ} {a : ℚ} {b : ℝ} (h : Near k a b) (hb : 0 ≤ b) : Near (k + 1) ((double a : ℚ) : ℝ) b :=
  (rnd (by exact_mod_cast h.nonneg hb)).trans h

theorem sqrt_sq {a : ℚ} (h : 0 ≤ a) : Near 5 (((sqrtD a : ℚ) : ℝ) ^ 2) a := by
  rcases h.eq_or_lt with rfl | h
  · rw [sqrtD_zero]; constructor <;> simp
  obtain ⟨-, h1, h2⟩ := sqrtD_spec h
  have h1 : ((sqrtD a ^ 2 * (1 - 1 / 2 ^ 51) : ℚ) : ℝ) ≤ a := by exact_mod_cast h1
  have h2 : (a : ℝ) ≤ ((sqrtD a ^ 2 * (1 + 1 / 2 ^ 51) : ℚ) : ℝ) := by exact_mod_cast h2
  push_cast at h1 h2
  have hs : (0 : ℝ) ≤ (sqrtD a : ℝ) ^ 2 := sq_nonneg _
  have ha : (0 : ℝ) ≤ a := by exact_mod_cast h.le
  constructor
  · have e : ((1 : ℝ) + 1 / 2 ^ 51) * (1 - 1 / 2 ^ 53) ^ 5 ≤ 1 := by norm_num
    calc (a : ℝ) * (1 - 1 / 2 ^ 53) ^ 5 ≤ (sqrtD a : ℝ) ^ 2 * (1 + 1 / 2 ^ 51) * (1 - 1 / 2 ^ 53) ^ 5 :=
          mul_le_mul_of_nonneg_right h2 (by norm_num)
      _ = (sqrtD a : ℝ) ^ 2 * (((1 : ℝ) + 1 / 2 ^ 51) * (1 - 1 / 2 ^ 53) ^ 5) := by ring
      _ ≤ (sqrtD a : ℝ) ^ 2 * 1 := mul_le_mul_of_nonneg_left e hs
      _ = _ := mul_one _
  · have e : (1 : ℝ) ≤ (1 - 1 / 2 ^ 51) * (1 + 1 / 2 ^ 53) ^ 5 := by norm_num
    calc (sqrtD a : ℝ) ^ 2 = (sqrtD a : ℝ) ^ 2 * 1 := (mul_one _).symm
      _ ≤ (sqrtD a : ℝ) ^ 2 * ((1 - 1 / 2 ^ 51) * (1 + 1 / 2 ^ 53) ^ 5) := mul_le_mul_of_nonneg_left e hs
      _ = (sqrtD a : ℝ) ^ 2 * (1 - 1 / 2 ^ 51) * (1 + 1 / 2 ^ 53) ^ 5 := by ring
      _ ≤ _ := mul_le_mul_of_nonneg_right h1 (by norm_num)

theorem of_sq {k j : ℕ} {a b : ℝ} (h : Near k (a ^ 2) (b ^ 2)) (hj : k ≤ 2 * j) (ha : 0 ≤ a) (hb : 0 ≤ b) : Near j a b := by
  have h := h.mono (sq_nonneg b) hj
  have e : ∀ x : ℝ, b ^ 2 * x ^ (2 * j) = (b * x ^ j) ^ 2 := by intro x; rw [mul_pow, ← pow_mul, Nat.mul_comm]
  constructor
  · have := h.1
    rw [e] at this
    exact le_of_sq_le_sq this ha
  · have := h.2
    rw [e] at this
    exact le_of_sq_le_sq this (mul_nonneg hb (pow_nonneg (by norm_num) j))
where
  le_of_sq_le_sq {x y : ℝ} (h : x ^ 2 ≤ y ^ 2) (hy : 0 ≤ y) : x ≤ y := by
    exact (abs_le_of_sq_le_sq' h hy).2

theorem sqrt {k j : ℕ} {a : ℚ} {b : ℝ} (h : Near k a b) (hb : 0 ≤ b) (hj : k + 5 ≤ 2 * j) :
    Near j ((sqrtD a : ℚ) : ℝ) (Real.sqrt b) := by
  have ha : 0 ≤ a := by exact_mod_cast h.nonneg hb
  refine of_sq (k := k + 5) ?_ hj (by exact_mod_cast sqrtD_nonneg ha) (Real.sqrt_nonneg b)
  rw [Real.sq_sqrt hb]
  exact (sqrt_sq ha).trans h

/-- Sums, added in any order. -/
theorem flSum {l : List ℚ} {s : ℚ} (h : FlSum l s) (h0 : ∀ x ∈ l, 0 ≤ x) : 0 ≤ s ∧ Near l.length s ((l.sum : ℚ) : ℝ) := by
  have key : 0 ≤ s ∧ 0 ≤ l.sum ∧ Near l.length s ((l.sum : ℚ) : ℝ) := by
    induction h with
    | nil => exact ⟨le_refl _, by simp, by constructor <;> simp⟩
    | one x =>
      have hx := h0 x (by simp)
      refine ⟨hx, by simpa using hx, ?_⟩
      have := (refl (x : ℝ)).mono (by exact_mod_cast hx) (Nat.zero_le 1)
      simpa using this
    | @add l k s t hl hk _ _ ih1 ih2 =>
      obtain ⟨a1, a2, a3⟩ := ih1 (fun x hx => h0 x (by simp [hx]))
      obtain ⟨b1, b2, b3⟩ := ih2 (fun x hx => h0 x (by simp [hx]))
      refine ⟨double_nonneg (add_nonneg a1 b1), by rw [List.sum_append]; exact add_nonneg a2 b2, ?_⟩
      have hl := List.length_pos_iff.2 hl
      have hk := List.length_pos_iff.2 hk
      have a2' : (0 : ℝ) ≤ (l.sum : ℚ) := by exact_mod_cast a2
      have b2' : (0 : ℝ) ≤ (k.sum : ℚ) := by exact_mod_cast b2
      have e := (a3.mono a2' (Nat.le_max_left l.length k.length)).add (b3.mono b2' (Nat.le_max_right l.length k.length))
      have e : Near (max l.length k.length) (((s + t : ℚ)) : ℝ) ((l.sum : ℚ) + (k.sum : ℚ)) := by push_cast at e ⊢; exact e
      have := (e.double (add_nonneg a2' b2')).mono (add_nonneg a2' b2') (j := (l ++ k).length) (by
        rw [List.length_append]; omega)
      rw [List.sum_append]
      push_cast at this ⊢
      exact this
    | perm _ hp ih =>
      obtain ⟨a1, a2, a3⟩ := ih (fun x hx => h0 x (hp.mem_iff.1 hx))
      rw [← hp.length_eq, ← hp.sum_eq]
      exact ⟨a1, a2, a3⟩
  exact ⟨key.1, key.2.2⟩

theorem sum_map {α : Type} {k : ℕ} (l : List α) {f : α → ℚ} {g : α → ℝ} (h : ∀ a ∈ l, Near k (f a) (g a)) :
    Near k (((l.map f).sum : ℚ) : ℝ) (l.map g).sum := by
  induction l with
  | nil => constructor <;> simp
  | cons a l ih =>
    have e := (h a (by simp)).add (ih fun b hb => h b (by simp [hb]))
    simp only [List.map_cons, List.sum_cons]
    push_cast at e ⊢
    exact e

/-- A computed sum of computed terms. -/
theorem flSum_map {α : Type} {s : ℚ} {k : ℕ} {l : List α} {f : α → ℚ} {g : α → ℝ} (hs : FlSum (l.map f) s)
    (h : ∀ a ∈ l, Near k (f a) (g a)) (h0 : ∀ a ∈ l, 0 ≤ g a) : Near (k + l.length) (s : ℝ) (l.map g).sum := by
  have h0' : ∀ x ∈ l.map f, 0 ≤ x := by
    intro x hx
    obtain ⟨a, ha, rfl⟩ := List.mem_map.1 hx
    exact_mod_cast (h a ha).nonneg (h0 a ha)
  have := (flSum hs h0').2.trans (sum_map l h)
  rwa [List.length_map] at this

theorem le_pow (k : ℕ) (hk : k ≤ 2 ^ 52) : ((1 : ℝ) + 1 / 2 ^ 53) ^ k ≤ 1 + k / 2 ^ 52 := by
  induction k with
  | zero => simp
  | succ k ih =>
    have ih := ih (by omega)
    have hk' : (k : ℝ) ≤ 2 ^ 52 := by exact_mod_cast (by omega : k ≤ 2 ^ 52)
    rw [pow_succ]
    push_cast
    calc ((1 : ℝ) + 1 / 2 ^ 53) ^ k * (1 + 1 / 2 ^ 53) ≤ (1 + k / 2 ^ 52) * (1 + 1 / 2 ^ 53) :=
          mul_le_mul_of_nonneg_right ih (by norm_num)
      _ ≤ 1 + (k + 1) / 2 ^ 52 := by
        have e : (1 + (k : ℝ) / 2 ^ 52) * (1 + 1 / 2 ^ 53) = 1 + k / 2 ^ 52 + 1 / 2 ^ 53 + k * (1 / 2 ^ 105) := by ring
        have e2 : (k : ℝ) * (1 / 2 ^ 105) ≤ 2 ^ 52 * (1 / 2 ^ 105) := mul_le_mul_of_nonneg_right hk' (by norm_num)
        have e3 : (2 : ℝ) ^ 52 * (1 / 2 ^ 105) = 1 / 2 ^ 53 := by norm_num
        have e4 : ((k : ℝ) + 1) / 2 ^ 52 = k / 2 ^ 52 + 1 / 2 ^ 53 + 1 / 2 ^ 53 := by ring
        rw [e, e4]; linarith

theorem pow_le (k : ℕ) : (1 : ℝ) - k / 2 ^ 53 ≤ (1 - 1 / 2 ^ 53) ^ k := by
  have := one_add_mul_le_pow (a := (-(1 / 2 ^ 53) : ℝ)) (by norm_num) k
  calc (1 : ℝ) - k / 2 ^ 53 = 1 + k * (-(1 / 2 ^ 53)) := by ring
    _ ≤ _ := this
    _ = _ := by rw [← sub_eq_add_neg]

theorem abs_le {k : ℕ} {a b : ℝ} (h : Near k a b) (hb : 0 ≤ b) (hk : k ≤ 2 ^ 52) : |a - b| ≤ b * (k / 2 ^ 52) := by
  have h1 := (mul_le_mul_of_nonneg_left (pow_le k) hb).trans h.1
  have h2 := h.2.trans (mul_le_mul_of_nonneg_left (le_pow k hk) hb)
  have hkb : 0 ≤ b * (k / 2 ^ 53) := by positivity
  have e : b * (k / 2 ^ 52) = 2 * (b * (k / 2 ^ 53)) := by ring
  rw [mul_sub, mul_one] at h1
  rw [mul_add, mul_one] at h2
  rw [_root_.abs_le]
  constructor <;> linarith

theorem eq_zero_iff {k : ℕ} {a b : ℝ} (h : Near k a b) (hb : 0 ≤ b) : a = 0 ↔ b = 0 := by
  constructor
  · rintro rfl
    rcases hb.eq_or_lt with h0 | h0
    · exact h0.symm
    · have : 0 < b * (1 - 1 / 2 ^ 53) ^ k := mul_pos h0 (pow_pos (by norm_num) k)
      linarith [h.1]
  · rintro rfl
    have h1 := h.1
    have h2 := h.2
    rw [zero_mul] at h1 h2
    exact le_antisymm h2 h1

end Near

end Fl
end Sumo
