import Verif.Lemmas.FloatAp

/-! # How far average precision in double precision is from the exact value -/

namespace Sumo
namespace ApSpec

theorem double_near {x b : ℚ} (h : |x| ≤ b) : |double x - x| ≤ b / 2 ^ 53 :=
  (double_err x).trans (div_le_div_of_nonneg_right h (by norm_num))

theorem precDouble_near (r : List Bool) (k : ℕ) : |precDouble r k - precAt r k| ≤ 3 / 2 ^ 53 := by
  have htp : (tp r k : ℚ) ≤ k + 1 := by exact_mod_cast tp_le r k
  have hk : (0 : ℚ) ≤ k := by positivity
  have h0 : (0 : ℚ) ≤ tp r k := by positivity
  have hr := rankDouble_ge k
  have hrp := rankDouble_pos k
  have he := eps_pos
  have hle : rankDouble k ≤ k + 1 + epsilon := by
    unfold rankDouble
    split_ifs with h
    · subst h; push_cast; linarith
    · linarith
  have h1 : |(tp r k : ℚ) / rankDouble k| ≤ 1 := by
    rw [abs_of_nonneg (by positivity), div_le_one hrp]
    linarith
  have h2 := double_near h1
  have h3 : |(tp r k : ℚ) / rankDouble k - precAt r k| ≤ 2 / 2 ^ 53 := by
    unfold precAt
    have h4 : (tp r k : ℚ) / (k + 1 + epsilon) ≤ tp r k / rankDouble k := div_le_div_of_nonneg_left h0 hrp hle
    rw [abs_of_nonneg (by linarith)]
    rw [div_sub_div _ _ hrp.ne' (by positivity), div_le_iff₀ (by positivity)]
    have h5 : (tp r k : ℚ) * (k + 1 + epsilon) - rankDouble k * tp r k ≤ tp r k * epsilon := by
      nlinarith
    have h6 : (tp r k : ℚ) * epsilon ≤ rankDouble k * epsilon := by
      apply mul_le_mul_of_nonneg_right _ he.le
      linarith
    have h7 : rankDouble k * epsilon ≤ rankDouble k * (k + 1 + epsilon) * epsilon := by
      apply mul_le_mul_of_nonneg_right _ he.le
      nlinarith
    have h8 : epsilon = 2 / 2 ^ 53 := by unfold epsilon; norm_num
    calc _ ≤ _ := h5.trans (h6.trans h7)
      _ = _ := by rw [h8]; ring
  rw [precDouble_eq]
  calc _ = |(double ((tp r k : ℚ) / rankDouble k) - tp r k / rankDouble k) + (tp r k / rankDouble k - precAt r k)| := by ring_nf
    _ ≤ _ := abs_add_le _ _
    _ ≤ _ := by linarith

theorem bestOf_near {f g : ℕ → ℚ} {d : ℚ} (hd : 0 ≤ d) (h : ∀ k, |f k - g k| ≤ d) (n k : ℕ) :
    |bestOf f n k - bestOf g n k| ≤ d := by
  have key : ∀ f g : ℕ → ℚ, (∀ k, |f k - g k| ≤ d) → bestOf f n k ≤ bestOf g n k + d := by
    intro f g h
    apply bestOf_le _ (add_nonneg (bestOf_nonneg _ _ _) hd)
    intro j hkj hj
    have := le_bestOf g hkj hj
    have := (abs_le.1 (h j)).2
    linarith
  rw [abs_le]
  constructor
  · have := key g f fun k => by rw [abs_sub_comm]; exact h k
    linarith
  · have := key f g h
    linarith

theorem gainDouble_near {nGt t : ℕ} (h1 : 1 ≤ t) (h2 : t ≤ nGt) : |gainDouble nGt t - 1 / nGt| ≤ 4 / 2 ^ 53 := by
  have hn : (1 : ℚ) ≤ nGt := by exact_mod_cast h1.trans h2
  have htn : (t : ℚ) ≤ nGt := by exact_mod_cast h2
  have hc : ((t - 1 : ℕ) : ℚ) = t - 1 := by rw [Nat.cast_sub h1]; simp
  have ht : (1 : ℚ) ≤ t := by exact_mod_cast h1
  have hi : (1 : ℚ) / nGt ≤ 1 := by rw [div_le_one (by linarith)]; exact hn
  have hi0 : (0 : ℚ) ≤ 1 / nGt := by positivity
  have ha : |(t : ℚ) / nGt| ≤ 1 := by
    rw [abs_of_nonneg (by positivity), div_le_one (by linarith)]
    exact htn
  have hb : |((t : ℚ) - 1) / nGt| ≤ 1 := by
    rw [abs_of_nonneg (div_nonneg (by linarith) (by linarith)), div_le_one (by linarith)]
    linarith
  have h3 := abs_le.1 (double_near ha)
  have h4 := abs_le.1 (double_near hb)
  have h5 : (t : ℚ) / nGt - (t - 1) / nGt = 1 / nGt := by ring
  unfold gainDouble
  rw [hc]
  have h6 : |double ((t : ℚ) / nGt) - double (((t : ℚ) - 1) / nGt)| ≤ 2 := by
    rw [abs_le]
    constructor <;> linarith
  have h7 := abs_le.1 (double_near h6)
  rw [abs_le]
  constructor <;> linarith

theorem gainDouble_le_two {nGt t : ℕ} (h1 : 1 ≤ t) (h2 : t ≤ nGt) : gainDouble nGt t ≤ 2 := by
  have hn : (1 : ℚ) ≤ nGt := by exact_mod_cast h1.trans h2
  have hi : (1 : ℚ) / nGt ≤ 1 := by rw [div_le_one (by linarith)]; exact hn
  have := (abs_le.1 (gainDouble_near h1 h2)).2
  linarith

theorem bestDouble_le_one (r : List Bool) (n k : ℕ) : bestOf (precDouble r) n k ≤ 1 :=
  bestOf_le _ (by norm_num) fun j _ _ => precDouble_le_one r j

theorem term_near {r : List Bool} {nGt k : ℕ} (h1 : 1 ≤ tp r k) (h2 : tp r k ≤ nGt) :
    |double (bestOf (precDouble r) r.length k * gainDouble nGt (tp r k)) - bestFrom r k / nGt| ≤ 9 / 2 ^ 53 := by
  have hn : (1 : ℚ) ≤ nGt := by exact_mod_cast h1.trans h2
  have hi : (1 : ℚ) / nGt ≤ 1 := by rw [div_le_one (by linarith)]; exact hn
  have hi0 : (0 : ℚ) ≤ 1 / nGt := by positivity
  have hg := gainDouble_near h1 h2
  have hg2 := gainDouble_le_two h1 h2
  have hg0 := gainDouble_nonneg nGt (tp r k)
  have hb := bestOf_near (f := precDouble r) (g := precAt r) (by norm_num) (precDouble_near r) r.length k
  rw [← bestFrom_eq] at hb
  have hB0 := bestOf_nonneg (precDouble r) r.length k
  have hB1 := bestDouble_le_one r r.length k
  have hE0 := bestFrom_nonneg r k
  have hE1 := (bestFrom_lt r k).le
  set B := bestOf (precDouble r) r.length k
  set g := gainDouble nGt (tp r k)
  set E := bestFrom r k
  have hx : |B * g| ≤ 2 := by
    rw [abs_of_nonneg (mul_nonneg hB0 hg0)]
    nlinarith
  have h3 := double_near hx
  have h4 : B * g - E / nGt = B * (g - 1 / nGt) + (B - E) * (1 / nGt) := by ring
  have h5 : |B * (g - 1 / nGt)| ≤ 4 / 2 ^ 53 := by
    rw [abs_mul, abs_of_nonneg hB0]
    calc _ ≤ 1 * (4 / 2 ^ 53) := mul_le_mul hB1 hg (abs_nonneg _) (by norm_num)
      _ = _ := one_mul _
  have h6 : |(B - E) * (1 / nGt)| ≤ 3 / 2 ^ 53 := by
    rw [abs_mul, abs_of_nonneg hi0]
    calc _ ≤ (3 / 2 ^ 53) * 1 := mul_le_mul hb hi hi0 (by norm_num)
      _ = _ := mul_one _
  have h7 : |B * g - E / nGt| ≤ 7 / 2 ^ 53 := by
    rw [h4]
    refine (abs_add_le _ _).trans ?_
    linarith
  calc _ = |(double (B * g) - B * g) + (B * g - E / nGt)| := by ring_nf
    _ ≤ _ := abs_add_le _ _
    _ ≤ _ := by linarith

theorem foldDouble_near {l : List ℕ} {t e : ℕ → ℚ} (h : ∀ k ∈ l, |t k - e k| ≤ 9 / 2 ^ 53) (he : ∀ k ∈ l, 0 ≤ e k)
    (hs : (l.map e).sum ≤ 1) (hl : l.length ≤ 2 ^ 48) :
    |foldDouble (l.map t) 0 - (l.map e).sum| ≤ 16 * l.length / 2 ^ 53 := by
  induction l with
  | nil => simp [foldDouble]
  | cons k l ih =>
    rw [List.map_cons, List.sum_cons] at hs
    have hek := he k (by simp)
    have hs0 : 0 ≤ (l.map e).sum := List.sum_nonneg fun x hx => by
      obtain ⟨j, hj, rfl⟩ := List.mem_map.1 hx
      exact he j (by simp [hj])
    rw [List.length_cons] at hl
    have hlq : ((l.length : ℚ) + 1) ≤ 2 ^ 48 := by exact_mod_cast hl
    have ih := abs_le.1 (ih (fun j hj => h j (by simp [hj])) (fun j hj => he j (by simp [hj])) (by linarith) (by omega))
    have hk := abs_le.1 (h k (by simp))
    have e1 : foldDouble ((k :: l).map t) 0 = double (foldDouble (l.map t) 0 + t k) := rfl
    rw [e1, List.map_cons, List.sum_cons, List.length_cons]
    set A := foldDouble (l.map t) 0
    set S := (l.map e).sum
    have h1 : |A + t k| ≤ 4 := by
      rw [abs_le]
      constructor
      · have : 16 * (l.length : ℚ) / 2 ^ 53 ≤ 1 := by rw [div_le_one (by norm_num)]; linarith
        linarith
      · have : 16 * (l.length : ℚ) / 2 ^ 53 ≤ 1 := by rw [div_le_one (by norm_num)]; linarith
        linarith
    have h2 := abs_le.1 (double_near h1)
    push_cast
    rw [abs_le]
    constructor <;> linarith

theorem sum_filter_range (p : ℕ → Bool) (f : ℕ → ℚ) (n : ℕ) :
    ∑ k ∈ Finset.range n, (if p k then f k else 0) = (((List.range n).filter p).map f).sum := by
  induction n with
  | zero => simp
  | succ n ih =>
    rw [Finset.sum_range_succ, ih, List.range_succ, List.filter_append, List.map_append, List.sum_append]
    congr 1
    by_cases h : p n = true
    · simp [h]
    · simp [h]

theorem ap_eq_hits (r : List Bool) (nGt : ℕ) : ap r nGt = ((hitRanks r).map fun k => bestFrom r k / nGt).sum := by
  unfold ap hitRanks
  rw [sum_filter_range]
  generalize (List.range r.length).filter (fun k => r.getD k false) = l
  induction l with
  | nil => simp
  | cons k l ih => rw [List.map_cons, List.map_cons, List.sum_cons, List.sum_cons, add_div, ih]

theorem length_hitRanks (r : List Bool) : (hitRanks r).length = r.count true := by
  induction r using List.reverseRecOn with
  | nil => rfl
  | append_singleton r b ih =>
    rw [hitRanks_append, List.length_append, List.length_map, ih, List.count_append]
    cases b <;> simp [hitRanks]

theorem tp_pos {r : List Bool} {k : ℕ} (h : r.getD k false = true) : 1 ≤ tp r k := by
  unfold tp
  rw [Nat.succ_le_iff, List.count_pos_iff, List.mem_iff_getElem?]
  refine ⟨k, ?_⟩
  rw [List.getElem?_take]
  simp only [Nat.lt_succ_self, if_true]
  rw [List.getD_eq_getElem?_getD] at h
  cases hq : r[k]? with
  | none => rw [hq] at h; simp at h
  | some b => rw [hq] at h; simp at h; rw [h]

theorem apDouble_near {r : List Bool} {nGt : ℕ} (h1 : r.count true ≤ nGt) (h2 : r.count true ≤ 2 ^ 48) (hap : ap r nGt ≤ 1) :
    |apDouble r nGt - ap r nGt| ≤ r.count true / 2 ^ 49 := by
  rw [apDouble_eq]
  rw [ap_eq_hits] at hap ⊢
  have := foldDouble_near (l := hitRanks r) (t := fun k => double (bestOf (precDouble r) r.length k * gainDouble nGt (tp r k)))
    (e := fun k => bestFrom r k / nGt) (fun k hk => term_near (tp_pos (hitRanks_lt hk).2) ((tp_le_count r k).trans h1))
    (fun k _ => div_nonneg (bestFrom_nonneg r k) (by positivity)) hap (by rw [length_hitRanks]; exact h2)
  rw [length_hitRanks] at this
  refine this.trans (le_of_eq ?_)
  ring

theorem foldDouble_nonneg {l : List ℚ} {a : ℚ} (ha : 0 ≤ a) (h : ∀ x ∈ l, 0 ≤ x) : 0 ≤ foldDouble l a := by
  induction l with
  | nil => exact ha
  | cons x l ih => exact double_nonneg (add_nonneg (ih fun y hy => h y (by simp [hy])) (h x (by simp)))

theorem apDouble_nonneg (r : List Bool) (nGt : ℕ) : 0 ≤ apDouble r nGt := by
  rw [apDouble_eq]
  refine foldDouble_nonneg (le_refl _) ?_
  intro x hx
  obtain ⟨k, _, rfl⟩ := List.mem_map.1 hx
  exact double_nonneg (mul_nonneg (bestOf_nonneg _ _ _) (gainDouble_nonneg _ _))

end ApSpec
end Sumo
