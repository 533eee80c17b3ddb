import Verif.Spec.FloatAp
import Verif.Model.FloatAp
import Verif.Lemmas.Double
import Verif.Lemmas.ApOrder

/-! # The loops of `compute_pr` and `compute_auc_ap` in double precision -/

namespace Sumo
namespace ApSpec

/-! ### The epsilon in the denominator -/

theorem roundEven_add {m : ℤ} {d : ℚ} (h0 : 0 ≤ d) (h1 : d ≤ 1 / 2) (h : d < 1 / 2 ∨ m % 2 = 0) :
    roundEven (m + d) = m := by
  have hf : ⌊(m : ℚ) + d⌋ = m := by
    rw [Int.floor_eq_iff]
    constructor <;> linarith
  unfold roundEven
  rw [hf, add_sub_cancel_left]
  by_cases h2 : d < 1 / 2
  · rw [if_pos h2]
  · have h3 : d = 1 / 2 := le_antisymm h1 (not_lt.1 h2)
    rw [if_neg h2, if_neg (by rw [h3]; exact lt_irrefl _)]
    rcases h with h | h
    · exact absurd h h2
    · rw [if_pos h]

theorem double_add_eps {n : ℕ} (h2 : 2 ≤ n) (h : n < 2 ^ 53) : double (n + epsilon) = n := by
  have hn : (0 : ℚ) < n := by exact_mod_cast (by omega : 0 < n)
  have he := eps_pos
  obtain ⟨k, hk⟩ : ∃ k, Nat.log 2 n = k := ⟨_, rfl⟩
  have h3 : 2 ^ k ≤ n := by rw [← hk]; exact Nat.pow_log_le_self 2 (by omega)
  have h4 : n < 2 ^ (k + 1) := by rw [← hk]; exact Nat.lt_pow_succ_log_self (by norm_num) n
  have hk1 : 1 ≤ k := by
    by_contra h0
    have : k = 0 := by omega
    subst this
    omega
  have hk53 : k ≤ 52 := by
    by_contra h0
    have : 2 ^ 53 ≤ 2 ^ k := Nat.pow_le_pow_right (by norm_num) (by omega)
    omega
  have hpos : (0 : ℚ) < n + epsilon := by linarith
  have hlog : Int.log 2 |(n : ℚ) + epsilon| = k := by
    rw [abs_of_pos hpos]
    apply le_antisymm
    · have : (n : ℚ) + epsilon < ((2 : ℕ) : ℚ) ^ ((k : ℤ) + 1) := by
        have h5 : (n : ℚ) + 1 ≤ 2 ^ (k + 1) := by exact_mod_cast h4
        have h6 : epsilon < 1 := by unfold epsilon; norm_num
        have e : ((2 : ℕ) : ℚ) ^ ((k : ℤ) + 1) = 2 ^ (k + 1) := by push_cast; norm_cast
        rw [e]
        linarith
      have := (Int.lt_zpow_iff_log_lt (b := 2) (by norm_num) hpos).1 this
      omega
    · refine (Int.zpow_le_iff_le_log (b := 2) (by norm_num) hpos).1 ?_
      have h5 : (2 : ℚ) ^ k ≤ n := by exact_mod_cast h3
      rw [zpow_natCast]
      push_cast
      linarith
  unfold double
  rw [if_neg hpos.ne']
  have hu : ulpExp ((n : ℚ) + epsilon) = -((52 - k : ℕ) : ℤ) := by
    unfold ulpExp
    rw [hlog]
    omega
  rw [hu, zpow_neg, zpow_natCast, div_inv_eq_mul]
  have e1 : ((n : ℚ) + epsilon) * 2 ^ (52 - k) = ((n * 2 ^ (52 - k) : ℕ) : ℤ) + epsilon * 2 ^ (52 - k) := by
    push_cast
    ring
  have e2 : epsilon * 2 ^ (52 - k) = 1 / 2 ^ k := by
    unfold epsilon
    rw [div_mul_eq_mul_div, one_mul, div_eq_div_iff (by positivity) (by positivity), one_mul, ← pow_add]
    congr 1
    omega
  have e3 : (1 : ℚ) / 2 ^ k ≤ 1 / 2 := by
    apply one_div_le_one_div_of_le (by norm_num)
    calc (2 : ℚ) = 2 ^ 1 := by norm_num
      _ ≤ 2 ^ k := pow_le_pow_right₀ (by norm_num) hk1
  rw [e1, e2, roundEven_add (by positivity) e3]
  · push_cast
    field_simp
  · by_cases h52 : k = 52
    · left
      rw [h52]
      norm_num
    · right
      obtain ⟨j, hj⟩ : ∃ j, 52 - k = j + 1 := ⟨51 - k, by omega⟩
      rw [hj, pow_succ, ← mul_assoc]
      push_cast
      exact Int.mul_emod_left _ _

/-- The denominator of the precision at rank `k` as a double. -/
def rankDouble (k : ℕ) : ℚ := if k = 0 then 1 + epsilon else k + 1

theorem rankDouble_eq {k : ℕ} (h : k + 1 < 2 ^ 53) : double (double ((k + 1 : ℕ) : ℚ) + epsilon) = rankDouble k := by
  rw [double_nat h.le]
  unfold rankDouble
  by_cases hk : k = 0
  · subst hk
    rw [if_pos rfl]
    decide +kernel
  · rw [if_neg hk, double_add_eps (by omega) h]
    push_cast
    rfl

theorem rankDouble_ge (k : ℕ) : (k : ℚ) + 1 ≤ rankDouble k := by
  have := eps_pos
  unfold rankDouble
  split_ifs with h
  · subst h
    push_cast
    linarith
  · exact le_refl _

theorem rankDouble_pos (k : ℕ) : 0 < rankDouble k := lt_of_lt_of_le (by positivity) (rankDouble_ge k)

theorem rankDouble_mono {k j : ℕ} (h : k ≤ j) : rankDouble k ≤ rankDouble j := by
  by_cases hk : k = 0
  · by_cases hj : j = 0
    · rw [hk, hj]
    · refine le_trans ?_ (rankDouble_ge j)
      unfold rankDouble
      rw [if_pos hk]
      have : (1 : ℚ) ≤ j := by exact_mod_cast (by omega : 1 ≤ j)
      have h6 : epsilon < 1 := by unfold epsilon; norm_num
      linarith
  · unfold rankDouble
    rw [if_neg hk, if_neg (by omega)]
    have : (k : ℚ) ≤ j := by exact_mod_cast h
    linarith

theorem tp_zero_le (r : List Bool) : tp r 0 ≤ 1 := by
  unfold tp
  exact le_trans List.count_le_length (by simp)

theorem precDouble_eq (r : List Bool) (k : ℕ) : precDouble r k = double ((tp r k : ℚ) / rankDouble k) := by
  unfold precDouble rankDouble
  by_cases hk : k = 0
  · subst hk
    have h := tp_zero_le r
    by_cases h1 : tp r 0 = 1
    · rw [if_pos ⟨rfl, h1⟩, if_pos rfl, h1]
      decide +kernel
    · have h0 : tp r 0 = 0 := by omega
      rw [if_neg (by tauto), h0]
      simp
  · rw [if_neg (by tauto), if_neg hk]

theorem precDouble_nonneg (r : List Bool) (k : ℕ) : 0 ≤ precDouble r k := by
  rw [precDouble_eq]
  exact double_nonneg (div_nonneg (by positivity) (rankDouble_pos k).le)

theorem precDouble_le_one (r : List Bool) (k : ℕ) : precDouble r k ≤ 1 := by
  rw [precDouble_eq]
  apply double_le_one
  rw [div_le_one (rankDouble_pos k)]
  refine le_trans ?_ (rankDouble_ge k)
  exact_mod_cast tp_le r k

theorem precDouble_shift {r r' : List Bool} {k k' : ℕ} (h : tp r' k' ≤ tp r k) (hk : k ≤ k') :
    precDouble r' k' ≤ precDouble r k := by
  rw [precDouble_eq, precDouble_eq]
  apply double_mono
  have h1 : (tp r' k' : ℚ) ≤ tp r k := by exact_mod_cast h
  exact div_le_div₀ (by positivity) h1 (rankDouble_pos k) (rankDouble_mono hk)

theorem precDouble_congr {r r' : List Bool} {k : ℕ} (h : tp r k = tp r' k) : precDouble r k = precDouble r' k :=
  le_antisymm (precDouble_shift h.le (le_refl _)) (precDouble_shift h.ge (le_refl _))

/-! ### The best of a list -/

theorem bestOf_of_ge (f : ℕ → ℚ) {n k : ℕ} (h : n ≤ k) : bestOf f n k = 0 := by
  unfold bestOf
  rw [List.drop_eq_nil_of_le (by simpa using h)]; rfl

theorem bestOf_succ (f : ℕ → ℚ) {n k : ℕ} (h : k < n) : bestOf f n k = max (f k) (bestOf f n (k + 1)) := by
  unfold bestOf
  rw [List.drop_eq_getElem_cons (by simpa using h)]
  simp

theorem bestOf_nonneg (f : ℕ → ℚ) (n k : ℕ) : 0 ≤ bestOf f n k := by
  unfold bestOf
  generalize ((List.range n).drop k).map f = l
  induction l with
  | nil => simp
  | cons a l ih => simp [ih]

theorem le_bestOf (f : ℕ → ℚ) {n k j : ℕ} (hkj : k ≤ j) (hj : j < n) : f j ≤ bestOf f n k := by
  induction hkj using Nat.decreasingInduction with
  | self => rw [bestOf_succ f hj]; exact le_max_left _ _
  | of_succ k hk ih => rw [bestOf_succ f (by omega)]; exact le_trans ih (le_max_right _ _)

theorem bestOf_le (f : ℕ → ℚ) {n k : ℕ} {b : ℚ} (hb : 0 ≤ b) (h : ∀ j, k ≤ j → j < n → f j ≤ b) : bestOf f n k ≤ b := by
  unfold bestOf
  have : ∀ x ∈ ((List.range n).drop k).map f, x ≤ b := by
    intro x hx
    obtain ⟨j, hj, rfl⟩ := List.mem_map.1 hx
    obtain ⟨i, hi⟩ := List.mem_iff_getElem?.1 hj
    rw [List.getElem?_drop, List.getElem?_eq_some_iff] at hi
    obtain ⟨hi, rfl⟩ := hi
    simp only [List.length_range] at hi
    rw [List.getElem_range]
    exact h _ (by omega) hi
  generalize ((List.range n).drop k).map f = l at this
  induction l with
  | nil => exact hb
  | cons a l ih => exact max_le (this a (by simp)) (ih fun x hx => this x (by simp [hx]))

theorem bestOf_attained (f : ℕ → ℚ) {n k : ℕ} (hf : ∀ k, 0 ≤ f k) (hk : k < n) :
    ∃ j, k ≤ j ∧ j < n ∧ bestOf f n k = f j := by
  have hk' := le_of_lt hk
  induction hk' using Nat.decreasingInduction with
  | self => omega
  | of_succ k hk2 ih =>
    rw [bestOf_succ f hk]
    by_cases h2 : k + 1 < n
    · rcases le_total (f k) (bestOf f n (k + 1)) with h | h
      · obtain ⟨j, h1, h3, h4⟩ := ih h2
        exact ⟨j, by omega, h3, by rw [max_eq_right h, h4]⟩
      · exact ⟨k, le_refl _, hk, max_eq_left h⟩
    · rw [bestOf_of_ge f (by omega)]
      exact ⟨k, le_refl _, hk, max_eq_left (hf k)⟩

theorem bestOf_antitone (f : ℕ → ℚ) {n k j : ℕ} (h : k ≤ j) : bestOf f n j ≤ bestOf f n k :=
  bestOf_le f (bestOf_nonneg f n k) (fun _ hi hi' => le_bestOf f (le_trans h hi) hi')

theorem bestFrom_eq (r : List Bool) (k : ℕ) : bestFrom r k = bestOf (precAt r) r.length k := rfl

/-! ### The loop -/

/-- Adding up from the last term to the first. -/
def foldDouble (l : List ℚ) (a : ℚ) : ℚ := l.foldr (fun x acc => double (acc + x)) a

theorem aucLoopDouble (f : ℕ → ℚ) (n : ℕ) (recall : List ℚ) (m : ℕ) (hm : m < n) (p : List ℚ) (a : ℚ)
    (hlen : p.length = n)
    (hp : ∀ k, k < n → p.getD k 0 = if m ≤ k then bestOf f n k else f k) :
    let st := (downIndices (m + 1)).foldl (Fl.aucStep recall) (p, a)
    st.1.length = n ∧ (∀ k, k < n → st.1.getD k 0 = bestOf f n k) ∧
    st.2 = foldDouble ((List.range m).map fun i =>
      double (bestOf f n (i + 1) * double (recall.getD (i + 1) 0 - recall.getD i 0))) a := by
  induction m generalizing p a with
  | zero =>
    have : downIndices 1 = [] := rfl
    simp only [Nat.zero_add, this, List.foldl_nil]
    refine ⟨hlen, ?_, by simp [foldDouble]⟩
    intro k hk
    rw [hp k hk]; simp
  | succ m ih =>
    rw [downIndices_succ, List.foldl_cons]
    have hstep : ∀ k, k < n → (interpStep p (m + 1)).getD k 0 = if m ≤ k then bestOf f n k else f k := by
      intro k hk
      rw [getD_interpStep p (m + 1) k (by omega) (by omega)]
      simp only [Nat.add_sub_cancel]
      by_cases hkm : k = m
      · subst hkm
        rw [if_pos rfl, if_pos (le_refl _), bestOf_succ f hk, hp k hk, hp (k + 1) hm]
        simp
      · rw [if_neg hkm, hp k hk]
        by_cases h : m + 1 ≤ k
        · rw [if_pos h, if_pos (by omega)]
        · rw [if_neg h, if_neg (by omega)]
    have := ih (by omega) (interpStep p (m + 1))
      (double (a + double ((interpStep p (m + 1)).getD (m + 1) 0 * double (recall.getD (m + 1) 0 - recall.getD m 0))))
      (by rw [length_interpStep, hlen]) hstep
    simp only [Fl.aucStep, Nat.add_sub_cancel] at this ⊢
    refine ⟨this.1, this.2.1, ?_⟩
    rw [this.2.2, hstep (m + 1) hm, if_pos (by omega), List.range_succ, List.map_append]
    simp [foldDouble]

theorem interpLoopDouble (f : ℕ → ℚ) (n m : ℕ) (hm : m < n) (p : List ℚ) (hlen : p.length = n)
    (hp : ∀ k, k < n → p.getD k 0 = if m ≤ k then bestOf f n k else f k) :
    ((downIndices (m + 1)).foldl interpStep p).length = n ∧
    (∀ k, k < n → ((downIndices (m + 1)).foldl interpStep p).getD k 0 = bestOf f n k) := by
  have key : ∀ (l : List ℕ) (p : List ℚ) (a : ℚ),
      (l.foldl (Fl.aucStep []) (p, a)).1 = l.foldl interpStep p := by
    intro l
    induction l with
    | nil => intro p a; rfl
    | cons i l ih => intro p a; simp only [List.foldl_cons, Fl.aucStep]; exact ih _ _
  have := aucLoopDouble f n [] m hm p 0 hlen hp
  simp only [key] at this
  exact ⟨this.1, this.2.1⟩

theorem length_rawPrecisionD (s : List ℤ) : (Fl.rawPrecision s).length = s.length := by
  unfold Fl.rawPrecision cumsum; simp [length_cumsumFrom]

theorem length_rawRecallD (s : List ℤ) (n : ℕ) : (Fl.rawRecall s n).length = s.length := by
  unfold Fl.rawRecall cumsum; simp [length_cumsumFrom]

theorem rawPrecisionD_getD (s : List ℤ) (k : ℕ) (hk : k < s.length) (hs : s.length < 2 ^ 53) :
    (Fl.rawPrecision s).getD k 0 = precDouble (hits s) k := by
  unfold Fl.rawPrecision cumsum
  rw [List.getD_eq_getElem?_getD, List.getElem?_zipWith, getElem?_cumsumFrom _ _ _ (by simpa using hk),
    getElem?_cumsumFrom _ _ _ (by simpa using hk)]
  simp only [Nat.zero_add, Option.getD_some]
  have h := count_not (s.take (k + 1))
  rw [List.length_take, Nat.min_eq_left (by omega), List.map_take, List.map_take] at h
  rw [h, rankDouble_eq (by omega), precDouble_eq]
  have e : ((s.map fun m => decide (m ≠ 0)).take (k + 1)).count true = tp (hits s) k := rfl
  rw [e, double_nat ((tp_le _ _).trans (by omega))]

theorem rawRecallD_getD (s : List ℤ) (n k : ℕ) (hk : k < s.length) (hs : s.length < 2 ^ 53) (hn : n ≤ 2 ^ 53) :
    (Fl.rawRecall s n).getD k 0 = double ((tp (hits s) k : ℚ) / n) := by
  unfold Fl.rawRecall cumsum
  rw [List.getD_eq_getElem?_getD, List.getElem?_map, getElem?_cumsumFrom _ _ _ (by simpa using hk)]
  simp only [Nat.zero_add, Option.map_some, Option.getD_some]
  have e : ((s.map fun m => decide (m ≠ 0)).take (k + 1)).count true = tp (hits s) k := rfl
  rw [e, double_nat ((tp_le _ _).trans (by omega)), double_nat hn]

theorem start_invD (s : List ℤ) (hs : 0 < s.length) (hs' : s.length < 2 ^ 53) : ∀ k, k < s.length →
    (Fl.rawPrecision s).getD k 0 =
      if s.length - 1 ≤ k then bestOf (precDouble (hits s)) s.length k else precDouble (hits s) k := by
  intro k hk
  rw [rawPrecisionD_getD s k hk hs']
  split
  · rw [bestOf_succ _ hk, bestOf_of_ge _ (by omega), max_eq_left (precDouble_nonneg _ _)]
  · rfl

theorem isDouble_foldDouble {l : List ℚ} {a : ℚ} (h : IsDouble a) : IsDouble (foldDouble l a) := by
  cases l with
  | nil => exact h
  | cons x l => exact double_isDouble _

/-- Terms that are zero do not matter. -/
theorem foldDouble_filter {l : List ℕ} {g : ℕ → ℚ} {p : ℕ → Bool} {a : ℚ} (ha : IsDouble a)
    (h : ∀ k ∈ l, p k = false → g k = 0) : foldDouble (l.map g) a = foldDouble ((l.filter p).map g) a := by
  induction l with
  | nil => rfl
  | cons k l ih =>
    have ih := ih fun j hj => h j (by simp [hj])
    by_cases hp : p k = true
    · rw [List.filter_cons_of_pos hp]
      simp only [foldDouble, List.map_cons, List.foldr_cons] at ih ⊢
      rw [ih]
    · rw [List.filter_cons_of_neg hp, ← ih]
      have hk := h k (by simp) (by simpa using hp)
      simp only [foldDouble, List.map_cons, List.foldr_cons]
      rw [hk, add_zero]
      exact double_of_isDouble (isDouble_foldDouble (l := l.map g) ha)

theorem apDouble_eq (r : List Bool) (nGt : ℕ) : apDouble r nGt =
    foldDouble ((hitRanks r).map fun k => double (bestOf (precDouble r) r.length k * gainDouble nGt (tp r k))) 0 := by
  unfold apDouble foldDouble
  rw [List.foldr_map]

theorem aucD_eq (s : List ℤ) (nGt : ℕ) (hs : 0 < s.length) (hs' : s.length < 2 ^ 53) (hn : nGt ≤ 2 ^ 53) :
    let st := (downIndices (Fl.rawPrecision s).length).foldl (Fl.aucStep (Fl.rawRecall s nGt)) (Fl.rawPrecision s, 0)
    st.1 = (List.range s.length).map (bestOf (precDouble (hits s)) s.length) ∧
    double (st.2 + double (st.1.getD 0 0 * (Fl.rawRecall s nGt).getD 0 0)) = apDouble (hits s) nGt := by
  obtain ⟨m, hm⟩ : ∃ m, s.length = m + 1 := ⟨s.length - 1, by omega⟩
  have hl := aucLoopDouble (precDouble (hits s)) s.length (Fl.rawRecall s nGt) m (by omega) (Fl.rawPrecision s) 0
    (length_rawPrecisionD s) (by
      have := start_invD s hs hs'
      rw [show s.length - 1 = m by omega] at this
      exact this)
  simp only at hl
  rw [length_rawPrecisionD]
  simp only
  have hd : downIndices s.length = downIndices (m + 1) := by rw [hm]
  rw [hd]
  obtain ⟨h1, h2, h3⟩ := hl
  constructor
  · apply ext_getD
    · rw [h1]; simp
    · intro k hk
      rw [h1] at hk
      rw [h2 k hk, getD_map_range hk]
  · rw [h3, h2 0 hs, apDouble_eq]
    obtain ⟨g, hg⟩ : ∃ g : ℕ → ℚ, g = fun k => if k = 0 then
        double (bestOf (precDouble (hits s)) s.length 0 * (Fl.rawRecall s nGt).getD 0 0) else
        double (bestOf (precDouble (hits s)) s.length k *
          double ((Fl.rawRecall s nGt).getD k 0 - (Fl.rawRecall s nGt).getD (k - 1) 0)) := ⟨_, rfl⟩
    have hhit : ∀ k, k < s.length → (hits s).getD k false = true →
        g k = double (bestOf (precDouble (hits s)) s.length k * gainDouble nGt (tp (hits s) k)) := by
      intro k hk hh
      rw [hg]
      simp only
      unfold gainDouble
      by_cases h0 : k = 0
      · subst h0
        rw [if_pos rfl, rawRecallD_getD s nGt 0 hs hs' hn, tp_zero _ (by simpa using hs), hh]
        simp
      · obtain ⟨j, rfl⟩ : ∃ j, k = j + 1 := ⟨k - 1, by omega⟩
        rw [if_neg h0, rawRecallD_getD s nGt _ hk hs' hn, Nat.add_sub_cancel, rawRecallD_getD s nGt _ (by omega) hs' hn,
          tp_succ _ _ (by simpa using hk), hh]
        simp
    have hmiss : ∀ k ∈ List.range s.length, (hits s).getD k false = false → g k = 0 := by
      intro k hk hh
      rw [List.mem_range] at hk
      rw [hg]
      simp only
      by_cases h0 : k = 0
      · subst h0
        rw [if_pos rfl, rawRecallD_getD s nGt 0 hs hs' hn, tp_zero _ (by simpa using hs), hh]
        simp
      · obtain ⟨j, rfl⟩ : ∃ j, k = j + 1 := ⟨k - 1, by omega⟩
        rw [if_neg h0, rawRecallD_getD s nGt _ hk hs' hn, Nat.add_sub_cancel, rawRecallD_getD s nGt _ (by omega) hs' hn,
          tp_succ _ _ (by simpa using hk), hh]
        simp
    have e1 : double (foldDouble ((List.range m).map fun i => double (bestOf (precDouble (hits s)) s.length (i + 1) *
          double ((Fl.rawRecall s nGt).getD (i + 1) 0 - (Fl.rawRecall s nGt).getD i 0))) 0 +
        double (bestOf (precDouble (hits s)) s.length 0 * (Fl.rawRecall s nGt).getD 0 0)) =
        foldDouble ((List.range s.length).map g) 0 := by
      rw [hm, List.range_succ_eq_map, List.map_cons, List.map_map]
      have e2 : (List.range m).map (g ∘ Nat.succ) = (List.range m).map fun i => double (bestOf (precDouble (hits s)) s.length (i + 1) *
          double ((Fl.rawRecall s nGt).getD (i + 1) 0 - (Fl.rawRecall s nGt).getD i 0)) := by
        apply List.map_congr_left
        intro i _
        rw [hg]
        rfl
      rw [e2]
      have e3 : g 0 = double (bestOf (precDouble (hits s)) s.length 0 * (Fl.rawRecall s nGt).getD 0 0) := by rw [hg]; rfl
      rw [e3, hm]
      rfl
    rw [e1, foldDouble_filter isDouble_zero hmiss]
    unfold hitRanks
    rw [length_hits]
    congr 1
    apply List.map_congr_left
    intro k hk
    rw [List.mem_filter, List.mem_range] at hk
    exact hhit k hk.1 hk.2

theorem computeAucApD_eq {order : List ℕ} {ms : List ℤ} {nGt : ℕ} (h : ∀ i ∈ order, i < ms.length)
    (ho : order.length < 2 ^ 53) (hn : nGt ≤ 2 ^ 53) :
    Fl.computeAucAp order ms nGt = .ok (apDouble (ranked order ms) nGt,
      (List.range order.length).map (bestOf (precDouble (ranked order ms)) order.length),
      (List.range order.length).map (fun k => double ((tp (ranked order ms) k : ℚ) / nGt))) := by
  unfold Fl.computeAucAp
  rw [gather_eq h]
  simp only [bind, Except.bind, pure, Except.pure]
  set s := order.map (fun i => ms.getD i 0) with hs
  have hsl : s.length = order.length := by simp [hs]
  have hrec : Fl.rawRecall s nGt = (List.range order.length).map (fun k => double ((tp (ranked order ms) k : ℚ) / nGt)) := by
    apply ext_getD
    · rw [length_rawRecallD, hsl]; simp
    · intro k hk
      rw [length_rawRecallD] at hk
      rw [rawRecallD_getD s nGt k hk (by omega) hn, getD_map_range (by omega), hs, hits_ranked]
  by_cases h0 : 0 < s.length
  · rw [length_rawPrecisionD, if_pos h0]
    have := aucD_eq s nGt h0 (by omega) hn
    rw [length_rawPrecisionD] at this
    simp only at this
    rw [this.2, this.1, hrec, hs, hits_ranked]
    simp
  · have h00 : order = [] := by
      apply List.length_eq_zero_iff.1; omega
    rw [length_rawPrecisionD, if_neg (by simpa using h0)]
    subst h00
    simp [hs, Fl.rawPrecision, Fl.rawRecall, cumsum, cumsumFrom, apDouble, hitRanks, ranked]

theorem computePrD_curve {order : List ℕ} {ms : List ℤ} {nGt : ℕ} (interp : Bool)
    (h : ∀ i ∈ order, i < ms.length) (ho : order.length < 2 ^ 53) (hn : nGt ≤ 2 ^ 53) :
    Fl.computePr order ms nGt none interp = .ok (
      (List.range order.length).map (if interp then bestOf (precDouble (ranked order ms)) order.length
        else precDouble (ranked order ms)),
      (List.range order.length).map (fun k => double ((tp (ranked order ms) k : ℚ) / nGt))) ∧
    ∀ samples, Fl.computePr order ms nGt (some samples) interp = .ok (
      samples.map (fun r =>
        let i := searchsortedLeft ((List.range order.length).map (fun k => double ((tp (ranked order ms) k : ℚ) / nGt))) r
        if i < order.length then
          (if interp then bestOf (precDouble (ranked order ms)) order.length else precDouble (ranked order ms)) i else 0),
      samples) := by
  unfold Fl.computePr
  rw [gather_eq h]
  simp only [bind, Except.bind, pure, Except.pure]
  set s := order.map (fun i => ms.getD i 0) with hs
  have hsl : s.length = order.length := by simp [hs]
  have hrec : Fl.rawRecall s nGt = (List.range order.length).map (fun k => double ((tp (ranked order ms) k : ℚ) / nGt)) := by
    apply ext_getD
    · rw [length_rawRecallD, hsl]; simp
    · intro k hk
      rw [length_rawRecallD] at hk
      rw [rawRecallD_getD s nGt k hk (by omega) hn, getD_map_range (by omega), hs, hits_ranked]
  have hprec : (if interp = true then
        (downIndices (Fl.rawPrecision s).length).foldl interpStep (Fl.rawPrecision s) else Fl.rawPrecision s) =
      (List.range order.length).map
        (if interp then bestOf (precDouble (ranked order ms)) order.length else precDouble (ranked order ms)) := by
    cases interp with
    | false =>
      simp only [Bool.false_eq_true, if_false]
      apply ext_getD
      · rw [length_rawPrecisionD, hsl]; simp
      · intro k hk
        rw [length_rawPrecisionD] at hk
        rw [rawPrecisionD_getD s k hk (by omega), getD_map_range (by omega), hs, hits_ranked]
    | true =>
      simp only [if_true]
      by_cases h0 : 0 < s.length
      · have := interpLoopDouble (precDouble (hits s)) s.length (s.length - 1) (by omega) (Fl.rawPrecision s)
          (length_rawPrecisionD s) (start_invD s h0 (by omega))
        rw [show s.length - 1 + 1 = s.length by omega] at this
        rw [length_rawPrecisionD]
        apply ext_getD
        · rw [this.1, hsl]; simp
        · intro k hk
          rw [this.1] at hk
          rw [this.2 k hk, getD_map_range (by omega), hs, hits_ranked]
          simp
      · have h00 : order = [] := by
          apply List.length_eq_zero_iff.1; omega
        subst h00
        simp [hs, Fl.rawPrecision, cumsum, cumsumFrom, downIndices]
  constructor
  · rw [hprec, hrec]
  · intro samples
    rw [hprec, hrec]
    congr 2
    apply List.map_congr_left
    intro r _
    simp only [List.length_map, List.length_range]
    split
    · rw [getD_map_range (by assumption)]
    · rfl

/-! ### Monotonicity -/

theorem foldDouble_mono {l k : List ℚ} (h : List.Forall₂ (· ≤ ·) l k) {a b : ℚ} (hab : a ≤ b) :
    foldDouble l a ≤ foldDouble k b := by
  induction h with
  | nil => exact hab
  | cons h _ ih => exact double_mono (add_le_add ih h)

theorem hitRanks_append (A B : List Bool) :
    hitRanks (A ++ B) = hitRanks A ++ (hitRanks B).map (A.length + ·) := by
  unfold hitRanks
  rw [List.length_append, List.range_add, List.filter_append, List.filter_map]
  congr 1
  · apply List.filter_congr
    intro k hk
    rw [List.mem_range] at hk
    exact getD_append_left' hk
  · congr 1
    apply List.filter_congr
    intro k _
    exact getD_append_right' A B k

theorem hitRanks_lt {r : List Bool} {k : ℕ} (h : k ∈ hitRanks r) : k < r.length ∧ r.getD k false = true := by
  unfold hitRanks at h
  rw [List.mem_filter, List.mem_range] at h
  exact h

theorem hitRanks_false {B : List Bool} (h : ∀ b ∈ B, b = false) : hitRanks B = [] := by
  unfold hitRanks
  rw [List.filter_eq_nil_iff]
  intro k _
  rw [getD_false_of_all h]
  simp

theorem hitRanks_cons_false (B : List Bool) : hitRanks (false :: B) = (hitRanks B).map (· + 1) := by
  have := hitRanks_append [false] B
  rw [hitRanks_false (B := [false]) (by simp), List.nil_append] at this
  rw [List.singleton_append] at this
  rw [this]
  apply List.map_congr_left
  intro k _
  exact Nat.add_comm _ _

theorem gainDouble_nonneg (nGt t : ℕ) : 0 ≤ gainDouble nGt t := by
  unfold gainDouble
  apply double_nonneg
  rw [sub_nonneg]
  apply double_mono
  apply div_le_div_of_nonneg_right _ (by positivity)
  exact_mod_cast Nat.sub_le t 1

theorem apDouble_append_false {A B : List Bool} (h : ∀ b ∈ B, b = false) (nGt : ℕ) :
    apDouble (A ++ B) nGt = apDouble A nGt := by
  rw [apDouble_eq, apDouble_eq, hitRanks_append, hitRanks_false h, List.map_nil, List.append_nil]
  congr 1
  apply List.map_congr_left
  intro k hk
  have hk := (hitRanks_lt hk).1
  rw [tp_append_left hk]
  congr 2
  apply le_antisymm
  · apply bestOf_le _ (bestOf_nonneg _ _ _)
    intro j hkj hj
    by_cases hjA : j < A.length
    · rw [precDouble_congr (tp_append_left hjA)]; exact le_bestOf _ hkj hjA
    · refine le_trans (precDouble_shift (k := A.length - 1) (r := A) ?_ (by omega))
        (le_bestOf _ (by omega) (by omega))
      obtain ⟨i, rfl⟩ : ∃ i, j = A.length + i := ⟨j - A.length, by omega⟩
      rw [tp_append_right, tp_eq_count (r := A) (by omega)]
      have := tp_le_count B i
      rw [count_all_false h] at this
      omega
  · apply bestOf_le _ (bestOf_nonneg _ _ _)
    intro j hkj hj
    rw [← precDouble_congr (tp_append_left (B := B) hj)]
    exact le_bestOf _ hkj (by simp; omega)

theorem apDouble_insert_false (A B : List Bool) (nGt : ℕ) : apDouble (A ++ false :: B) nGt ≤ apDouble (A ++ B) nGt := by
  have key : ∀ k k', (k < A.length ∧ k' = k) ∨ (A.length ≤ k ∧ k' = k + 1) →
      bestOf (precDouble (A ++ false :: B)) (A ++ false :: B).length k' ≤ bestOf (precDouble (A ++ B)) (A ++ B).length k := by
    intro k k' hkk
    apply bestOf_le _ (bestOf_nonneg _ _ _)
    intro j hkj hj
    simp only [List.length_append, List.length_cons] at hj
    by_cases h1 : j < A.length
    · rw [precDouble_congr (tp_append_left h1), ← precDouble_congr (tp_append_left (B := B) h1)]
      exact le_bestOf _ (by omega) (by simp; omega)
    · by_cases h2 : j = A.length
      · refine le_trans (precDouble_shift (r := A ++ B) (k := A.length - 1) ?_ (by omega))
          (le_bestOf _ (by omega) (by simp; omega))
        rw [h2, show A.length = A.length + 0 from rfl, tp_append_right, tp_append_left (by omega),
          tp_eq_count (r := A) (by omega)]
        simp [tp]
      · obtain ⟨i, rfl⟩ : ∃ i, j = A.length + (i + 1) := ⟨j - A.length - 1, by omega⟩
        refine le_trans (precDouble_shift (r := A ++ B) (k := A.length + i) ?_ (by omega))
          (le_bestOf _ (by omega) (by simp; omega))
        rw [tp_append_right, tp_append_right]
        simp [tp]
  rw [apDouble_eq, apDouble_eq, hitRanks_append, hitRanks_append, hitRanks_cons_false, List.map_append, List.map_append,
    List.map_map, List.map_map, List.map_map]
  refine foldDouble_mono (List.rel_append (R := (· ≤ ·)) ?_ ?_) (le_refl _)
  · rw [List.forall₂_map_left_iff, List.forall₂_map_right_iff]
    refine List.forall₂_same.2 fun k hk => ?_
    have hk := (hitRanks_lt hk).1
    apply double_mono
    rw [tp_append_left hk, tp_append_left hk]
    exact mul_le_mul_of_nonneg_right (key k k (Or.inl ⟨hk, rfl⟩)) (gainDouble_nonneg _ _)
  · rw [List.forall₂_map_left_iff, List.forall₂_map_right_iff]
    refine List.forall₂_same.2 fun k hk => ?_
    apply double_mono
    simp only
    have e : tp (A ++ false :: B) (A.length + (k + 1)) = tp (A ++ B) (A.length + k) := by
      rw [tp_append_right, tp_append_right]
      simp [tp]
    rw [e]
    exact mul_le_mul_of_nonneg_right (key (A.length + k) _ (Or.inr ⟨by omega, by omega⟩)) (gainDouble_nonneg _ _)

end ApSpec
end Sumo
