import Verif.Spec.Ap
import Mathlib.Tactic.Ring
import Mathlib.Algebra.BigOperators.Field
import Mathlib.Tactic.Linarith
import Mathlib.Tactic.FieldSimp
import Mathlib.Tactic.NormNum
import Mathlib.Tactic.Positivity

/-! The loops of `compute_pr` / `compute_auc_ap` against the specification. -/

namespace Sumo
namespace ApSpec
open Finset

theorem eps_pos : (0 : ℚ) < epsilon := by unfold epsilon; positivity

theorem length_cumsumFrom (acc : ℕ) (l : List Bool) : (cumsumFrom acc l).length = l.length := by
  induction l generalizing acc with
  | nil => rfl
  | cons b l ih => simp [cumsumFrom, ih]

theorem getElem?_cumsumFrom (acc : ℕ) (l : List Bool) (k : ℕ) (hk : k < l.length) :
    (cumsumFrom acc l)[k]? = some (acc + (l.take (k + 1)).count true) := by
  induction l generalizing acc k with
  | nil => simp at hk
  | cons b l ih =>
    cases k with
    | zero => cases b <;> simp [cumsumFrom]
    | succ k =>
      simp only [cumsumFrom, List.getElem?_cons_succ]
      rw [ih _ _ (by simpa using hk)]
      cases b <;> simp
      omega

theorem count_not (l : List ℤ) : (l.map (fun m => decide (m ≠ 0))).count true +
    (l.map (fun m => decide (m = 0))).count true = l.length := by
  induction l with
  | nil => rfl
  | cons m l ih =>
    simp only [List.map_cons, List.length_cons]
    by_cases h : m = 0
    · subst h; simp at ih ⊢; omega
    · simp [h] at ih ⊢; omega

/-- Hits of a sorted match vector. -/
def hits (sorted : List ℤ) : List Bool := sorted.map (fun m => decide (m ≠ 0))

@[simp] theorem length_hits (s : List ℤ) : (hits s).length = s.length := by simp [hits]

theorem length_rawPrecision (s : List ℤ) : (rawPrecision s).length = s.length := by
  unfold rawPrecision cumsum; simp [length_cumsumFrom]

theorem length_rawRecall (s : List ℤ) (n : ℕ) : (rawRecall s n).length = s.length := by
  unfold rawRecall cumsum; simp [length_cumsumFrom]

theorem rawPrecision_getElem? (s : List ℤ) (k : ℕ) (hk : k < s.length) :
    (rawPrecision s)[k]? = some (precAt (hits s) k) := by
  unfold rawPrecision cumsum
  rw [List.getElem?_zipWith, getElem?_cumsumFrom _ _ _ (by simpa using hk),
    getElem?_cumsumFrom _ _ _ (by simpa using hk)]
  simp only [Nat.zero_add, Option.some.injEq]
  unfold precAt tp hits
  have h := count_not (s.take (k + 1))
  rw [List.length_take, Nat.min_eq_left (by omega), List.map_take, List.map_take] at h
  have h' : ((List.take (k + 1) (List.map (fun m => decide (m ≠ 0)) s)).count true : ℚ) +
    ((List.take (k + 1) (List.map (fun m => decide (m = 0)) s)).count true : ℚ) = (k : ℚ) + 1 := by
    exact_mod_cast h
  rw [h']

theorem rawPrecision_getD (s : List ℤ) (k : ℕ) (hk : k < s.length) :
    (rawPrecision s).getD k 0 = precAt (hits s) k := by
  rw [List.getD_eq_getElem?_getD, rawPrecision_getElem? s k hk]; rfl

theorem rawRecall_getD (s : List ℤ) (n k : ℕ) (hk : k < s.length) :
    (rawRecall s n).getD k 0 = (tp (hits s) k : ℚ) / n := by
  unfold rawRecall cumsum
  rw [List.getD_eq_getElem?_getD, List.getElem?_map, getElem?_cumsumFrom _ _ _ (by simpa using hk)]
  simp [tp, hits]

/-! ### Best precision -/

theorem precAt_nonneg (r : List Bool) (k : ℕ) : 0 ≤ precAt r k := by
  unfold precAt; have := eps_pos; positivity

theorem tp_le (r : List Bool) (k : ℕ) : tp r k ≤ k + 1 := by
  unfold tp
  exact le_trans List.count_le_length (by simp)

theorem precAt_lt_one (r : List Bool) (k : ℕ) : precAt r k < 1 := by
  unfold precAt
  have := eps_pos
  have h : (tp r k : ℚ) ≤ k + 1 := by exact_mod_cast tp_le r k
  rw [div_lt_one (by positivity)]
  linarith

theorem bestFrom_of_ge (r : List Bool) {k : ℕ} (h : r.length ≤ k) : bestFrom r k = 0 := by
  unfold bestFrom
  rw [List.drop_eq_nil_of_le (by simpa using h)]; rfl

theorem bestFrom_succ (r : List Bool) {k : ℕ} (h : k < r.length) :
    bestFrom r k = max (precAt r k) (bestFrom r (k + 1)) := by
  unfold bestFrom
  rw [List.drop_eq_getElem_cons (by simpa using h)]
  simp

theorem bestFrom_nonneg (r : List Bool) (k : ℕ) : 0 ≤ bestFrom r k := by
  unfold bestFrom
  generalize ((List.range r.length).drop k).map (precAt r) = l
  induction l with
  | nil => simp
  | cons a l ih => simp [ih]

theorem le_bestFrom (r : List Bool) {k j : ℕ} (hkj : k ≤ j) (hj : j < r.length) :
    precAt r j ≤ bestFrom r k := by
  induction hkj using Nat.decreasingInduction with
  | self => rw [bestFrom_succ r hj]; exact le_max_left _ _
  | of_succ k hk ih => rw [bestFrom_succ r (by omega)]; exact le_trans ih (le_max_right _ _)

theorem bestFrom_le (r : List Bool) {k : ℕ} {b : ℚ} (hb : 0 ≤ b)
    (h : ∀ j, k ≤ j → j < r.length → precAt r j ≤ b) : bestFrom r k ≤ b := by
  by_cases hk : r.length ≤ k
  · rw [bestFrom_of_ge r hk]; exact hb
  · push Not at hk
    have hk' := le_of_lt hk
    induction hk' using Nat.decreasingInduction with
    | self => omega
    | of_succ k hk2 ih =>
      rw [bestFrom_succ r hk]
      refine max_le (h k (le_refl _) hk) ?_
      by_cases h2 : k + 1 < r.length
      · exact ih (fun j hj => h j (by omega)) h2
      · rw [bestFrom_of_ge r (by omega)]; exact hb

theorem bestFrom_lt (r : List Bool) (k : ℕ) : bestFrom r k < 1 := by
  by_cases hk : r.length ≤ k
  · rw [bestFrom_of_ge r hk]; exact one_pos
  · push Not at hk
    have hk' := le_of_lt hk
    induction hk' using Nat.decreasingInduction with
    | self => omega
    | of_succ k hk2 ih =>
      rw [bestFrom_succ r hk]
      refine max_lt (precAt_lt_one r k) ?_
      by_cases h2 : k + 1 < r.length
      · exact ih h2
      · rw [bestFrom_of_ge r (by omega)]; exact one_pos

theorem bestFrom_attained (r : List Bool) {k : ℕ} (hk : k < r.length) :
    ∃ j, k ≤ j ∧ j < r.length ∧ bestFrom r k = precAt r j := by
  have hk' := le_of_lt hk
  induction hk' using Nat.decreasingInduction with
  | self => omega
  | of_succ k hk2 ih =>
    rw [bestFrom_succ r hk]
    by_cases h2 : k + 1 < r.length
    · rcases le_total (precAt r k) (bestFrom r (k + 1)) with h | h
      · obtain ⟨j, h1, h3, h4⟩ := ih h2
        exact ⟨j, by omega, h3, by rw [max_eq_right h, h4]⟩
      · exact ⟨k, le_refl _, hk, max_eq_left h⟩
    · rw [bestFrom_of_ge r (by omega)]
      exact ⟨k, le_refl _, hk, max_eq_left (precAt_nonneg r k)⟩

theorem bestFrom_antitone (r : List Bool) {k j : ℕ} (h : k ≤ j) : bestFrom r j ≤ bestFrom r k :=
  bestFrom_le r (bestFrom_nonneg r k) (fun _ hi hi' => le_bestFrom r (le_trans h hi) hi')

/-! ### The loop -/

theorem downIndices_succ (n : ℕ) : downIndices (n + 2) = (n + 1) :: downIndices (n + 1) := by
  unfold downIndices
  simp only [Nat.add_sub_cancel, show n + 2 - 1 = n + 1 by omega]
  rw [List.range'_concat]
  simp [Nat.add_comm]

theorem length_interpStep (p : List ℚ) (i : ℕ) : (interpStep p i).length = p.length := by
  unfold interpStep; split <;> simp

theorem getD_interpStep (p : List ℚ) (i k : ℕ) (hi : i < p.length) (hi0 : 0 < i) :
    (interpStep p i).getD k 0 = if k = i - 1 then max (p.getD (i - 1) 0) (p.getD i 0) else p.getD k 0 := by
  unfold interpStep
  by_cases h : p.getD i 0 > p.getD (i - 1) 0
  · rw [if_pos h]
    by_cases hk : k = i - 1
    · subst hk
      rw [if_pos rfl, max_eq_right (le_of_lt h)]
      simp only [List.getD_eq_getElem?_getD, List.getElem?_set]
      simp [show i - 1 < p.length by omega]
    · rw [if_neg hk]
      simp only [List.getD_eq_getElem?_getD]
      rw [List.getElem?_set_ne (fun e => hk e.symm)]
  · rw [if_neg h]
    by_cases hk : k = i - 1
    · subst hk; rw [if_pos rfl, max_eq_left (not_lt.1 h)]
    · rw [if_neg hk]

/-- Invariant of the backward loop: with indices `m, m-1, …, 1` left, entries `≥ m` are final. -/
theorem aucLoop (r : List Bool) (recall : List ℚ) (m : ℕ) (hm : m < r.length) (p : List ℚ) (a : ℚ)
    (hlen : p.length = r.length)
    (hp : ∀ k, k < r.length → p.getD k 0 = if m ≤ k then bestFrom r k else precAt r k) :
    let st := (downIndices (m + 1)).foldl (aucStep recall) (p, a)
    st.1.length = r.length ∧ (∀ k, k < r.length → st.1.getD k 0 = bestFrom r k) ∧
    st.2 = a + ∑ i ∈ range m, bestFrom r (i + 1) * (recall.getD (i + 1) 0 - recall.getD i 0) := by
  induction m generalizing p a with
  | zero =>
    have : downIndices 1 = [] := rfl
    simp only [Nat.zero_add, this, List.foldl_nil]
    refine ⟨hlen, ?_, by simp⟩
    intro k hk
    rw [hp k hk]; simp
  | succ m ih =>
    rw [downIndices_succ, List.foldl_cons]
    have hstep : ∀ k, k < r.length → (interpStep p (m + 1)).getD k 0 =
        if m ≤ k then bestFrom r k else precAt r k := by
      intro k hk
      rw [getD_interpStep p (m + 1) k (by omega) (by omega)]
      simp only [Nat.add_sub_cancel]
      by_cases hkm : k = m
      · subst hkm
        rw [if_pos rfl, if_pos (le_refl _), bestFrom_succ r hk, hp k hk, hp (k + 1) hm]
        simp
      · rw [if_neg hkm, hp k hk]
        by_cases h : m + 1 ≤ k
        · rw [if_pos h, if_pos (by omega)]
        · rw [if_neg h, if_neg (by omega)]
    have := ih (by omega) (interpStep p (m + 1))
      (a + (interpStep p (m + 1)).getD (m + 1) 0 * (recall.getD (m + 1) 0 - recall.getD m 0))
      (by rw [length_interpStep, hlen]) hstep
    simp only [aucStep, Nat.add_sub_cancel] at this ⊢
    refine ⟨this.1, this.2.1, ?_⟩
    rw [this.2.2, sum_range_succ, hstep (m + 1) hm, if_pos (by omega)]
    ring

theorem interpLoop (r : List Bool) (m : ℕ) (hm : m < r.length) (p : List ℚ)
    (hlen : p.length = r.length)
    (hp : ∀ k, k < r.length → p.getD k 0 = if m ≤ k then bestFrom r k else precAt r k) :
    ((downIndices (m + 1)).foldl interpStep p).length = r.length ∧
    (∀ k, k < r.length → ((downIndices (m + 1)).foldl interpStep p).getD k 0 = bestFrom r k) := by
  have key : ∀ (l : List ℕ) (p : List ℚ) (a : ℚ),
      (l.foldl (aucStep []) (p, a)).1 = l.foldl interpStep p := by
    intro l
    induction l with
    | nil => intro p a; rfl
    | cons i l ih => intro p a; simp only [List.foldl_cons, aucStep]; exact ih _ _
  have := aucLoop r [] m hm p 0 hlen hp
  simp only [key] at this
  exact ⟨this.1, this.2.1⟩

theorem tp_succ (r : List Bool) (k : ℕ) (hk : k + 1 < r.length) :
    tp r (k + 1) = tp r k + (r.getD (k + 1) false).toNat := by
  unfold tp
  rw [List.take_add_one (i := k + 1), List.count_append, List.getElem?_eq_getElem hk]
  simp only [List.getD_eq_getElem?_getD, List.getElem?_eq_getElem hk, Option.getD_some, Option.toList_some]
  cases r[k + 1] <;> simp

theorem tp_zero (r : List Bool) (hk : 0 < r.length) : tp r 0 = (r.getD 0 false).toNat := by
  unfold tp
  cases r with
  | nil => simp at hk
  | cons b l => cases b <;> simp

/-- Raw precisions satisfy the invariant at the start of the loop. -/
theorem start_inv (s : List ℤ) (hs : 0 < s.length) : ∀ k, k < (hits s).length →
    (rawPrecision s).getD k 0 = if s.length - 1 ≤ k then bestFrom (hits s) k else precAt (hits s) k := by
  intro k hk
  rw [length_hits] at hk
  rw [rawPrecision_getD s k hk]
  split
  · have : k = s.length - 1 := by omega
    rw [bestFrom_succ _ (by simpa using hk), bestFrom_of_ge _ (by simp; omega),
      max_eq_left (precAt_nonneg _ _)]
  · rfl

theorem ext_getD {l l' : List ℚ} (h : l.length = l'.length)
    (h' : ∀ k, k < l.length → l.getD k 0 = l'.getD k 0) : l = l' := by
  apply List.ext_getElem h
  intro k h1 h2
  have := h' k h1
  simpa [List.getD_eq_getElem?_getD, List.getElem?_eq_getElem h1, List.getElem?_eq_getElem h2] using this

theorem getD_map_range {f : ℕ → ℚ} {n k : ℕ} (hk : k < n) : ((List.range n).map f).getD k 0 = f k := by
  simp [List.getD_eq_getElem?_getD, hk]

/-- The whole of `compute_auc_ap` after gathering. -/
theorem auc_eq (s : List ℤ) (nGt : ℕ) (hs : 0 < s.length) :
    let st := (downIndices (rawPrecision s).length).foldl (aucStep (rawRecall s nGt)) (rawPrecision s, 0)
    st.1 = (List.range s.length).map (bestFrom (hits s)) ∧
    st.2 + st.1.getD 0 0 * (rawRecall s nGt).getD 0 0 = ap (hits s) nGt := by
  obtain ⟨m, hm⟩ : ∃ m, s.length = m + 1 := ⟨s.length - 1, by omega⟩
  have hl := aucLoop (hits s) (rawRecall s nGt) m (by simp [hm]) (rawPrecision s) 0
    (by rw [length_rawPrecision, length_hits]) (by
      have := start_inv s hs
      rw [hm, Nat.add_sub_cancel] at this
      exact this)
  simp only at hl
  rw [length_rawPrecision, hm]
  simp only
  obtain ⟨h1, h2, h3⟩ := hl
  rw [length_hits] at h1 h2
  constructor
  · apply ext_getD
    · rw [h1]; simp [hm]
    · intro k hk
      rw [h1] at hk
      rw [h2 k hk, getD_map_range (by omega)]
  · rw [h3, h2 0 hs, rawRecall_getD s nGt 0 hs]
    unfold ap
    rw [length_hits, hm, sum_range_succ', tp_zero _ (by simpa using hs)]
    have : ∀ i ∈ range m, bestFrom (hits s) (i + 1) *
          ((rawRecall s nGt).getD (i + 1) 0 - (rawRecall s nGt).getD i 0) =
        (if (hits s).getD (i + 1) false then bestFrom (hits s) (i + 1) else 0) / nGt := by
      intro i hi
      rw [mem_range] at hi
      rw [rawRecall_getD s nGt (i + 1) (by omega), rawRecall_getD s nGt i (by omega),
        tp_succ _ _ (by simp; omega)]
      cases (hits s).getD (i + 1) false
      · simp
      · simp; ring
    rw [sum_congr rfl this, ← Finset.sum_div]
    cases (hits s).getD 0 false
    · simp
    · simp; ring

theorem gather_eq {ms : List ℤ} {order : List ℕ} (h : ∀ i ∈ order, i < ms.length) :
    gather ms order = .ok (order.map (fun i => ms.getD i 0)) := by
  unfold gather
  induction order with
  | nil => rfl
  | cons i l ih =>
    rw [List.mapM_cons, List.getElem?_eq_getElem (h i (by simp)), ih (fun j hj => h j (by simp [hj]))]
    simp [bind, Except.bind, pure, Except.pure, List.getElem?_eq_getElem (h i (by simp))]

theorem argsort_lt {σ : Type} [LinearOrder σ] {order : List ℕ} {scores : List σ} (h : IsArgsort order scores)
    {i : ℕ} (hi : i ∈ order) : i < scores.length := by
  have := h.1.mem_iff.1 hi
  simpa using this

theorem hits_ranked (order : List ℕ) (ms : List ℤ) :
    hits (order.map (fun i => ms.getD i 0)) = ranked order ms := by
  unfold hits ranked; rw [List.map_map]; rfl

@[simp] theorem length_ranked (order : List ℕ) (ms : List ℤ) : (ranked order ms).length = order.length := by
  simp [ranked]

theorem computeAucAp_eq {order : List ℕ} {ms : List ℤ} (nGt : ℕ) (h : ∀ i ∈ order, i < ms.length) :
    computeAucAp order ms nGt = .ok (ap (ranked order ms) nGt,
      (List.range order.length).map (bestFrom (ranked order ms)),
      (List.range order.length).map (fun k => (tp (ranked order ms) k : ℚ) / nGt)) := by
  unfold computeAucAp
  rw [gather_eq h]
  simp only [bind, Except.bind, pure, Except.pure]
  set s := order.map (fun i => ms.getD i 0) with hs
  have hsl : s.length = order.length := by simp [hs]
  have hrec : rawRecall s nGt = (List.range order.length).map (fun k => (tp (ranked order ms) k : ℚ) / nGt) := by
    apply ext_getD
    · rw [length_rawRecall, hsl]; simp
    · intro k hk
      rw [length_rawRecall] at hk
      rw [rawRecall_getD s nGt k hk, getD_map_range (by omega), hs, hits_ranked]
  by_cases h0 : 0 < s.length
  · rw [length_rawPrecision, if_pos h0]
    have := auc_eq s nGt h0
    rw [length_rawPrecision] at this
    simp only at this
    rw [this.2, this.1, hrec, hs, hits_ranked]
    simp
  · have h00 : order = [] := by
      apply List.length_eq_zero_iff.1; omega
    rw [length_rawPrecision, if_neg (by simpa using h0)]
    subst h00
    simp [hs, rawPrecision, rawRecall, cumsum, cumsumFrom, ap, ranked]

theorem computePr_curve {order : List ℕ} {ms : List ℤ} (nGt : ℕ) (interp : Bool)
    (h : ∀ i ∈ order, i < ms.length) :
    computePr order ms nGt none interp = .ok (
      (List.range order.length).map (if interp then bestFrom (ranked order ms) else precAt (ranked order ms)),
      (List.range order.length).map (fun k => (tp (ranked order ms) k : ℚ) / nGt)) ∧
    ∀ samples, computePr order ms nGt (some samples) interp = .ok (
      samples.map (fun r =>
        let i := searchsortedLeft ((List.range order.length).map (fun k => (tp (ranked order ms) k : ℚ) / nGt)) r
        if i < order.length then
          (if interp then bestFrom (ranked order ms) else precAt (ranked order ms)) i else 0), samples) := by
  unfold computePr
  rw [gather_eq h]
  simp only [bind, Except.bind, pure, Except.pure]
  set s := order.map (fun i => ms.getD i 0) with hs
  have hsl : s.length = order.length := by simp [hs]
  have hrec : rawRecall s nGt = (List.range order.length).map (fun k => (tp (ranked order ms) k : ℚ) / nGt) := by
    apply ext_getD
    · rw [length_rawRecall, hsl]; simp
    · intro k hk
      rw [length_rawRecall] at hk
      rw [rawRecall_getD s nGt k hk, getD_map_range (by omega), hs, hits_ranked]
  have hprec : (if interp = true then
        (downIndices (rawPrecision s).length).foldl interpStep (rawPrecision s) else rawPrecision s) =
      (List.range order.length).map
        (if interp then bestFrom (ranked order ms) else precAt (ranked order ms)) := by
    cases interp with
    | false =>
      simp only [Bool.false_eq_true, if_false]
      apply ext_getD
      · rw [length_rawPrecision, hsl]; simp
      · intro k hk
        rw [length_rawPrecision] at hk
        rw [rawPrecision_getD s k hk, getD_map_range (by omega), hs, hits_ranked]
    | true =>
      simp only [if_true]
      by_cases h0 : 0 < s.length
      · obtain ⟨m, hm⟩ : ∃ m, s.length = m + 1 := ⟨s.length - 1, by omega⟩
        have hl := interpLoop (hits s) m (by simp [hm]) (rawPrecision s)
          (by rw [length_rawPrecision, length_hits]) (by
            have := start_inv s h0
            rw [hm, Nat.add_sub_cancel] at this
            exact this)
        rw [length_hits] at hl
        rw [length_rawPrecision, hm]
        apply ext_getD
        · rw [hl.1]; simp [hsl]
        · intro k hk
          rw [hl.1] at hk
          rw [hl.2 k hk, getD_map_range (by omega), hs, hits_ranked]
      · have h00 : order = [] := by
          apply List.length_eq_zero_iff.1; omega
        have : s = [] := by apply List.length_eq_zero_iff.1; omega
        rw [this, h00]
        rfl
  rw [hprec, hrec]
  refine ⟨rfl, ?_⟩
  intro samples
  congr 2
  apply List.map_congr_left
  intro r _
  simp only [List.length_map, List.length_range]
  split
  · rename_i hlt
    rw [getD_map_range hlt]
  · rfl

end ApSpec
end Sumo
