import Verif.Lemmas.Ap
import Mathlib.Data.List.Sort
import Mathlib.Data.List.Perm.Basic
import Mathlib.Data.List.InsertIdx

/-! Comparing average precisions of different rankings. -/

namespace Sumo
namespace ApSpec
open Finset

theorem tp_eq_count {r : List Bool} {k : ℕ} (h : r.length ≤ k + 1) : tp r k = r.count true := by
  unfold tp; rw [List.take_of_length_le h]

theorem tp_append_left {A B : List Bool} {k : ℕ} (h : k < A.length) : tp (A ++ B) k = tp A k := by
  unfold tp; rw [List.take_append_of_le_length (by omega)]

theorem tp_append_right (A B : List Bool) (k : ℕ) : tp (A ++ B) (A.length + k) = A.count true + tp B k := by
  unfold tp
  rw [Nat.add_assoc, List.take_length_add_append, List.count_append]

theorem tp_mono (r : List Bool) {j k : ℕ} (h : j ≤ k) : tp r j ≤ tp r k := by
  unfold tp
  exact List.Sublist.count_le true (List.take_sublist_take_left (by omega))

theorem tp_le_count (r : List Bool) (k : ℕ) : tp r k ≤ r.count true := by
  unfold tp
  exact List.Sublist.count_le true (List.take_sublist _ _)

theorem precAt_congr {r r' : List Bool} {k : ℕ} (h : tp r k = tp r' k) : precAt r k = precAt r' k := by
  unfold precAt; rw [h]

theorem div_antitone {a b b' : ℚ} (ha : 0 ≤ a) (hb : 0 < b) (h : b ≤ b') : a / b' ≤ a / b :=
  div_le_div_of_nonneg_left ha hb h

theorem precAt_shift {r r' : List Bool} {k k' : ℕ} (h : tp r' k' ≤ tp r k) (hk : k ≤ k') :
    precAt r' k' ≤ precAt r k := by
  unfold precAt
  have := eps_pos
  have h1 : (tp r' k' : ℚ) ≤ tp r k := by exact_mod_cast h
  have h2 : (k : ℚ) ≤ k' := by exact_mod_cast hk
  calc (tp r' k' : ℚ) / ((k' : ℚ) + 1 + epsilon) ≤ (tp r' k' : ℚ) / ((k : ℚ) + 1 + epsilon) :=
        div_antitone (by positivity) (by positivity) (by linarith)
    _ ≤ (tp r k : ℚ) / ((k : ℚ) + 1 + epsilon) := by
        apply div_le_div_of_nonneg_right h1; positivity

theorem getD_append_left' {A B : List Bool} {k : ℕ} (h : k < A.length) :
    (A ++ B).getD k false = A.getD k false := by
  simp [List.getD_eq_getElem?_getD, List.getElem?_append_left h]

theorem getD_append_right' (A B : List Bool) (k : ℕ) :
    (A ++ B).getD (A.length + k) false = B.getD k false := by
  rw [List.getD_eq_getElem?_getD, List.getElem?_append_right (by omega), Nat.add_sub_cancel_left,
    List.getD_eq_getElem?_getD]

theorem ap_append (A B : List Bool) (nGt : ℕ) : ap (A ++ B) nGt =
    (∑ k ∈ range A.length, (if A.getD k false then bestFrom (A ++ B) k else 0) +
     ∑ k ∈ range B.length, (if B.getD k false then bestFrom (A ++ B) (A.length + k) else 0)) / nGt := by
  unfold ap
  rw [List.length_append, sum_range_add]
  congr 2
  · apply sum_congr rfl
    intro k hk
    rw [mem_range] at hk
    rw [getD_append_left' hk]
  · apply sum_congr rfl
    intro k _
    rw [getD_append_right']

theorem getD_false_of_all {B : List Bool} (h : ∀ b ∈ B, b = false) (k : ℕ) : B.getD k false = false := by
  rw [List.getD_eq_getElem?_getD]
  cases hk : B[k]? with
  | none => rfl
  | some b => rw [Option.getD_some]; exact h b (List.mem_of_getElem? hk)

theorem count_all_false {B : List Bool} (h : ∀ b ∈ B, b = false) : B.count true = 0 := by
  rw [List.count_eq_zero]
  intro hc
  exact absurd (h _ hc) (by simp)

/-- Trailing misses do not matter. -/
theorem ap_append_false {A B : List Bool} (h : ∀ b ∈ B, b = false) (nGt : ℕ) :
    ap (A ++ B) nGt = ap A nGt := by
  rw [ap_append]
  have h2 : ∑ k ∈ range B.length, (if B.getD k false then bestFrom (A ++ B) (A.length + k) else 0) = 0 := by
    apply sum_eq_zero
    intro k _
    rw [getD_false_of_all h]; simp
  rw [h2, add_zero]
  unfold ap
  congr 1
  apply sum_congr rfl
  intro k hk
  rw [mem_range] at hk
  congr 1
  apply le_antisymm
  · apply bestFrom_le _ (bestFrom_nonneg _ _)
    intro j hkj hj
    by_cases hjA : j < A.length
    · rw [precAt_congr (tp_append_left hjA)]; exact le_bestFrom _ hkj hjA
    · refine le_trans (precAt_shift (k := A.length - 1) (r := A) ?_ (by omega))
        (le_bestFrom _ (by omega) (by omega))
      obtain ⟨i, rfl⟩ : ∃ i, j = A.length + i := ⟨j - A.length, by omega⟩
      rw [tp_append_right, tp_eq_count (r := A) (by omega)]
      have := tp_le_count B i
      rw [count_all_false h] at this
      omega
  · apply bestFrom_le _ (bestFrom_nonneg _ _)
    intro j hkj hj
    rw [← precAt_congr (tp_append_left (B := B) hj)]
    exact le_bestFrom _ hkj (by simp; omega)

/-- Inserting a miss never helps. -/
theorem ap_insert_false (A B : List Bool) (nGt : ℕ) : ap (A ++ false :: B) nGt ≤ ap (A ++ B) nGt := by
  rw [ap_append, ap_append]
  apply div_le_div_of_nonneg_right _ (by positivity)
  have key : ∀ k k', (k < A.length ∧ k' = k) ∨ (A.length ≤ k ∧ k' = k + 1) →
      bestFrom (A ++ false :: B) k' ≤ bestFrom (A ++ B) k := by
    intro k k' hkk
    apply bestFrom_le _ (bestFrom_nonneg _ _)
    intro j hkj hj
    simp only [List.length_append, List.length_cons] at hj
    by_cases h1 : j < A.length
    · rw [precAt_congr (tp_append_left h1), ← precAt_congr (tp_append_left (B := B) h1)]
      exact le_bestFrom _ (by omega) (by simp; omega)
    · by_cases h2 : j = A.length
      · -- the inserted miss itself
        refine le_trans (precAt_shift (r := A ++ B) (k := A.length - 1) ?_ (by omega))
          (le_bestFrom _ (by omega) (by simp; omega))
        rw [h2, show A.length = A.length + 0 from rfl, tp_append_right, tp_append_left (by omega),
          tp_eq_count (r := A) (by omega)]
        simp [tp]
      · obtain ⟨i, rfl⟩ : ∃ i, j = A.length + (i + 1) := ⟨j - A.length - 1, by omega⟩
        refine le_trans (precAt_shift (r := A ++ B) (k := A.length + i) ?_ (by omega))
          (le_bestFrom _ (by omega) (by simp; omega))
        rw [tp_append_right, tp_append_right]
        simp [tp]
  apply add_le_add
  · apply sum_le_sum
    intro k hk
    rw [mem_range] at hk
    split
    · exact key k k (Or.inl ⟨hk, rfl⟩)
    · exact le_refl _
  · rw [List.length_cons, sum_range_succ']
    simp only [List.getD_cons_zero, Bool.false_eq_true, if_false, add_zero, List.getD_cons_succ]
    apply sum_le_sum
    intro k hk
    split
    · exact key (A.length + k) _ (Or.inr ⟨by omega, by omega⟩)
    · exact le_refl _

/-- More hits, better AP. -/
theorem tp_mono_of_le {r r' : List Bool} (hl : r.length = r'.length)
    (h : ∀ k, r.getD k false = true → r'.getD k false = true) (k : ℕ) : tp r k ≤ tp r' k := by
  unfold tp
  generalize k + 1 = n
  induction r generalizing r' n with
  | nil => simp
  | cons b r ih =>
    cases r' with
    | nil => simp at hl
    | cons b' r' =>
      cases n with
      | zero => simp
      | succ n =>
        simp only [List.take_succ_cons, List.count_cons]
        have h0 := h 0
        have := ih (r' := r') (by simpa using hl) (fun k => by simpa using h (k + 1)) n
        cases b <;> cases b' <;> simp_all
        omega

theorem bestFrom_mono_of_le {r r' : List Bool} (hl : r.length = r'.length)
    (h : ∀ k, r.getD k false = true → r'.getD k false = true) (k : ℕ) : bestFrom r k ≤ bestFrom r' k := by
  apply bestFrom_le _ (bestFrom_nonneg _ _)
  intro j hkj hj
  exact le_trans (precAt_shift (tp_mono_of_le hl h j) (le_refl _)) (le_bestFrom _ hkj (hl ▸ hj))

theorem ap_lt_of_lt {r r' : List Bool} (hl : r.length = r'.length)
    (h : ∀ k, r.getD k false = true → r'.getD k false = true) {p : ℕ} (hp : p < r.length)
    (h1 : r.getD p false = false) (h2 : r'.getD p false = true) {nGt : ℕ} (hn : 0 < nGt) :
    ap r nGt < ap r' nGt := by
  unfold ap
  apply div_lt_div_of_pos_right _ (by exact_mod_cast hn)
  rw [← hl]
  apply sum_lt_sum
  · intro k _
    by_cases hk : r.getD k false = true
    · rw [if_pos hk, if_pos (h k hk)]; exact bestFrom_mono_of_le hl h k
    · rw [if_neg hk]
      split
      · exact bestFrom_nonneg _ _
      · exact le_refl _
  · refine ⟨p, mem_range.2 hp, ?_⟩
    rw [h1, h2]
    simp only [Bool.false_eq_true, if_false, if_true]
    refine lt_of_lt_of_le ?_ (le_bestFrom r' (le_refl p) (hl ▸ hp))
    unfold precAt
    have he := eps_pos
    have : 0 < tp r' p := by
      unfold tp
      rw [List.count_pos_iff, List.mem_iff_getElem?]
      refine ⟨p, ?_⟩
      rw [List.getElem?_take]
      simp only [Nat.lt_succ_self, if_true]
      rw [List.getD_eq_getElem?_getD] at h2
      cases hq : r'[p]? with
      | none => rw [hq] at h2; simp at h2
      | some b => rw [hq] at h2; simp at h2; rw [h2]
    have : (0 : ℚ) < tp r' p := by exact_mod_cast this
    positivity

/-! ### Argsort -/

variable {σ : Type} [LinearOrder σ]

/-- The detections in ranking order. -/
theorem ranked_pairs {order : List ℕ} {ms : List ℤ} {scores : List σ} (h : IsArgsort order scores)
    (hl : ms.length = scores.length) :
    ∃ L : List (ℤ × σ), L.Perm (ms.zip scores) ∧ L.Pairwise (fun a b => a.2 ≥ b.2) ∧
      ranked order ms = L.map (fun p => decide (p.1 ≠ 0)) ∧
      L = order.filterMap (fun i => (ms.zip scores)[i]?) := by
  refine ⟨order.filterMap (fun i => (ms.zip scores)[i]?), ?_, ?_, ?_, rfl⟩
  · have := h.1.filterMap (fun i => (ms.zip scores)[i]?)
    refine this.trans ?_
    have hz : (ms.zip scores).length = scores.length := by simp [hl]
    rw [← hz]
    have : ∀ l : List (ℤ × σ), (List.range l.length).filterMap (fun i => l[i]?) = l := by
      intro l
      apply List.ext_getElem?
      intro i
      have : (List.range l.length).filterMap (fun i => l[i]?) = l := by
        induction l with
        | nil => rfl
        | cons a l ih =>
          rw [List.length_cons, List.range_succ_eq_map, List.filterMap_cons]
          simp only [List.getElem?_cons_zero, List.filterMap_map]
          congr 1
      rw [this]
    rw [this]
  · have h2 := h.2
    have heq : order.filterMap (fun i => scores[i]?) =
        (order.filterMap (fun i => (ms.zip scores)[i]?)).map Prod.snd := by
      rw [List.map_filterMap]
      apply List.filterMap_congr
      intro i hi
      have hi' := argsort_lt h hi
      rw [List.getElem?_eq_getElem hi', List.getElem?_eq_getElem (by simp [hl, hi'])]
      simp
    rw [heq, List.pairwise_map] at h2
    exact h2
  · unfold ranked
    rw [List.map_filterMap]
    symm
    rw [← List.filterMap_eq_map]
    apply List.filterMap_congr
    intro i hi
    have hi' := argsort_lt h hi
    rw [List.getElem?_eq_getElem (by simp [hl, hi'])]
    simp [List.getD_eq_getElem?_getD, List.getElem?_eq_getElem (show i < ms.length by omega)]

/-- Two decreasing arrangements of the same detections with distinct scores are equal. -/
theorem sorted_unique {L L' Z : List (ℤ × σ)} (h : L.Perm Z) (h' : L'.Perm Z)
    (hs : L.Pairwise (fun a b => a.2 ≥ b.2)) (hs' : L'.Pairwise (fun a b => a.2 ≥ b.2))
    (hd : (Z.map Prod.snd).Nodup) : L = L' := by
  have strict : ∀ {M : List (ℤ × σ)}, M.Perm Z → M.Pairwise (fun a b => a.2 ≥ b.2) →
      M.Pairwise (fun a b => a.2 > b.2) := by
    intro M hM hMs
    have hn : (M.map Prod.snd).Nodup := ((hM.map Prod.snd).nodup_iff).2 hd
    have hn' : M.Pairwise (fun a b => a.2 ≠ b.2) := by
      rw [List.Nodup, List.pairwise_map] at hn; exact hn
    exact (hMs.and hn').imp (fun h => lt_of_le_of_ne h.1 (Ne.symm h.2))
  refine List.Perm.eq_of_pairwise ?_ (strict h hs) (strict h' hs') (h.trans h'.symm)
  intro a b _ _ h1 h2
  exact absurd h1 (lt_asymm h2)

theorem isArgsort_map {order : List ℕ} {scores : List σ} {σ' : Type} [LinearOrder σ'] {f : σ → σ'}
    (hf : StrictMono f) : IsArgsort order (scores.map f) ↔ IsArgsort order scores := by
  unfold IsArgsort
  rw [List.length_map]
  have : order.filterMap (fun i => (scores.map f)[i]?) = (order.filterMap (fun i => scores[i]?)).map f := by
    rw [List.map_filterMap]
    apply List.filterMap_congr
    intro i _
    rw [List.getElem?_map]
  rw [this, List.pairwise_map]
  simp only [ge_iff_le, hf.le_iff_le]

/-- An admissible order exists. -/
theorem exists_argsort (scores : List σ) : ∃ order, IsArgsort order scores := by
  classical
  cases scores with
  | nil => exact ⟨[], by simp [IsArgsort]⟩
  | cons x xs =>
    set scores := x :: xs
    refine ⟨(List.range scores.length).insertionSort (fun i j => scores.getD i x ≥ scores.getD j x),
      List.perm_insertionSort _ _, ?_⟩
    have hs := @List.pairwise_insertionSort ℕ (fun i j => scores.getD i x ≥ scores.getD j x) _
      ⟨fun a b => le_total _ _⟩ ⟨fun a b c h1 h2 => le_trans h2 h1⟩ (List.range scores.length)
    rw [List.pairwise_filterMap]
    apply hs.imp
    intro i j hij b hb b' hb'
    rw [List.getD_eq_getElem?_getD, List.getD_eq_getElem?_getD, hb, hb'] at hij
    exact hij

end ApSpec
end Sumo
