import Verif.Lemmas.ApOrder

/-!
# Properties of average precision (C09–C17)

`computeAp order ms nGt samples interp auc` models `compute_ap(det_matches=ms, det_scores=scores, ...)` where
`order` is what `np.argsort(-scores)` returned; the theorems hold for every `order` with
`IsArgsort order scores`, i.e. whatever the sort does with ties.
-/

namespace Sumo
open ApSpec

variable {σ : Type} [LinearOrder σ]

/-- Number of correct detections. -/
def nCorrect (ms : List ℤ) : ℕ := (ms.filter (fun m => decide (m ≠ 0))).length

/-! Concrete data: five detections with tied scores, three correct, four ground truth elements. -/
namespace ApExample
def ms : List ℤ := [1, 0, 1, 0, 2]
def scores : List ℕ := [5, 9, 9, 1, 3]
def order : List ℕ := [2, 1, 0, 4, 3]
theorem argsort : IsArgsort order scores := by unfold IsArgsort; decide
theorem distinct : IsArgsort [1, 2, 0] [3, 8, 5] ∧ [3, 8, 5].Nodup := by unfold IsArgsort; decide
end ApExample

theorem length_order {order : List ℕ} {scores : List σ} (h : IsArgsort order scores) :
    order.length = scores.length := by rw [h.1.length_eq, List.length_range]

theorem order_lt {order : List ℕ} {scores : List σ} (h : IsArgsort order scores) {ms : List ℤ}
    (hl : ms.length = scores.length) : ∀ i ∈ order, i < ms.length := by
  intro i hi; rw [hl]; exact argsort_lt h hi

theorem ranked_count {order : List ℕ} {scores : List σ} (h : IsArgsort order scores) {ms : List ℤ}
    (hl : ms.length = scores.length) : (ranked order ms).count true = nCorrect ms := by
  obtain ⟨L, h1, _, h3, h8⟩ := ranked_pairs h hl
  rw [h3]
  have h4 : (L.map Prod.fst).Perm ms := by
    have := h1.map Prod.fst
    rwa [List.map_fst_zip (by omega)] at this
  have h5 : L.map (fun p => decide (p.1 ≠ 0)) = (L.map Prod.fst).map (fun m => decide (m ≠ 0)) := by
    rw [List.map_map]; rfl
  have h6 := (h4.map (fun m => decide (m ≠ 0))).count_eq true
  rw [h5, h6]
  unfold nCorrect
  clear h h1 h3 h4 h5 h6 h8 hl
  induction ms with
  | nil => rfl
  | cons m ms ih =>
    by_cases hm : m = 0
    · subst hm; simpa using ih
    · simp only [List.map_cons, List.count_cons, List.filter_cons, hm, ne_eq, not_false_iff, decide_true,
        if_true, List.length_cons]
      rw [← ih]; simp

/-- **C10**: `compute_ap` is the interpolated area formula, and the returned curve is the best precision at or
after each rank with the recalls of the ranking. -/
theorem C10_ap_formula {order : List ℕ} {scores : List σ} (h : IsArgsort order scores) {ms : List ℤ}
    (hl : ms.length = scores.length) (nGt : ℕ) (samples : Option (List ℚ)) (interp : Bool) :
    computeAp order ms nGt samples interp true = .ok (some (ap (ranked order ms) nGt),
      (List.range ms.length).map (bestFrom (ranked order ms)),
      (List.range ms.length).map (fun k => (tp (ranked order ms) k : ℚ) / nGt)) := by
  unfold computeAp
  rw [computeAucAp_eq nGt (order_lt h hl), length_order h, hl]
  rfl

/-- The formula on the example: hits at ranks 0, 2, 3 of [hit, miss, hit, hit, miss]. -/
example : ranked ApExample.order ApExample.ms = [true, false, true, true, false] := by decide
example : IsArgsort ApExample.order ApExample.scores ∧ ApExample.ms.length = ApExample.scores.length :=
  ⟨ApExample.argsort, rfl⟩

/-- What a call of `compute_ap` (default arguments) returns. -/
def apOf (order : List ℕ) (ms : List ℤ) (nGt : ℕ) : Option ℚ :=
  match computeAp order ms nGt none false true with
  | .ok (a, _, _) => a
  | .error _ => none

theorem apOf_eq {order : List ℕ} {scores : List σ} (h : IsArgsort order scores) {ms : List ℤ}
    (hl : ms.length = scores.length) (nGt : ℕ) : apOf order ms nGt = some (ap (ranked order ms) nGt) := by
  unfold apOf; rw [C10_ap_formula h hl]

theorem ap_nonneg (r : List Bool) (nGt : ℕ) : 0 ≤ ap r nGt := by
  unfold ap
  apply div_nonneg _ (by positivity)
  apply Finset.sum_nonneg
  intro k _
  split
  · exact bestFrom_nonneg _ _
  · exact le_refl _

theorem sum_hits (r : List Bool) : ∑ k ∈ Finset.range r.length, (if r.getD k false then (1 : ℚ) else 0) =
    r.count true := by
  induction r with
  | nil => simp
  | cons b r ih =>
    rw [List.length_cons, Finset.sum_range_succ']
    simp only [List.getD_cons_succ, List.getD_cons_zero, ih, List.count_cons]
    cases b <;> simp

theorem ap_lt_one {r : List Bool} {nGt : ℕ} (hn : 0 < nGt) (h : r.count true ≤ nGt) : ap r nGt < 1 := by
  unfold ap
  have hn' : (0 : ℚ) < nGt := by exact_mod_cast hn
  rw [div_lt_one hn']
  by_cases h0 : r.count true = 0
  · refine lt_of_le_of_lt (le_of_eq ?_) hn'
    apply Finset.sum_eq_zero
    intro k _
    have : r.getD k false = false := by
      apply getD_false_of_all
      intro b hb
      cases b
      · rfl
      · exact absurd hb (List.count_eq_zero.1 h0)
    rw [this]; simp
  · have hle : (r.count true : ℚ) ≤ nGt := by exact_mod_cast h
    refine lt_of_lt_of_le ?_ hle
    rw [← sum_hits]
    apply Finset.sum_lt_sum
    · intro k _
      split
      · exact le_of_lt (bestFrom_lt _ _)
      · exact le_refl _
    · obtain ⟨i, hi⟩ := List.mem_iff_getElem?.1 (List.count_pos_iff.1 (Nat.pos_of_ne_zero h0))
      have hil : i < r.length := by
        rw [List.getElem?_eq_some_iff] at hi; exact hi.1
      refine ⟨i, Finset.mem_range.2 hil, ?_⟩
      have : r.getD i false = true := by rw [List.getD_eq_getElem?_getD, hi]; rfl
      rw [this]
      simp only [if_true]
      exact bestFrom_lt _ _

/-- **C09**: average precision lies in `[0, 1)` when there are at most `nGt` correct detections, and calling
`compute_ap` never raises. -/
theorem C09_ap_range {order : List ℕ} {scores : List σ} (h : IsArgsort order scores) {ms : List ℤ}
    (hl : ms.length = scores.length) {nGt : ℕ} (hn : 0 < nGt) (htp : nCorrect ms ≤ nGt)
    (samples : Option (List ℚ)) (interp : Bool) :
    ∃ a p r, computeAp order ms nGt samples interp true = .ok (some a, p, r) ∧ 0 ≤ a ∧ a < 1 := by
  refine ⟨_, _, _, C10_ap_formula h hl nGt samples interp, ap_nonneg _ _, ap_lt_one hn ?_⟩
  rw [ranked_count h hl]; exact htp

example : IsArgsort ApExample.order ApExample.scores ∧ nCorrect ApExample.ms = 3 ∧ 3 ≤ 4 :=
  ⟨ApExample.argsort, by decide, by decide⟩

/-- **C09** for `area_under_curve=False`: the mean of the (possibly sampled) precision is in `[0, 1)` too; it
is NaN (`none`) exactly when there is nothing to average. -/
theorem C09_sampled_ap_range {order : List ℕ} {scores : List σ} (h : IsArgsort order scores) {ms : List ℤ}
    (hl : ms.length = scores.length) (nGt : ℕ) (samples : Option (List ℚ)) (interp : Bool) :
    ∃ a p r, computeAp order ms nGt samples interp false = .ok (a, p, r) ∧
      (a = none ↔ p = []) ∧ ∀ x, a = some x → 0 ≤ x ∧ x < 1 := by
  have hmean : ∀ p : List ℚ, (∀ x ∈ p, 0 ≤ x ∧ x < 1) →
      (npMean p = none ↔ p = []) ∧ ∀ x, npMean p = some x → 0 ≤ x ∧ x < 1 := by
    intro p hp
    unfold npMean
    by_cases h0 : p.length = 0
    · simp [List.length_eq_zero_iff.1 h0]
    · have hne : p ≠ [] := fun e => h0 (by simp [e])
      rw [if_neg h0]
      refine ⟨by simp [hne], ?_⟩
      intro x hx
      simp only [Option.some.injEq] at hx
      subst hx
      have hpos : (0 : ℚ) < p.length := by exact_mod_cast Nat.pos_of_ne_zero h0
      refine ⟨div_nonneg (List.sum_nonneg (fun x hx => (hp x hx).1)) (le_of_lt hpos), ?_⟩
      rw [div_lt_one hpos]
      clear h0
      induction p with
      | nil => exact absurd rfl hne
      | cons y p ih =>
        rw [List.sum_cons, List.length_cons]
        have hy := (hp y (by simp)).2
        by_cases hp0 : p = []
        · subst hp0; simpa using hy
        · have := ih (fun x hx => hp x (by simp [hx])) hp0 (by
            exact_mod_cast List.length_pos_iff.2 hp0)
          push_cast
          linarith
  have hr : ∀ k, 0 ≤ (if interp then bestFrom (ranked order ms) else precAt (ranked order ms)) k ∧
      (if interp then bestFrom (ranked order ms) else precAt (ranked order ms)) k < 1 := by
    intro k
    cases interp
    · exact ⟨precAt_nonneg _ _, precAt_lt_one _ _⟩
    · exact ⟨bestFrom_nonneg _ _, bestFrom_lt _ _⟩
  unfold computeAp
  cases samples with
  | none =>
    rw [(computePr_curve nGt interp (order_lt h hl)).1]
    refine ⟨_, _, _, rfl, hmean _ ?_⟩
    intro x hx
    obtain ⟨k, _, rfl⟩ := List.mem_map.1 hx
    exact hr k
  | some samples =>
    rw [(computePr_curve nGt interp (order_lt h hl)).2 samples]
    refine ⟨_, _, _, rfl, hmean _ ?_⟩
    intro x hx
    obtain ⟨k, _, rfl⟩ := List.mem_map.1 hx
    simp only
    split
    · exact hr _
    · exact ⟨le_refl _, one_pos⟩

example : (npMean [] = none) ∧ npMean [1/2, 0] = some (1/4) := by
  constructor
  · rfl
  · unfold npMean; norm_num

/-- **C11**: the returned precision at rank `k` is the maximum of the raw precisions at ranks `≥ k`; precision
is non-increasing, recall is non-decreasing and ends at TP / nGt. -/
theorem C11_curve {order : List ℕ} {scores : List σ} (h : IsArgsort order scores) {ms : List ℤ}
    (hl : ms.length = scores.length) {nGt : ℕ} {a : Option ℚ} {prec recall : List ℚ}
    (hc : computeAp order ms nGt none false true = .ok (a, prec, recall)) :
    prec.length = ms.length ∧ recall.length = ms.length ∧
    (∀ k p, prec[k]? = some p →
      IsGreatest { x : ℚ | ∃ j, k ≤ j ∧ j < ms.length ∧
        x = (((ranked order ms).take (j + 1)).count true : ℚ) / ((j : ℚ) + 1 + epsilon) } p) ∧
    prec.Pairwise (· ≥ ·) ∧ recall.Pairwise (· ≤ ·) ∧
    (∀ r, recall.getLast? = some r → r = (nCorrect ms : ℚ) / nGt) := by
  rw [C10_ap_formula h hl] at hc
  simp only [Except.ok.injEq, Prod.mk.injEq] at hc
  obtain ⟨_, rfl, rfl⟩ := hc
  have hrl : (ranked order ms).length = ms.length := by rw [length_ranked, length_order h, hl]
  refine ⟨by simp, by simp, ?_, ?_, ?_, ?_⟩
  · intro k p hp
    rw [List.getElem?_map, Option.map_eq_some_iff] at hp
    obtain ⟨k', hk', rfl⟩ := hp
    rw [List.getElem?_eq_some_iff] at hk'
    obtain ⟨hk, hk'⟩ := hk'
    rw [List.getElem_range] at hk'
    rw [List.length_range] at hk
    subst hk'
    constructor
    · obtain ⟨j, h1, h2, h3⟩ := bestFrom_attained (ranked order ms) (by rw [hrl]; exact hk)
      exact ⟨j, h1, hrl ▸ h2, h3⟩
    · rintro x ⟨j, h1, h2, rfl⟩
      exact le_bestFrom (ranked order ms) h1 (hrl ▸ h2)
  · rw [List.pairwise_map]
    exact List.pairwise_lt_range.imp (fun h => bestFrom_antitone _ (le_of_lt h))
  · rw [List.pairwise_map]
    refine List.pairwise_lt_range.imp (fun {i j} h => ?_)
    apply div_le_div_of_nonneg_right _ (by positivity)
    exact_mod_cast tp_mono _ (le_of_lt h)
  · intro r hr
    rw [List.getLast?_map, Option.map_eq_some_iff] at hr
    obtain ⟨k, hk, rfl⟩ := hr
    rw [List.getLast?_range] at hk
    split at hk
    · simp at hk
    · simp only [Option.some.injEq] at hk
      rw [← ranked_count h hl, tp_eq_count (by rw [hrl]; omega)]

example : ∃ a p r, computeAp ApExample.order ApExample.ms 4 none false true = .ok (a, p, r) ∧ p.length = 5 :=
  ⟨_, _, _, C10_ap_formula ApExample.argsort rfl 4 none false, by simp [ApExample.ms]⟩

/-- **C15**: only the ranking of the scores matters: under a strictly increasing change of scores the possible
results of `compute_ap` (one per order the sort may choose) are the same, and they correspond order by order. -/
theorem C15_score_ranking {scores : List σ} {σ' : Type} [LinearOrder σ'] {f : σ → σ'}
    (hf : StrictMono f) (ms : List ℤ) (nGt : ℕ) (samples : Option (List ℚ)) (interp auc : Bool) :
    (∀ order, IsArgsort order (scores.map f) ↔ IsArgsort order scores) ∧
    { r | ∃ order, IsArgsort order (scores.map f) ∧ computeAp order ms nGt samples interp auc = r } =
    { r | ∃ order, IsArgsort order scores ∧ computeAp order ms nGt samples interp auc = r } ∧
    { r | ∃ order, IsArgsort order scores ∧ computeAp order ms nGt samples interp auc = r }.Nonempty := by
  have h : ∀ order, IsArgsort order (scores.map f) ↔ IsArgsort order scores := fun order => isArgsort_map hf
  refine ⟨h, ?_, ?_⟩
  · ext r; simp only [h]
  · obtain ⟨order, ho⟩ := exists_argsort scores
    exact ⟨_, order, ho, rfl⟩

example : StrictMono (fun n : ℕ => 2 * n + 3) ∧ IsArgsort ApExample.order ApExample.scores :=
  ⟨fun a b h => by simp only; omega, ApExample.argsort⟩

/-- **C14**: with distinct scores the listing order of the detections is irrelevant: average precision and the whole
curve agree for any permutation of the (match, score) pairs and any admissible sort results. -/
theorem C14_listing_order {order order' : List ℕ} {scores scores' : List σ} {ms ms' : List ℤ}
    (h : IsArgsort order scores) (h' : IsArgsort order' scores') (hl : ms.length = scores.length)
    (hl' : ms'.length = scores'.length) (hp : (ms.zip scores).Perm (ms'.zip scores')) (hd : scores.Nodup)
    (nGt : ℕ) (samples : Option (List ℚ)) (interp auc : Bool) :
    computeAp order ms nGt samples interp auc = computeAp order' ms' nGt samples interp auc := by
  obtain ⟨L, h1, h2, h3, _⟩ := ranked_pairs h hl
  obtain ⟨L', h1', h2', h3', _⟩ := ranked_pairs h' hl'
  have hnd : ((ms.zip scores).map Prod.snd).Nodup := by
    rw [List.map_snd_zip (by omega)]; exact hd
  have hLL : L = L' := sorted_unique h1 (h1'.trans hp.symm) h2 h2' hnd
  have hr : ranked order ms = ranked order' ms' := by rw [h3, h3', hLL]
  have hlen : order.length = order'.length := by
    have := congrArg List.length hr
    simpa using this
  unfold computeAp
  rw [computeAucAp_eq nGt (order_lt h hl), computeAucAp_eq nGt (order_lt h' hl'), hr, hlen]
  cases samples with
  | none =>
    rw [(computePr_curve nGt interp (order_lt h hl)).1, (computePr_curve nGt interp (order_lt h' hl')).1,
      hr, hlen]
  | some s =>
    rw [(computePr_curve nGt interp (order_lt h hl)).2, (computePr_curve nGt interp (order_lt h' hl')).2,
      hr, hlen]

example : IsArgsort [1, 2, 0] [3, 8, 5] ∧ IsArgsort [0, 1, 2] [8, 5, 3] ∧
    (([1, 0, 1] : List ℤ).zip [3, 8, 5]).Perm (([0, 1, 1] : List ℤ).zip [8, 5, 3]) ∧ [3, 8, 5].Nodup := by
  unfold IsArgsort; decide

/-- With tied scores AP does depend on what the unstable sort does: the distinctness hypothesis of C14 is
needed. Two detections with equal score, one correct. -/
theorem C14_ties_matter : IsArgsort [0, 1] [5, 5] ∧ IsArgsort [1, 0] [5, 5] ∧
    apOf [0, 1] [1, 0] 1 ≠ apOf [1, 0] [1, 0] 1 := by
  refine ⟨by unfold IsArgsort; decide, by unfold IsArgsort; decide, ?_⟩
  have h1 : IsArgsort [0, 1] [5, 5] := by unfold IsArgsort; decide
  have h2 : IsArgsort [1, 0] [5, 5] := by unfold IsArgsort; decide
  rw [apOf_eq h1 rfl, apOf_eq h2 rfl]
  decide +kernel

/-- Turning a miss into a hit changes the ranking at one place. -/
theorem ranked_set {order : List ℕ} {scores : List σ} (h : IsArgsort order scores) {ms : List ℤ}
    (hl : ms.length = scores.length) {p : ℕ} (hp : ms[p]? = some 0) {v : ℤ} (hv : v ≠ 0) :
    (∀ k, (ranked order ms).getD k false = true → (ranked order (ms.set p v)).getD k false = true) ∧
    ∃ k, k < order.length ∧ (ranked order ms).getD k false = false ∧ (ranked order (ms.set p v)).getD k false = true := by
  have hpl : p < ms.length := by rw [List.getElem?_eq_some_iff] at hp; exact hp.1
  have hpo : p ∈ order := h.1.mem_iff.2 (by simp; omega)
  obtain ⟨k, hk⟩ := List.mem_iff_getElem?.1 hpo
  have hkl : k < order.length := by rw [List.getElem?_eq_some_iff] at hk; exact hk.1
  refine ⟨?_, k, hkl, ?_, ?_⟩
  · intro i hi
    unfold ranked at hi ⊢
    rw [List.getD_eq_getElem?_getD, List.getElem?_map] at hi ⊢
    cases ho : order[i]? with
    | none => rw [ho] at hi; simp at hi
    | some j =>
      rw [ho] at hi
      simp only [Option.map_some, Option.getD_some, decide_eq_true_eq, List.getD_eq_getElem?_getD,
        List.getElem?_set] at hi ⊢
      by_cases hpj : p = j
      · subst hpj; simp [hpl, hv]
      · simpa [hpj] using hi
  · unfold ranked
    rw [List.getD_eq_getElem?_getD, List.getElem?_map, hk]
    simp [List.getD_eq_getElem?_getD, hp]
  · unfold ranked
    rw [List.getD_eq_getElem?_getD, List.getElem?_map, hk]
    simp [List.getD_eq_getElem?_getD, hpl, hv]

/-- **C13**: turning a false positive into a true positive strictly increases AP, and adds exactly `1 / nGt` to
the final recall `nCorrect / nGt`. -/
theorem C13_fixing_a_detection {order : List ℕ} {scores : List σ} (h : IsArgsort order scores) {ms : List ℤ}
    (hl : ms.length = scores.length) {nGt : ℕ} (hn : 0 < nGt) {p : ℕ} (hp : ms[p]? = some 0) {v : ℤ}
    (hv : v ≠ 0) : ∃ a a', apOf order ms nGt = some a ∧ apOf order (ms.set p v) nGt = some a' ∧ a < a' ∧
      nCorrect (ms.set p v) = nCorrect ms + 1 := by
  have hpl : p < ms.length := by rw [List.getElem?_eq_some_iff] at hp; exact hp.1
  refine ⟨_, _, apOf_eq h hl nGt, apOf_eq h (by simpa using hl) nGt, ?_, ?_⟩
  · obtain ⟨h1, k, hkl, h2, h3⟩ := ranked_set h hl hp hv
    exact ap_lt_of_lt (p := k) (by simp) h1 (by simpa using hkl) h2 h3 hn
  · clear h hl
    unfold nCorrect
    induction ms generalizing p with
    | nil => simp at hp
    | cons m ms ih =>
      cases p with
      | zero =>
        simp only [List.getElem?_cons_zero, Option.some.injEq] at hp
        subst hp
        simp [hv]
      | succ p =>
        have := ih (p := p) (by simpa using hp) (by simpa using hpl)
        simp only [List.set_cons_succ, List.filter_cons]
        split
        · rw [List.length_cons, List.length_cons, this]
        · exact this

example : IsArgsort ApExample.order ApExample.scores ∧ ApExample.ms[1]? = some 0 :=
  ⟨ApExample.argsort, rfl⟩

/-- Old index of the detection listed at `i` after inserting one at `p`. -/
def skip (p i : ℕ) : ℕ := if i < p then i else i - 1

/-- Deleting the detection that was inserted from a sort result gives a sort result of the shorter vectors. -/
theorem argsort_insert {scores : List σ} {ms : List ℤ} (hl : ms.length = scores.length)
    {p : ℕ} (hp : p ≤ ms.length) (x : σ) {order' : List ℕ} (h' : IsArgsort order' (scores.insertIdx p x)) :
    ∃ order A B, IsArgsort order scores ∧ ranked order' (ms.insertIdx p 0) = A ++ false :: B ∧ ranked order ms = A ++ B := by
  set ms' := ms.insertIdx p 0 with hms'
  set scores' := scores.insertIdx p x with hscores'
  have hps : p ≤ scores.length := hl ▸ hp
  have hl' : ms'.length = scores'.length := by
    rw [hms', hscores', List.length_insertIdx_of_le_length hp, List.length_insertIdx_of_le_length hps, hl]
  have hlen' : scores'.length = scores.length + 1 := by rw [hscores', List.length_insertIdx_of_le_length hps]
  have hpo : p ∈ order' := h'.1.mem_iff.2 (by simp; omega)
  obtain ⟨O1, O2, hO⟩ := List.append_of_mem hpo
  have hnd : order'.Nodup := h'.1.nodup_iff.2 List.nodup_range
  have hO12 : ∀ i ∈ O1 ++ O2, i ≠ p ∧ i < scores.length + 1 := by
    intro i hi
    constructor
    · rintro rfl
      rw [hO, List.nodup_middle, List.nodup_cons] at hnd
      exact hnd.1 hi
    · rw [← hlen']
      apply argsort_lt h'
      rw [hO]
      simp only [List.mem_append, List.mem_cons] at hi ⊢
      tauto
  have hget : ∀ {α : Type} (l : List α) (y : α) (i : ℕ), i ≠ p → (l.insertIdx p y)[i]? = l[skip p i]? := by
    intro α l y i hi
    unfold skip
    rcases lt_or_gt_of_ne hi with hlt | hgt
    · rw [if_pos hlt, List.getElem?_insertIdx_of_lt hlt]
    · rw [if_neg (by omega), List.getElem?_insertIdx_of_gt hgt]
  set order := (O1 ++ O2).map (skip p) with horder
  have harg : IsArgsort order scores := by
    constructor
    · -- permutation: nodup, same length, in range
      have hinj : ∀ i ∈ O1 ++ O2, ∀ j ∈ O1 ++ O2, skip p i = skip p j → i = j := by
        intro i hi j hj he
        have h1 := (hO12 i hi).1
        have h2 := (hO12 j hj).1
        unfold skip at he
        split at he <;> split at he <;> omega
      have hn2 : (O1 ++ O2).Nodup := by
        rw [hO, List.nodup_middle, List.nodup_cons] at hnd; exact hnd.2
      have hn3 : order.Nodup := List.Nodup.map_on hinj hn2
      have hlen : order.length = scores.length := by
        have := h'.1.length_eq
        rw [hO, List.length_range, hlen'] at this
        simp only [horder, List.length_map, List.length_append, List.length_cons] at this ⊢
        omega
      have hsub : order ⊆ List.range scores.length := by
        intro i hi
        obtain ⟨j, hj, rfl⟩ := List.mem_map.1 hi
        have := hO12 j hj
        rw [List.mem_range]
        unfold skip
        split <;> omega
      exact (List.subperm_of_subset hn3 hsub).perm_of_length_le (by simp [hlen])
    · have h2 := h'.2
      rw [hO] at h2
      have hs : ((O1 ++ O2).filterMap (fun i => scores'[i]?)).Pairwise (· ≥ ·) := by
        refine h2.sublist (List.Sublist.filterMap _ ?_)
        exact List.Sublist.append_left (List.sublist_cons_self _ _) _
      rw [horder, List.filterMap_map]
      have : (O1 ++ O2).filterMap ((fun i => scores[i]?) ∘ skip p) =
          (O1 ++ O2).filterMap (fun i => scores'[i]?) := by
        apply List.filterMap_congr
        intro i hi
        simp only [Function.comp]
        rw [hscores', hget _ _ _ (hO12 i hi).1]
      rw [this]; exact hs
  have hr : ∀ O, (∀ i ∈ O, i ∈ O1 ++ O2) → ranked O ms' = ranked (O.map (skip p)) ms := by
    intro O hsub
    unfold ranked
    rw [List.map_map]
    apply List.map_congr_left
    intro i hi
    simp only [Function.comp, List.getD_eq_getElem?_getD]
    rw [hms', hget _ _ _ (hO12 i (hsub i hi)).1]
  have h1 : ranked order' ms' = ranked (O1.map (skip p)) ms ++ false :: ranked (O2.map (skip p)) ms := by
    rw [← hr O1 (by intro i hi; simp [hi]), ← hr O2 (by intro i hi; simp [hi]), hO]
    unfold ranked
    rw [List.map_append, List.map_cons]
    congr 2
    rw [hms', List.getD_eq_getElem?_getD, List.getElem?_insertIdx_self, if_pos hp]
    simp
  have h2 : ranked order ms = ranked (O1.map (skip p)) ms ++ ranked (O2.map (skip p)) ms := by
    rw [horder]; unfold ranked; simp
  exact ⟨order, _, _, harg, h1, h2⟩

/-- **C12**, first half: listing an additional false positive anywhere, with any score, never increases AP: for every
sort result of the longer vectors, deleting the new detection from it gives an admissible sort result of
the old ones, with at least as large an AP. -/
theorem C12_false_positive_never_helps {scores : List σ} {ms : List ℤ} (hl : ms.length = scores.length)
    {p : ℕ} (hp : p ≤ ms.length) (x : σ) {order' : List ℕ} (h' : IsArgsort order' (scores.insertIdx p x))
    (nGt : ℕ) :
    ∃ order a a', IsArgsort order scores ∧ apOf order ms nGt = some a ∧
      apOf order' (ms.insertIdx p 0) nGt = some a' ∧ a' ≤ a := by
  have hps : p ≤ scores.length := hl ▸ hp
  have hl' : (ms.insertIdx p 0).length = (scores.insertIdx p x).length := by
    rw [List.length_insertIdx_of_le_length hp, List.length_insertIdx_of_le_length hps, hl]
  obtain ⟨order, A, B, harg, h1, h2⟩ := argsort_insert hl hp x h'
  refine ⟨order, _, _, harg, apOf_eq harg hl nGt, apOf_eq h' hl' nGt, ?_⟩
  rw [h1, h2]
  exact ap_insert_false _ _ _

example : IsArgsort [2, 1, 0, 3] ([5, 7, 9, 1] : List ℕ) ∧ [5, 9, 1].insertIdx 1 7 = [5, 7, 9, 1] ∧ ([1, 0, 1] : List ℤ).length = [5, 9, 1].length := by
  unfold IsArgsort; decide

/-- Splitting a ranking after its last hit. -/
theorem split_last_hit (r : List ℕ) (f : ℕ → Bool) : ∃ A B, r = A ++ B ∧ (∀ i ∈ B, f i = false) ∧
    ∀ i ∈ A, ∃ A1 A2 j, A = A1 ++ [j] ∧ f j = true ∧ A2 = A := by
  induction r using List.reverseRecOn with
  | nil => exact ⟨[], [], rfl, by simp, by simp⟩
  | append_singleton r x ih =>
    by_cases hx : f x = true
    · exact ⟨r ++ [x], [], by simp, by simp, fun i _ => ⟨r, _, x, rfl, hx, rfl⟩⟩
    · obtain ⟨A, B, h1, h2, h3⟩ := ih
      refine ⟨A, B ++ [x], by rw [h1, List.append_assoc], ?_, h3⟩
      intro i hi
      rcases List.mem_append.1 hi with hi | hi
      · exact h2 i hi
      · simp at hi; subst hi; simpa using hx

/-- Deleting detections scored below every true positive from a sort result only takes misses from the end of the ranking. -/
theorem argsort_append {scores extra : List σ} {ms : List ℤ} (hl : ms.length = scores.length)
    (hlow : ∀ (i : ℕ) (s : σ) (m : ℤ), scores[i]? = some s → ms[i]? = some m → m ≠ 0 → ∀ x ∈ extra, x < s)
    {order' : List ℕ} (h' : IsArgsort order' (scores ++ extra)) :
    ∃ order A B B', IsArgsort order scores ∧ ranked order' (ms ++ List.replicate extra.length 0) = A ++ B' ∧
      ranked order ms = A ++ B ∧ (∀ b ∈ B', b = false) ∧ ∀ b ∈ B, b = false := by
  set ms' := ms ++ List.replicate extra.length 0 with hms'
  have hl' : ms'.length = (scores ++ extra).length := by simp [hms', hl]
  set order := order'.filter (fun i => decide (i < scores.length)) with horder
  have harg : IsArgsort order scores := by
    constructor
    · have := h'.1.filter (fun i => decide (i < scores.length))
      refine this.trans (List.Perm.of_eq ?_)
      rw [List.length_append, List.range_add, List.filter_append]
      rw [List.filter_eq_self.2 (by simp), List.filter_eq_nil_iff.2 (by simp), List.append_nil]
    · have hs := h'.2.sublist (List.Sublist.filterMap (fun i => (scores ++ extra)[i]?)
        (List.filter_sublist (p := fun i => decide (i < scores.length)) (l := order')))
      have : order.filterMap (fun i => scores[i]?) = order.filterMap (fun i => (scores ++ extra)[i]?) := by
        apply List.filterMap_congr
        intro i hi
        rw [horder, List.mem_filter] at hi
        rw [List.getElem?_append_left (by simpa using hi.2)]
      rw [this]; exact hs
  obtain ⟨A, B, hAB, hB, hA⟩ := split_last_hit order' (fun i => decide (ms'.getD i 0 ≠ 0))
  have hAlt : ∀ i ∈ A, i < scores.length := by
    intro i hi
    obtain ⟨A1, _, j, hA1, hj, _⟩ := hA i hi
    have hjA : j ∈ A := by rw [hA1]; simp
    have hjo : j ∈ order' := by rw [hAB]; simp [hjA]
    have hio : i ∈ order' := by rw [hAB]; simp [hi]
    have hjlt : j < ms.length := by
      by_contra hge
      have : ms'.getD j 0 = 0 := by
        rw [hms', List.getD_eq_getElem?_getD, List.getElem?_append_right (by omega)]
        rw [List.getElem?_replicate]
        split <;> rfl
      simp only [this] at hj
      simp at hj
    by_contra hge
    -- i is an appended detection standing before the hit j
    have hil := argsort_lt h' hio
    rw [List.length_append] at hil
    have hij : i ≠ j := by omega
    have hiA1 : i ∈ A1 := by
      rw [hA1] at hi
      rcases List.mem_append.1 hi with h | h
      · exact h
      · simp at h; exact absurd h hij
    have hpw := h'.2
    rw [hAB, hA1] at hpw
    obtain ⟨xi, hxi⟩ : ∃ x, (scores ++ extra)[i]? = some x :=
      ⟨_, List.getElem?_eq_getElem (by simp; omega)⟩
    obtain ⟨xj, hxj⟩ : ∃ x, (scores ++ extra)[j]? = some x :=
      ⟨_, List.getElem?_eq_getElem (by simp; omega)⟩
    rw [List.filterMap_append, List.filterMap_append, List.pairwise_append, List.pairwise_append] at hpw
    have hge2 := hpw.1.2.2 xi (List.mem_filterMap.2 ⟨i, hiA1, hxi⟩) xj
      (List.mem_filterMap.2 ⟨j, by simp, hxj⟩)
    rw [List.getElem?_append_right (by omega)] at hxi
    rw [List.getElem?_append_left (by omega)] at hxj
    have hmj : ms[j]? = some ms[j] := List.getElem?_eq_getElem hjlt
    have hne : ms[j] ≠ 0 := by
      rw [decide_eq_true_eq, hms', List.getD_eq_getElem?_getD, List.getElem?_append_left hjlt, hmj] at hj
      simpa using hj
    exact absurd hge2 (not_le.2 (hlow j xj _ hxj hmj hne xi (List.mem_of_getElem? hxi)))
  have hr : ∀ i, i < scores.length → ms'.getD i 0 = ms.getD i 0 := by
    intro i hi
    rw [hms', List.getD_eq_getElem?_getD, List.getElem?_append_left (by omega),
      ← List.getD_eq_getElem?_getD]
  have e1 : ranked order' ms' = ranked A ms ++ ranked B ms' := by
    rw [hAB]
    unfold ranked
    rw [List.map_append]
    congr 1
    apply List.map_congr_left
    intro i hi
    rw [hr i (hAlt i hi)]
  have e2 : ranked order ms = ranked A ms ++ ranked (B.filter (fun i => decide (i < scores.length))) ms := by
    rw [horder, hAB, List.filter_append, List.filter_eq_self.2 (by
      intro i hi; simpa using hAlt i hi)]
    unfold ranked; rw [List.map_append]
  refine ⟨order, _, _, _, harg, e1, e2, ?_, ?_⟩
  · intro b hb
    unfold ranked at hb
    obtain ⟨i, hi, rfl⟩ := List.mem_map.1 hb
    exact hB i hi
  · intro b hb
    unfold ranked at hb
    obtain ⟨i, hi, rfl⟩ := List.mem_map.1 hb
    rw [List.mem_filter] at hi
    rw [← hr i (by simpa using hi.2)]
    exact hB i hi.1

/-- **C12**, second half: appending any number of false positives scored below every true positive leaves AP
unchanged. -/
theorem C12_trailing_false_positives {scores extra : List σ} {ms : List ℤ} (hl : ms.length = scores.length)
    (hlow : ∀ (i : ℕ) (s : σ) (m : ℤ), scores[i]? = some s → ms[i]? = some m → m ≠ 0 → ∀ x ∈ extra, x < s)
    {order' : List ℕ} (h' : IsArgsort order' (scores ++ extra)) (nGt : ℕ) :
    ∃ order, IsArgsort order scores ∧
      apOf order' (ms ++ List.replicate extra.length 0) nGt = apOf order ms nGt := by
  have hl' : (ms ++ List.replicate extra.length 0).length = (scores ++ extra).length := by simp [hl]
  obtain ⟨order, A, B, B', harg, e1, e2, h1, h2⟩ := argsort_append hl hlow h'
  refine ⟨order, harg, ?_⟩
  rw [apOf_eq h' hl', apOf_eq harg hl, e1, e2, ap_append_false h1, ap_append_false h2]

example : IsArgsort [2, 0, 1, 3, 4] ([7, 5, 9] ++ [3, 3]) ∧
    (∀ (i s : ℕ) (m : ℤ), ([7, 5, 9] : List ℕ)[i]? = some s → ([1, 0, 1] : List ℤ)[i]? = some m → m ≠ 0 →
      ∀ x ∈ [3, 3], x < s) := by
  refine ⟨by unfold IsArgsort; decide, ?_⟩
  intro i s m h1 h2 h3 x hx
  match i with
  | 0 => simp at h1 hx; omega
  | 1 => simp at h1 hx; omega
  | 2 => simp at h1 hx; omega
  | i + 3 => simp at h1

/-! ### Sampling (C16) -/

theorem searchsorted_spec {a : List ℚ} (ha : a.Pairwise (· ≤ ·)) (v : ℚ) :
    (∀ (j : ℕ) (x : ℚ), a[j]? = some x → (j < searchsortedLeft a v ↔ x < v)) ∧ searchsortedLeft a v ≤ a.length := by
  unfold searchsortedLeft
  refine ⟨?_, List.length_filter_le _ _⟩
  induction a with
  | nil => simp
  | cons y a ih =>
    rw [List.pairwise_cons] at ha
    intro j x hx
    by_cases hy : y < v
    · simp only [List.filter_cons, hy, decide_true, if_true, List.length_cons]
      cases j with
      | zero => simp at hx; subst hx; simp [hy]
      | succ j => rw [Nat.succ_lt_succ_iff]; exact ih ha.2 j x (by simpa using hx)
    · have hnil : (y :: a).filter (fun x => decide (x < v)) = [] := by
        rw [List.filter_eq_nil_iff]
        intro z hz
        rcases List.mem_cons.1 hz with rfl | hz
        · simpa using hy
        · have := ha.1 z hz
          simp only [decide_eq_true_eq, not_lt]
          exact le_trans (not_lt.1 hy) this
      rw [hnil]
      simp only [List.length_nil, Nat.not_lt_zero, false_iff, not_lt]
      have hxm := List.mem_of_getElem? hx
      rcases List.mem_cons.1 hxm with rfl | hz
      · exact not_lt.1 hy
      · exact le_trans (not_lt.1 hy) (ha.1 x hz)

/-- **C16**: with recall samples, `compute_pr` returns at each sample `r` the (interpolated) precision of the first
rank whose recall is at least `r`, and 0 if there is none, i.e. if the final recall is below `r`.  (`curve`, `rec`
are what the same call returns without samples.) -/
theorem C16_sampled_precision {order : List ℕ} {scores : List σ} (h : IsArgsort order scores) {ms : List ℤ}
    (hl : ms.length = scores.length) (nGt : ℕ) (samples : List ℚ) (interp : Bool) :
    ∃ curve recall out : List ℚ, computePr order ms nGt none interp = .ok (curve, recall) ∧
      computePr order ms nGt (some samples) interp = .ok (out, samples) ∧ out.length = samples.length ∧
      ∀ (i : ℕ) (r p : ℚ), samples[i]? = some r → out[i]? = some p →
        (∃ k : ℕ, curve[k]? = some p ∧ (∃ x, recall[k]? = some x ∧ r ≤ x) ∧
          ∀ (j : ℕ) (x : ℚ), j < k → recall[j]? = some x → x < r) ∨
        (p = 0 ∧ ∀ x ∈ recall, x < r) := by
  have hc := computePr_curve nGt interp (order_lt h hl)
  refine ⟨_, _, _, hc.1, hc.2 samples, by simp, ?_⟩
  set rec := (List.range order.length).map (fun k => (tp (ranked order ms) k : ℚ) / nGt) with hrec
  have hmono : rec.Pairwise (· ≤ ·) := by
    rw [hrec, List.pairwise_map]
    refine List.pairwise_lt_range.imp (fun {i j} h => ?_)
    apply div_le_div_of_nonneg_right _ (by positivity)
    exact_mod_cast tp_mono _ (le_of_lt h)
  intro i r p hr hp
  have hss := searchsorted_spec hmono r
  rw [List.getElem?_map, hr] at hp
  simp only [Option.map_some, Option.some.injEq] at hp
  have hlen : rec.length = order.length := by simp [hrec]
  by_cases hlt : searchsortedLeft rec r < order.length
  · rw [if_pos hlt] at hp
    refine Or.inl ⟨searchsortedLeft rec r, ?_, ?_, ?_⟩
    · rw [List.getElem?_map, List.getElem?_range hlt]; simp [hp]
    · refine ⟨rec[searchsortedLeft rec r], List.getElem?_eq_getElem (by omega), ?_⟩
      have := (hss.1 _ _ (List.getElem?_eq_getElem (by omega : searchsortedLeft rec r < rec.length))).not
      simp only [lt_irrefl, not_false_iff, true_iff, not_lt] at this
      exact this
    · intro j x hj hx
      exact (hss.1 j x hx).1 hj
  · rw [if_neg hlt] at hp
    refine Or.inr ⟨hp.symm, ?_⟩
    intro x hx
    obtain ⟨j, hj⟩ := List.mem_iff_getElem?.1 hx
    refine (hss.1 j x hj).1 ?_
    have : j < rec.length := by rw [List.getElem?_eq_some_iff] at hj; exact hj.1
    omega

/-- **C16**, second half: interpolated sampled precision is non-increasing in the sample. -/
theorem C16_sampled_antitone {order : List ℕ} {scores : List σ} (h : IsArgsort order scores) {ms : List ℤ}
    (hl : ms.length = scores.length) (nGt : ℕ) (samples : List ℚ) {out : List ℚ}
    (hc : computePr order ms nGt (some samples) true = .ok (out, samples))
    {i j : ℕ} {ri rj pi pj : ℚ} (hi : samples[i]? = some ri) (hj : samples[j]? = some rj)
    (hpi : out[i]? = some pi) (hpj : out[j]? = some pj) (hij : ri ≤ rj) : pj ≤ pi := by
  rw [(computePr_curve nGt true (order_lt h hl)).2 samples] at hc
  simp only [Except.ok.injEq, Prod.mk.injEq, and_true] at hc
  subst hc
  rw [List.getElem?_map, hi] at hpi
  rw [List.getElem?_map, hj] at hpj
  simp only [Option.map_some, Option.some.injEq] at hpi hpj
  set rec := (List.range order.length).map (fun k => (tp (ranked order ms) k : ℚ) / nGt) with hrec
  have hss : searchsortedLeft rec ri ≤ searchsortedLeft rec rj := by
    unfold searchsortedLeft
    apply List.Sublist.length_le
    apply List.monotone_filter_right
    intro x hx
    simp only [decide_eq_true_eq] at hx ⊢
    exact lt_of_lt_of_le hx hij
  by_cases h1 : searchsortedLeft rec rj < order.length
  · rw [if_pos h1] at hpj
    rw [if_pos (by omega)] at hpi
    rw [← hpi, ← hpj]
    exact bestFrom_antitone _ hss
  · rw [if_neg h1] at hpj
    rw [← hpj, ← hpi]
    split
    · exact bestFrom_nonneg _ _
    · exact le_refl _

example : IsArgsort ApExample.order ApExample.scores ∧ ([1/10, 1/2, 9/10] : List ℚ)[1]? = some (1/2) :=
  ⟨ApExample.argsort, rfl⟩

/-! ### Special rankings (C17) -/

theorem tp_replicate (n k : ℕ) (hk : k < n) : tp (List.replicate n true) k = k + 1 := by
  unfold tp
  rw [List.take_replicate, List.count_replicate_self]
  omega

theorem ap_replicate (n nGt : ℕ) : ap (List.replicate n true) nGt =
    ((n : ℚ) / nGt) * ((n : ℚ) / ((n : ℚ) + epsilon)) := by
  have he := eps_pos
  have hbest : ∀ k, k < n → bestFrom (List.replicate n true) k = (n : ℚ) / ((n : ℚ) + epsilon) := by
    intro k hk
    have hlast : precAt (List.replicate n true) (n - 1) = (n : ℚ) / ((n : ℚ) + epsilon) := by
      unfold precAt
      rw [tp_replicate n (n - 1) (by omega)]
      have : ((n - 1 : ℕ) : ℚ) = (n : ℚ) - 1 := by
        rw [Nat.cast_sub (by omega)]; simp
      push_cast
      rw [this]; ring_nf
    apply le_antisymm
    · apply bestFrom_le _ (by positivity)
      intro j hkj hj
      rw [List.length_replicate] at hj
      unfold precAt
      rw [tp_replicate n j hj]
      have hjn : (j : ℚ) + 1 ≤ n := by exact_mod_cast hj
      push_cast
      rw [div_le_div_iff₀ (by positivity) (by positivity)]
      nlinarith
    · rw [← hlast]
      exact le_bestFrom _ (by omega) (by simp; omega)
  unfold ap
  rw [List.length_replicate, Finset.sum_congr rfl (g := fun _ => (n : ℚ) / ((n : ℚ) + epsilon))]
  · rw [Finset.sum_const, Finset.card_range, nsmul_eq_mul]; ring
  · intro k hk
    rw [Finset.mem_range] at hk
    have : (List.replicate n true).getD k false = true := by
      simp [List.getD_eq_getElem?_getD, hk]
    rw [this, if_pos rfl, hbest k hk]

/-- If every true positive outscores every false positive, the ranking lists the hits first. -/
theorem ranked_hits_first {order : List ℕ} {scores : List σ} (h : IsArgsort order scores) {ms : List ℤ}
    (hl : ms.length = scores.length)
    (hsep : ∀ p ∈ ms.zip scores, ∀ q ∈ ms.zip scores, p.1 ≠ 0 → q.1 = 0 → q.2 < p.2) :
    ∃ F, ranked order ms = List.replicate (nCorrect ms) true ++ List.replicate F false := by
  obtain ⟨L, h1, h2, h3, _⟩ := ranked_pairs h hl
  have hcount := ranked_count h hl
  have key : ∀ l : List Bool, l.Pairwise (fun a b => b = true → a = true) →
      ∃ F, l = List.replicate (l.count true) true ++ List.replicate F false := by
    intro l
    induction l with
    | nil => intro _; exact ⟨0, rfl⟩
    | cons b l ih =>
      intro hp
      rw [List.pairwise_cons] at hp
      obtain ⟨F, hF⟩ := ih hp.2
      cases b with
      | true =>
        refine ⟨F, ?_⟩
        rw [List.count_cons_self, List.replicate_succ, List.cons_append, ← hF]
      | false =>
        have : l.count true = 0 := by
          rw [List.count_eq_zero]
          intro hm
          exact absurd (hp.1 _ hm rfl) (by simp)
        refine ⟨F + 1, ?_⟩
        rw [this] at hF
        have h0 : (false :: l).count true = 0 := by simp [this]
        rw [h0, List.replicate_succ]
        simpa using hF
  rw [← hcount]
  apply key
  rw [h3, List.pairwise_map]
  have hmem : ∀ p ∈ L, p ∈ ms.zip scores := fun p hp => h1.mem_iff.1 hp
  refine (List.Pairwise.and_mem.1 h2).imp ?_
  rintro p q ⟨hp, hq, hpq⟩ hq1
  simp only [decide_eq_true_eq] at hq1 ⊢
  intro hp0
  exact absurd hpq (not_le.2 (hsep q (hmem q hq) p (hmem p hp) hq1 hp0))

/-- **C17**, exact value for rankings with all hits first (in particular without false positives). -/
theorem C17_hits_first {order : List ℕ} {scores : List σ} (h : IsArgsort order scores) {ms : List ℤ}
    (hl : ms.length = scores.length) (nGt : ℕ)
    (hsep : ∀ p ∈ ms.zip scores, ∀ q ∈ ms.zip scores, p.1 ≠ 0 → q.1 = 0 → q.2 < p.2) :
    ∃ a, apOf order ms nGt = some a ∧
      a = ((nCorrect ms : ℚ) / nGt) * ((nCorrect ms : ℚ) / ((nCorrect ms : ℚ) + epsilon)) ∧
      (nCorrect ms : ℚ) / nGt * (1 / (1 + epsilon)) ≤ a := by
  obtain ⟨F, hF⟩ := ranked_hits_first h hl hsep
  have he := eps_pos
  refine ⟨_, apOf_eq h hl nGt, ?_, ?_⟩
  · rw [hF, ap_append_false (by intro b hb; exact List.eq_of_mem_replicate hb), ap_replicate]
  · rw [hF, ap_append_false (by intro b hb; exact List.eq_of_mem_replicate hb), ap_replicate]
    by_cases h0 : nCorrect ms = 0
    · simp [h0]
    · apply mul_le_mul_of_nonneg_left _ (by positivity)
      have h1 : (1 : ℚ) ≤ nCorrect ms := by exact_mod_cast Nat.pos_of_ne_zero h0
      rw [div_le_div_iff₀ (by positivity) (by positivity)]
      nlinarith

example : IsArgsort [1, 2, 0] [3, 8, 5] ∧ ∀ p ∈ ([0, 1, 1] : List ℤ).zip [3, 8, 5],
    ∀ q ∈ ([0, 1, 1] : List ℤ).zip [3, 8, 5], p.1 ≠ 0 → q.1 = 0 → q.2 < p.2 := by
  unfold IsArgsort; decide

/-- **C17**: a perfect ranking has AP `nGt / (nGt + eps)`. -/
theorem C17_perfect {order : List ℕ} {scores : List σ} (h : IsArgsort order scores) {ms : List ℤ}
    (hl : ms.length = scores.length) (hall : ∀ m ∈ ms, m ≠ 0) (hne : ms ≠ []) :
    apOf order ms ms.length = some ((ms.length : ℚ) / ((ms.length : ℚ) + epsilon)) := by
  have hc : nCorrect ms = ms.length := by
    unfold nCorrect
    rw [List.filter_eq_self.2]
    intro m hm; simpa using hall m hm
  obtain ⟨a, ha, hav, _⟩ := C17_hits_first h hl ms.length (by
    intro p _ q hq _ h0
    exact absurd h0 (hall q.1 (List.of_mem_zip hq).1))
  rw [ha, hav, hc]
  have : (ms.length : ℚ) ≠ 0 := by
    have := List.length_pos_iff.2 hne
    positivity
  rw [div_self this, one_mul]

example : IsArgsort [1, 2, 0] [3, 8, 5] ∧ (∀ m ∈ ([1, 2, 1] : List ℤ), m ≠ 0) := by
  unfold IsArgsort; decide

/-- **C17**: without a correct detection (in particular with no detection at all) AP is 0. -/
theorem C17_no_hit {order : List ℕ} {scores : List σ} (h : IsArgsort order scores) {ms : List ℤ}
    (hl : ms.length = scores.length) (nGt : ℕ) (hall : ∀ m ∈ ms, m = 0) : apOf order ms nGt = some 0 := by
  rw [apOf_eq h hl]
  have hc : nCorrect ms = 0 := by
    unfold nCorrect
    rw [List.filter_eq_nil_iff.2]
    · rfl
    · intro m hm; simpa using hall m hm
  obtain ⟨a, ha, hav, _⟩ := C17_hits_first h hl nGt (by
    intro p hp q _ h0 _
    exact absurd (hall p.1 (List.of_mem_zip hp).1) h0)
  rw [← apOf_eq h hl, ha, hav, hc]
  simp

example : IsArgsort [1, 2, 0] [3, 8, 5] ∧ (∀ m ∈ ([0, 0, 0] : List ℤ), m = 0) := by
  unfold IsArgsort; decide

end Sumo
