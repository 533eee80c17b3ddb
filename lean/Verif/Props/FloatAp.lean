import Verif.Lemmas.FloatApBound
import Verif.Props.Ap

/-!
# Properties of average precision in double precision (C134–C138)

`Fl.computeAp` models `compute_ap` with every operation rounded to a double, as the program computes it; `sum` is how numpy
adds up a vector.  The vectors have fewer than `2^53` entries.
-/

namespace Sumo
open ApSpec

variable {σ : Type} [LinearOrder σ]

/-- **C134**: what `compute_ap` returns, in double precision: the precision of a prefix is the quotient rounded to a double (the
epsilon only counts at the first rank), the curve has the best precision from each rank on, and average precision adds up, from
the last correct detection to the first, the product of best precision and gain in recall. -/
theorem C134_formula {order : List ℕ} {scores : List σ} (h : IsArgsort order scores) {ms : List ℤ}
    (hl : ms.length = scores.length) {nGt : ℕ} (hm : ms.length < 2 ^ 53) (hn : nGt ≤ 2 ^ 53) (sum : List ℚ → ℚ)
    (samples : Option (List ℚ)) (interp : Bool) :
    Fl.computeAp sum order ms nGt samples interp true = .ok (some (apDouble (ranked order ms) nGt),
      (List.range ms.length).map (bestOf (precDouble (ranked order ms)) ms.length),
      (List.range ms.length).map (fun k => double ((tp (ranked order ms) k : ℚ) / nGt))) := by
  have ho : order.length = ms.length := by rw [length_order h, hl]
  unfold Fl.computeAp
  rw [if_pos rfl, computeAucApD_eq (order_lt h hl) (by omega) hn, ho]
  rfl

/-- What a call of `compute_ap` (default arguments) returns, in double precision. -/
def apOfDouble (order : List ℕ) (ms : List ℤ) (nGt : ℕ) : Option ℚ :=
  match Fl.computeAp List.sum order ms nGt none false true with
  | .ok (a, _, _) => a
  | .error _ => none

theorem apOfDouble_eq {order : List ℕ} {scores : List σ} (h : IsArgsort order scores) {ms : List ℤ}
    (hl : ms.length = scores.length) {nGt : ℕ} (hm : ms.length < 2 ^ 53) (hn : nGt ≤ 2 ^ 53) :
    apOfDouble order ms nGt = some (apDouble (ranked order ms) nGt) := by
  unfold apOfDouble; rw [C134_formula h hl hm hn]

/-- On the example of `Verif.Props.Ap`: hits at ranks 0, 2, 3 of five, four elements to be found. -/
example : IsArgsort ApExample.order ApExample.scores ∧ apOfDouble ApExample.order ApExample.ms 4 = some (5 / 8) := by
  refine ⟨ApExample.argsort, ?_⟩
  decide +kernel

/-- **C134**: the returned curve: precision at rank `k` is the largest of the rounded quotients from there on, between 0 and 1
and not increasing; recall is not decreasing, at most 1 if there are no more hits than elements, and ends at TP / nGt rounded. -/
theorem C134_curve {order : List ℕ} {scores : List σ} (h : IsArgsort order scores) {ms : List ℤ}
    (hl : ms.length = scores.length) {nGt : ℕ} (hm : ms.length < 2 ^ 53) (hn : nGt ≤ 2 ^ 53) (hn0 : 0 < nGt) {sum : List ℚ → ℚ}
    {a : Option ℚ} {prec recall : List ℚ} (hc : Fl.computeAp sum order ms nGt none false true = .ok (a, prec, recall)) :
    prec.length = ms.length ∧ recall.length = ms.length ∧
    (∀ k p, prec[k]? = some p →
      IsGreatest { x : ℚ | ∃ j, k ≤ j ∧ j < ms.length ∧
        x = double ((((ranked order ms).take (j + 1)).count true : ℚ) / (if j = 0 then 1 + 1 / 2 ^ 52 else (j : ℚ) + 1)) } p) ∧
    prec.Pairwise (· ≥ ·) ∧ (∀ p ∈ prec, 0 ≤ p ∧ p ≤ 1) ∧ recall.Pairwise (· ≤ ·) ∧
    (nCorrect ms ≤ nGt → ∀ r ∈ recall, 0 ≤ r ∧ r ≤ 1) ∧
    (∀ r, recall.getLast? = some r → r = double ((nCorrect ms : ℚ) / nGt)) := by
  rw [C134_formula h hl hm hn] at hc
  simp only [Except.ok.injEq, Prod.mk.injEq] at hc
  obtain ⟨_, rfl, rfl⟩ := hc
  have hrl : (ranked order ms).length = ms.length := by rw [length_ranked, length_order h, hl]
  have hpe : ∀ j, precDouble (ranked order ms) j =
      double ((((ranked order ms).take (j + 1)).count true : ℚ) / (if j = 0 then 1 + 1 / 2 ^ 52 else (j : ℚ) + 1)) := by
    intro j
    rw [precDouble_eq]
    rfl
  refine ⟨by simp, by simp, ?_, ?_, ?_, ?_, ?_, ?_⟩
  · intro k p hp
    rw [List.getElem?_map, Option.map_eq_some_iff] at hp
    obtain ⟨k', hk', rfl⟩ := hp
    rw [List.getElem?_eq_some_iff] at hk'
    obtain ⟨hk, hk'⟩ := hk'
    rw [List.getElem_range] at hk'
    rw [List.length_range] at hk
    subst hk'
    constructor
    · obtain ⟨j, h1, h2, h3⟩ := bestOf_attained (precDouble (ranked order ms)) (precDouble_nonneg _) hk
      exact ⟨j, h1, h2, by rw [h3, hpe]⟩
    · rintro x ⟨j, h1, h2, rfl⟩
      rw [← hpe]
      exact le_bestOf _ h1 h2
  · rw [List.pairwise_map]
    exact List.pairwise_lt_range.imp (fun h => bestOf_antitone _ (le_of_lt h))
  · intro p hp
    obtain ⟨k, _, rfl⟩ := List.mem_map.1 hp
    exact ⟨bestOf_nonneg _ _ _, bestDouble_le_one _ _ _⟩
  · rw [List.pairwise_map]
    refine List.pairwise_lt_range.imp (fun {i j} h => double_mono ?_)
    apply div_le_div_of_nonneg_right _ (by positivity)
    exact_mod_cast tp_mono _ (le_of_lt h)
  · intro hle r hr
    obtain ⟨k, _, rfl⟩ := List.mem_map.1 hr
    refine ⟨double_nonneg (by positivity), double_le_one ?_⟩
    rw [div_le_one (by exact_mod_cast hn0)]
    rw [← ranked_count h hl] at hle
    exact_mod_cast (tp_le_count _ _).trans hle
  · intro r hr
    rw [List.getLast?_map, Option.map_eq_some_iff] at hr
    obtain ⟨k, hk, rfl⟩ := hr
    rw [List.getLast?_range] at hk
    split at hk
    · simp at hk
    · simp only [Option.some.injEq] at hk
      rw [← ranked_count h hl, tp_eq_count (by rw [hrl]; omega)]

example : ∃ a p r, Fl.computeAp List.sum ApExample.order ApExample.ms 4 none false true = .ok (a, p, r) ∧ p.length = 5 :=
  ⟨_, _, _, C134_formula ApExample.argsort rfl (by decide) (by decide) _ none false, by simp [ApExample.ms]⟩

/-! ### Range and accuracy -/

/-- **C135** is false: nine correct detections of nine elements get an average precision above 1 (and two of two get exactly 1,
although `epsilon` is meant to keep the denominators apart from the numerators). -/
theorem C135_false :
    IsArgsort [0, 1, 2, 3, 4, 5, 6, 7, 8] [9, 8, 7, 6, 5, 4, 3, 2, 1] ∧
    apOfDouble [0, 1, 2, 3, 4, 5, 6, 7, 8] [1, 1, 1, 1, 1, 1, 1, 1, 1] 9 = some (1 + 1 / 2 ^ 52) ∧
    apOfDouble [0, 1] [1, 1] 2 = some 1 := by
  refine ⟨by unfold IsArgsort; decide, by decide +kernel, by decide +kernel⟩

/-- **C136**: average precision as computed differs from the exact value of the formula by at most TP / 2^49. -/
theorem C136_accuracy {order : List ℕ} {scores : List σ} (h : IsArgsort order scores) {ms : List ℤ}
    (hl : ms.length = scores.length) {nGt : ℕ} (hm : ms.length < 2 ^ 53) (hn0 : 0 < nGt) (hn : nGt ≤ 2 ^ 48)
    (htp : nCorrect ms ≤ nGt) :
    ∃ a e, apOfDouble order ms nGt = some a ∧ apOf order ms nGt = some e ∧ |a - e| ≤ nCorrect ms / 2 ^ 49 := by
  refine ⟨_, _, apOfDouble_eq h hl hm (hn.trans (by norm_num)), apOf_eq h hl nGt, ?_⟩
  have hc := ranked_count h hl
  have := apDouble_near (r := ranked order ms) (nGt := nGt) (by omega) (by omega)
    (ap_lt_one hn0 (by omega)).le
  rwa [hc] at this

example : IsArgsort ApExample.order ApExample.scores ∧ nCorrect ApExample.ms = 3 ∧ 3 ≤ 4 :=
  ⟨ApExample.argsort, by decide, by decide⟩

/-- **C135**, what remains true: average precision as computed is not negative and exceeds 1 by less than TP / 2^49.
Missing: it can exceed 1. -/
theorem C135_range_partial {order : List ℕ} {scores : List σ} (h : IsArgsort order scores) {ms : List ℤ}
    (hl : ms.length = scores.length) {nGt : ℕ} (hm : ms.length < 2 ^ 53) (hn0 : 0 < nGt) (hn : nGt ≤ 2 ^ 48)
    (htp : nCorrect ms ≤ nGt) :
    ∃ a, apOfDouble order ms nGt = some a ∧ 0 ≤ a ∧ a < 1 + nCorrect ms / 2 ^ 49 := by
  refine ⟨_, apOfDouble_eq h hl hm (hn.trans (by norm_num)), apDouble_nonneg _ _, ?_⟩
  have hc := ranked_count h hl
  have h1 := ap_lt_one hn0 (r := ranked order ms) (by omega)
  have := abs_le.1 (apDouble_near (r := ranked order ms) (nGt := nGt) (by omega) (by omega) h1.le)
  rw [hc] at this
  linarith [this.2]

example : IsArgsort ApExample.order ApExample.scores ∧ nCorrect ApExample.ms = 3 ∧ 3 ≤ 4 ∧ 4 ≤ 2 ^ 48 :=
  ⟨ApExample.argsort, by decide, by decide, by decide⟩

/-! ### The sampled mean -/

theorem flSum_range {l : List ℚ} {s : ℚ} (h : Fl.FlSum l s) (h01 : ∀ x ∈ l, 0 ≤ x ∧ x ≤ 1) (hl : l.length ≤ 2 ^ 53) :
    0 ≤ s ∧ s ≤ l.length := by
  induction h with
  | nil => simp
  | one x => simpa using h01 x (by simp)
  | @add l k s t _ _ _ _ ih1 ih2 =>
    rw [List.length_append] at hl ⊢
    have h1 := ih1 (fun x hx => h01 x (by simp [hx])) (by omega)
    have h2 := ih2 (fun x hx => h01 x (by simp [hx])) (by omega)
    refine ⟨double_nonneg (by linarith), ?_⟩
    refine double_le ?_ (isDouble_nat hl)
    push_cast
    linarith
  | @perm l k s _ hp ih =>
    rw [← hp.length_eq] at hl ⊢
    exact ih (fun x hx => h01 x (hp.mem_iff.1 hx)) hl

/-- **C135** holds for `area_under_curve=False`: the mean of the (possibly sampled) precision is in `[0, 1]`, in whatever order
numpy adds. -/
theorem C135_sampled {order : List ℕ} {scores : List σ} (h : IsArgsort order scores) {ms : List ℤ}
    (hl : ms.length = scores.length) {nGt : ℕ} (hm : ms.length < 2 ^ 53) (hn : nGt ≤ 2 ^ 53) {sum : List ℚ → ℚ}
    (hsum : ∀ l, Fl.FlSum l (sum l)) (samples : Option (List ℚ)) (hs : ∀ l, samples = some l → l.length ≤ 2 ^ 53)
    (interp : Bool) :
    ∃ a p r, Fl.computeAp sum order ms nGt samples interp false = .ok (a, p, r) ∧
      (a = none ↔ p = []) ∧ ∀ x, a = some x → 0 ≤ x ∧ x ≤ 1 := by
  have ho : order.length = ms.length := by rw [length_order h, hl]
  have hmean : ∀ p : List ℚ, (∀ x ∈ p, 0 ≤ x ∧ x ≤ 1) → p.length ≤ 2 ^ 53 →
      (Fl.npMean sum p = none ↔ p = []) ∧ ∀ x, Fl.npMean sum p = some x → 0 ≤ x ∧ x ≤ 1 := by
    intro p hp hpl
    unfold Fl.npMean
    by_cases h0 : p.length = 0
    · simp [List.length_eq_zero_iff.1 h0]
    · have hne : p ≠ [] := fun e => h0 (by simp [e])
      rw [if_neg h0]
      refine ⟨by simp [hne], ?_⟩
      intro x hx
      simp only [Option.some.injEq] at hx
      subst hx
      have hpos : (0 : ℚ) < p.length := by exact_mod_cast Nat.pos_of_ne_zero h0
      obtain ⟨h1, h2⟩ := flSum_range (hsum p) hp hpl
      rw [double_nat hpl]
      refine ⟨double_nonneg (div_nonneg h1 hpos.le), double_le_one ?_⟩
      rw [div_le_one hpos]
      exact h2
  have hr : ∀ k, 0 ≤ (if interp then bestOf (precDouble (ranked order ms)) order.length else precDouble (ranked order ms)) k ∧
      (if interp then bestOf (precDouble (ranked order ms)) order.length else precDouble (ranked order ms)) k ≤ 1 := by
    intro k
    cases interp
    · exact ⟨precDouble_nonneg _ _, precDouble_le_one _ _⟩
    · exact ⟨bestOf_nonneg _ _ _, bestDouble_le_one _ _ _⟩
  unfold Fl.computeAp
  cases samples with
  | none =>
    rw [(computePrD_curve interp (order_lt h hl) (by omega) hn).1]
    refine ⟨_, _, _, rfl, hmean _ ?_ (by simp; omega)⟩
    intro x hx
    obtain ⟨k, _, rfl⟩ := List.mem_map.1 hx
    exact hr k
  | some samples =>
    rw [(computePrD_curve interp (order_lt h hl) (by omega) hn).2 samples]
    refine ⟨_, _, _, rfl, hmean _ ?_ (by simpa using hs samples rfl)⟩
    intro x hx
    obtain ⟨k, _, rfl⟩ := List.mem_map.1 hx
    simp only
    split
    · exact hr _
    · exact ⟨le_refl _, zero_le_one⟩

/-- Adding from left to right. -/
def leftSum : List ℚ → ℚ
  | [] => 0
  | x :: l => l.foldl (fun s y => double (s + y)) x

theorem leftSum_flSum (l : List ℚ) : Fl.FlSum l (leftSum l) := by
  cases l with
  | nil => exact .nil
  | cons x l =>
    show Fl.FlSum (x :: l) (l.foldl (fun s y => double (s + y)) x)
    induction l using List.reverseRecOn with
    | nil => exact .one x
    | append_singleton l y ih =>
      rw [List.foldl_append, ← List.cons_append]
      exact .add (by simp) (by simp) ih (.one y)

example : (∀ l, Fl.FlSum l (leftSum l)) ∧ IsArgsort ApExample.order ApExample.scores :=
  ⟨leftSum_flSum, ApExample.argsort⟩

/-! ### Changing the ranking -/

/-- **C137**, first half: listing an additional false positive anywhere, with any score, never increases average precision as
computed: rounding does not get in the way. -/
theorem C137_false_positive_never_helps {scores : List σ} {ms : List ℤ} (hl : ms.length = scores.length)
    {p : ℕ} (hp : p ≤ ms.length) (x : σ) {order' : List ℕ} (h' : IsArgsort order' (scores.insertIdx p x))
    {nGt : ℕ} (hm : ms.length + 1 < 2 ^ 53) (hn : nGt ≤ 2 ^ 53) :
    ∃ order a a', IsArgsort order scores ∧ apOfDouble order ms nGt = some a ∧
      apOfDouble order' (ms.insertIdx p 0) nGt = some a' ∧ a' ≤ a := by
  have hps : p ≤ scores.length := hl ▸ hp
  have hl' : (ms.insertIdx p 0).length = (scores.insertIdx p x).length := by
    rw [List.length_insertIdx_of_le_length hp, List.length_insertIdx_of_le_length hps, hl]
  obtain ⟨order, A, B, harg, h1, h2⟩ := argsort_insert hl hp x h'
  refine ⟨order, _, _, harg, apOfDouble_eq harg hl (by omega) hn,
    apOfDouble_eq h' hl' (by rw [List.length_insertIdx_of_le_length hp]; omega) hn, ?_⟩
  rw [h1, h2]
  exact apDouble_insert_false _ _ _

example : IsArgsort [2, 1, 0, 3] ([5, 7, 9, 1] : List ℕ) ∧ [5, 9, 1].insertIdx 1 7 = [5, 7, 9, 1] ∧
    apOfDouble [1, 0, 2] [1, 0, 1] 2 = some (6004799503160661 / 2 ^ 53) ∧
    apOfDouble [2, 1, 0, 3] [1, 0, 0, 1] 2 = some (1 / 2) := by
  refine ⟨by unfold IsArgsort; decide, by decide, by decide +kernel, by decide +kernel⟩

/-- **C137**, second half: appending any number of false positives scored below every true positive leaves average precision as
computed unchanged, to the last bit. -/
theorem C137_trailing_false_positives {scores extra : List σ} {ms : List ℤ} (hl : ms.length = scores.length)
    (hlow : ∀ (i : ℕ) (s : σ) (m : ℤ), scores[i]? = some s → ms[i]? = some m → m ≠ 0 → ∀ x ∈ extra, x < s)
    {order' : List ℕ} (h' : IsArgsort order' (scores ++ extra)) {nGt : ℕ} (hm : ms.length + extra.length < 2 ^ 53)
    (hn : nGt ≤ 2 ^ 53) :
    ∃ order, IsArgsort order scores ∧
      apOfDouble order' (ms ++ List.replicate extra.length 0) nGt = apOfDouble order ms nGt := by
  have hl' : (ms ++ List.replicate extra.length 0).length = (scores ++ extra).length := by simp [hl]
  obtain ⟨order, A, B, B', harg, e1, e2, h1, h2⟩ := argsort_append hl hlow h'
  refine ⟨order, harg, ?_⟩
  rw [apOfDouble_eq h' hl' (by simpa using hm) hn, apOfDouble_eq harg hl (by omega) hn, e1, e2, apDouble_append_false h1,
    apDouble_append_false h2]

/-- Two hits and a miss, then two false positives. -/
example : IsArgsort [2, 0, 1, 3, 4] ([7, 5, 9] ++ [3, 3]) ∧ IsArgsort [2, 0, 1] [7, 5, 9] ∧
    apOfDouble [2, 0, 1, 3, 4] ([1, 0, 1] ++ List.replicate 2 0) 3 = apOfDouble [2, 0, 1] [1, 0, 1] 3 := by
  refine ⟨by unfold IsArgsort; decide, by unfold IsArgsort; decide, by decide +kernel⟩

/-- One more hit raises exact average precision by at least `1 / ((length + 1) * nGt)`. -/
theorem ap_gap {r r' : List Bool} (hl : r.length = r'.length)
    (h : ∀ k, r.getD k false = true → r'.getD k false = true) {p : ℕ} (hp : p < r.length)
    (h1 : r.getD p false = false) (h2 : r'.getD p false = true) (nGt : ℕ) :
    ap r nGt + 1 / ((r.length + 1) * nGt) ≤ ap r' nGt := by
  have he := eps_pos
  have he1 : epsilon ≤ 1 := by unfold epsilon; norm_num
  have hone : 1 / ((r.length : ℚ) + 1) ≤ bestFrom r' p := by
    refine le_trans ?_ (le_bestFrom r' (le_refl p) (hl ▸ hp))
    unfold precAt
    have h3 : (1 : ℚ) ≤ tp r' p := by exact_mod_cast tp_pos h2
    have h4 : (p : ℚ) + 1 ≤ r.length := by exact_mod_cast hp
    exact div_le_div₀ (by positivity) h3 (by positivity) (by linarith)
  have hsum : ∑ k ∈ Finset.range r.length, (if r.getD k false then bestFrom r k else 0) + 1 / ((r.length : ℚ) + 1) ≤
      ∑ k ∈ Finset.range r.length, (if r'.getD k false then bestFrom r' k else 0) := by
    rw [← le_sub_iff_add_le', ← Finset.sum_sub_distrib]
    have hpt : ∀ k ∈ Finset.range r.length, 0 ≤ (if r'.getD k false then bestFrom r' k else 0) -
        (if r.getD k false then bestFrom r k else 0) := by
      intro k _
      rw [sub_nonneg]
      by_cases hk : r.getD k false = true
      · rw [if_pos hk, if_pos (h k hk)]; exact bestFrom_mono_of_le hl h k
      · rw [if_neg hk]
        split
        · exact bestFrom_nonneg _ _
        · exact le_refl _
    refine le_trans ?_ (Finset.single_le_sum hpt (Finset.mem_range.2 hp))
    rw [h1, h2]
    simpa using hone
  unfold ap
  rw [← hl]
  have : (1 : ℚ) / ((r.length + 1) * nGt) = 1 / (r.length + 1) / nGt := by rw [div_div]
  rw [this, ← add_div]
  exact div_le_div_of_nonneg_right hsum (by positivity)

/-- **C138**: turning a false positive into a true positive increases average precision as computed, as long as
`(length + 1) * nGt * (2 * TP + 1) < 2^49`. -/
theorem C138_fixing_a_detection {order : List ℕ} {scores : List σ} (h : IsArgsort order scores) {ms : List ℤ}
    (hl : ms.length = scores.length) {nGt : ℕ} (hn : 0 < nGt) {p : ℕ} (hp : ms[p]? = some 0) {v : ℤ}
    (hv : v ≠ 0) (htp : nCorrect ms < nGt) (hsize : (ms.length + 1) * nGt * (2 * nCorrect ms + 1) < 2 ^ 49) :
    ∃ a a', apOfDouble order ms nGt = some a ∧ apOfDouble order (ms.set p v) nGt = some a' ∧ a < a' := by
  have ho : order.length = ms.length := by rw [length_order h, hl]
  have hl' : (ms.set p v).length = scores.length := by simpa using hl
  obtain ⟨_, _, _, _, _, hcor⟩ := C13_fixing_a_detection h hl hn hp hv
  have hpl : p < ms.length := by rw [List.getElem?_eq_some_iff] at hp; exact hp.1
  have hbig : ms.length + 1 < 2 ^ 49 ∧ nGt < 2 ^ 49 := by
    have h1 := Nat.mul_le_mul (Nat.mul_le_mul (le_refl (ms.length + 1)) hn) (by omega : 1 ≤ 2 * nCorrect ms + 1)
    have h2 := Nat.mul_le_mul (Nat.mul_le_mul (by omega : 1 ≤ ms.length + 1) (le_refl nGt)) (by omega : 1 ≤ 2 * nCorrect ms + 1)
    simp only [Nat.succ_eq_add_one, zero_add, mul_one, one_mul] at h1 h2
    exact ⟨h1.trans_lt hsize, h2.trans_lt hsize⟩
  have hn48 : nGt ≤ 2 ^ 48 := by
    have : 2 * nGt ≤ (ms.length + 1) * nGt := Nat.mul_le_mul_right _ (by omega)
    have : (ms.length + 1) * nGt * 1 ≤ (ms.length + 1) * nGt * (2 * nCorrect ms + 1) := Nat.mul_le_mul_left _ (by omega)
    omega
  refine ⟨_, _, apOfDouble_eq h hl (by omega) (by omega), apOfDouble_eq h hl' (by simp; omega) (by omega), ?_⟩
  obtain ⟨h1, k, hkl, h2, h3⟩ := ranked_set h hl hp hv
  have hgap := ap_gap (r := ranked order ms) (r' := ranked order (ms.set p v)) (by simp) h1 (by simpa using hkl) h2 h3 nGt
  have c1 := ranked_count h hl
  have c2 := ranked_count h hl'
  have n1 := abs_le.1 (apDouble_near (r := ranked order ms) (nGt := nGt) (by omega) (by omega) (ap_lt_one hn (by omega)).le)
  have n2 := abs_le.1 (apDouble_near (r := ranked order (ms.set p v)) (nGt := nGt) (by omega) (by omega)
    (ap_lt_one hn (by omega)).le)
  rw [c1] at n1
  rw [c2, hcor] at n2
  rw [length_ranked, ho] at hgap
  have hq : ((ms.length : ℚ) + 1) * nGt * (2 * nCorrect ms + 1) < 2 ^ 49 := by exact_mod_cast hsize
  have hnq : (0 : ℚ) < nGt := by exact_mod_cast hn
  have hd : (0 : ℚ) < ((ms.length : ℚ) + 1) * nGt := by positivity
  have hlt : (2 * (nCorrect ms : ℚ) + 1) / 2 ^ 49 < 1 / (((ms.length : ℚ) + 1) * nGt) := by
    rw [div_lt_div_iff₀ (by norm_num) hd]
    linarith
  push_cast at n2
  have e1 : (2 * (nCorrect ms : ℚ) + 1) / 2 ^ 49 = nCorrect ms / 2 ^ 49 + (nCorrect ms + 1) / 2 ^ 49 := by ring
  linarith [n1.2, n2.1]

example : IsArgsort ApExample.order ApExample.scores ∧ ApExample.ms[1]? = some 0 ∧ nCorrect ApExample.ms < 4 ∧
    (ApExample.ms.length + 1) * 4 * (2 * nCorrect ApExample.ms + 1) < 2 ^ 49 :=
  ⟨ApExample.argsort, rfl, by decide, by decide⟩

end Sumo
