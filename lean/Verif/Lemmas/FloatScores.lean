import Verif.Props.FloatAp
import Verif.Props.Scores

/-! Closed forms of the score loops in double precision, and the error of a mean. -/

namespace Sumo
open AssocSpec ApSpec

variable {ι σ τ P : Type} [DecidableEq ι] [LinearOrder σ] [LinearOrder τ]

/-- AP of a scene at one threshold, in double precision, from its association. -/
def apAtDouble (argsort : List σ → List ℕ) (els : List (Obj ι σ P)) (a : Dict ι (Corr ι σ τ)) (n : ℕ) : ℚ :=
  apDouble (ranked (argsort (detVectors els a).2) (detVectors els a).1) n

theorem length_detVectors_le (els : List (Obj ι σ P)) (a : Dict ι (Corr ι σ τ)) :
    (detVectors els a).1.length ≤ els.length := by
  rw [detVectors_eq]
  simpa using List.length_filterMap_le _ _

theorem computeApD_apAt {argsort : List σ → List ℕ} (hs : ∀ l, IsArgsort (argsort l) l)
    {els : List (Obj ι σ P)} (hl : els.length < 2 ^ 53) (a : Dict ι (Corr ι σ τ)) {n : ℕ} (hn : n ≤ 2 ^ 53)
    (sum : List ℚ → ℚ) (samples : Option (List ℚ)) (interp : Bool) :
    ∃ p r, Fl.computeAp sum (argsort (detVectors els a).2) (detVectors els a).1 n samples interp true =
      .ok (some (apAtDouble argsort els a n), p, r) :=
  ⟨_, _, C134_formula (hs _) (length_detVectors els a) ((length_detVectors_le els a).trans_lt hl) hn sum samples interp⟩

theorem npMeanNanD_some (sum : List ℚ → ℚ) (l : List ℚ) : Fl.npMeanNan sum (l.map some) = Fl.npMean sum l := by
  unfold Fl.npMeanNan; rw [mapM_id_some]; rfl

theorem shapeScoreD_eq {argsort : List σ → List ℕ} (hs : ∀ l, IsArgsort (argsort l) l)
    {sim : Obj ι σ P → Obj ι σ P → τ} {sub gt : Elements ι σ P} {s : AssocSettings τ}
    {ev : Evaluator ι σ τ P} (h : Evaluator.build sim sub gt s = .ok ev) (hsl : sub.values.length < 2 ^ 53)
    (hgl : nEvaluated gt.values ≤ 2 ^ 53) (sum : List ℚ → ℚ) (samples : List ℚ) :
    Fl.shapeScore sum argsort ev samples = .ok (if nEvaluated gt.values = 0 then none else
      Fl.npMean sum (ev.settings.thresholds.map
        (fun t => apAtDouble argsort sub.values (assocAt ev.agnostic t) (nEvaluated gt.values)))) := by
  obtain ⟨_, _, hsub, hgt, _, hset⟩ := build_ok h
  unfold Fl.shapeScore
  rw [hsub, hgt]
  dsimp only
  by_cases hn : nEvaluated gt.values = 0
  · rw [foldlM_append_ok (g := fun _ => []) _ (by
      intro t ht acc
      rw [agnostic_get h ((mem_settings h).1 ht)]
      unfold nEvaluated at hn
      simp [bind, Except.bind, pure, Except.pure, hn])]
    simp only [hn, if_true, bind, Except.bind, pure, Except.pure]
    rw [List.nil_append, List.flatMap_eq_nil_iff.2 (by simp)]; rfl
  · rw [foldlM_append_ok (g := fun t => [some (apAtDouble argsort sub.values (assocAt ev.agnostic t)
        (nEvaluated gt.values))]) _ (by
      intro t ht acc
      rw [agnostic_get h ((mem_settings h).1 ht)]
      obtain ⟨p, r, hc⟩ := computeApD_apAt hs hsl (assocAt ev.agnostic t) hgl sum (some samples) true
      have hn' : nEvaluated gt.values > 0 := Nat.pos_of_ne_zero hn
      unfold nEvaluated at hn' hc ⊢
      simp only [bind, Except.bind, hn', if_true, hc, pure, Except.pure])]
    simp only [hn, if_false, bind, Except.bind, pure, Except.pure, List.nil_append]
    rw [← npMeanNanD_some, List.map_map]
    congr 2
    exact (List.map_eq_flatMap).symm

/-- The loop of `semantics_score`, for any way to compute average precision. -/
theorem semantics_loop {argsort : List σ → List ℕ}
    {sim : Obj ι σ P → Obj ι σ P → τ} {sub gt : Elements ι σ P} {s : AssocSettings τ}
    {ev : Evaluator ι σ τ P} (h : Evaluator.build sim sub gt s = .ok ev)
    (hs : WellKeyed sub) (hg : WellKeyed gt) :
    (∀ cat, hasEvaluated gt cat = true ↔ nEvaluated (Dict.values (ofCategory gt cat)) ≠ 0) ∧
    ∃ (nd : Dict String ℕ) (A : τ → String → Dict ι (Corr ι σ τ)), nGtByCategory s.categories gt.values = .ok nd ∧
      (∀ t cat, matchAll (pruneCache t (makeSimCache sim (ofCategory sub cat) (ofCategory gt cat)))
        (Dict.values (ofCategory sub cat)) = .ok (A t cat)) ∧
      ∀ (cap : List ℕ → List ℤ → ℕ → Except PyErr (Option ℚ × List ℚ × List ℚ)) (f : τ → String → ℚ),
        (∀ t ∈ s.thresholds, ∀ cat ∈ s.categories, hasEvaluated gt cat = true → ∃ p r,
          cap (argsort (detVectors (Dict.values (ofCategory sub cat)) (A t cat)).2)
            (detVectors (Dict.values (ofCategory sub cat)) (A t cat)).1 (nEvaluated (Dict.values (ofCategory gt cat))) =
            .ok (some (f t cat), p, r)) →
        (npSort s.thresholds).foldlM (fun (aps : List (Option ℚ)) t => do
          let vs ← detVectorsByCategory ev t
          s.categories.foldlM (fun aps cat => do
            let n ← nd.get cat
            if n > 0 then do
              let v ← vs.get cat
              let r ← cap (argsort v.2) v.1 n
              pure (aps ++ [r.1])
            else pure aps) aps) [] = .ok (((npSort s.thresholds).flatMap
              (fun t => (s.categories.filter (hasEvaluated gt)).map (f t))).map some) := by
  have hex : ∀ t cat, ∃ ev', Evaluator.build sim (ofCategory sub cat) (ofCategory gt cat) ⟨[t], []⟩ = .ok ev' :=
    fun t cat => build_succeeds sim (wellKeyed_filter hs _) (wellKeyed_filter hg _) _
  choose E hE using hex
  have hset := (build_ok h).2.2.2.2.2
  have hsub : ev.submission = sub := (build_ok h).2.2.1
  have hnev : ∀ cat, nEvaluated (Dict.values (ofCategory gt cat)) =
      (gt.values.filter (fun e => decide (e.category = cat) && e.evaluated)).length := by
    intro cat
    unfold nEvaluated
    rw [values_ofCategory, List.filter_filter]
    congr 1
    apply List.filter_congr
    intro x _; exact Bool.and_comm _ _
  have hev : ∀ cat, hasEvaluated gt cat = true ↔ nEvaluated (Dict.values (ofCategory gt cat)) ≠ 0 := by
    intro cat
    rw [hnev, Ne, List.length_eq_zero_iff, List.filter_eq_nil_iff]
    unfold hasEvaluated
    rw [List.any_eq_true]
    push Not
    rfl
  obtain ⟨ev0, h0, hiff, hcat⟩ := C07_category_is_restriction sim hs hg s
  rw [h] at h0; simp at h0; subst h0
  obtain ⟨nd, hnd, hnget⟩ := nGt_get? (cats := s.categories) (gts := gt.values)
  refine ⟨hev, nd, fun t cat => assocAt (E t cat).agnostic t, hnd,
    fun t cat => matchAll_of_assocAt (hE t cat) (by simp), ?_⟩
  intro cap f hcap
  have htab : ∀ t ∈ s.thresholds, ∀ e ∈ sub.values, e.category ∈ s.categories →
      ∃ da, ev.category.get? e.category = some da ∧ da.get? t = some (assocAt (E t e.category).agnostic t) := by
    intro t ht e he hc
    obtain ⟨da, hda⟩ := (hiff e.category).2 ⟨hc, e, List.mem_append_left _ he, rfl⟩
    obtain ⟨ev1, h1, rfl⟩ := hcat _ _ hda []
    refine ⟨_, hda, ?_⟩
    have hC := (C05_threshold_independent h1 (hE t e.category) t).2 ht (by simp)
    rw [hC]
    have := agnostic_get (hE t e.category) (t := t) (by simp)
    exact Dict.get_eq_ok.1 this
  rw [foldlM_append_ok
      (g := fun t => (s.categories.filter (hasEvaluated gt)).map (fun cat => some (f t cat)))
      (npSort s.thresholds) (by
        intro t ht acc
        rw [mem_npSort] at ht
        obtain ⟨vs, hvs, hvget⟩ := detVectorsByCategory_get? (ev := ev) (t := t)
          (fun cat => assocAt (E t cat).agnostic t) (by
          rw [hsub, hset]; exact htab t ht)
        rw [hset] at hvget
        simp only [hvs, bind, Except.bind]
        refine Eq.trans (foldlM_append_ok (g := fun cat => if hasEvaluated gt cat = true then
          [some (f t cat)] else []) _ ?_ acc) ?_
        · intro cat hc acc
          have hn := hnget cat
          rw [if_pos hc, ← hnev] at hn
          simp only [Dict.get_eq_ok.2 hn, Dict.get_eq_ok.2 (hvget cat hc)]
          by_cases hh : hasEvaluated gt cat = true
          · rw [if_pos (Nat.pos_of_ne_zero ((hev cat).1 hh))]
            obtain ⟨p, r, hcomp⟩ := hcap t ht cat hc hh
            rw [values_ofCategory sub] at hcomp
            rw [hsub, hcomp]
            simp only [hh, if_true, pure, Except.pure]
          · have : nEvaluated (Dict.values (ofCategory gt cat)) = 0 := by
              by_contra h0; exact hh ((hev cat).2 h0)
            rw [this]
            simp [hh, pure, Except.pure]
        · congr 2
          clear hvget hcap hnget hnd htab hiff
          induction s.categories with
          | nil => rfl
          | cons c l ih =>
            rw [List.flatMap_cons, ih]
            by_cases hh : hasEvaluated gt c = true
            · simp [hh]
            · simp [hh]) []]
  rw [List.nil_append, List.map_flatMap]
  simp [List.map_map, Function.comp_def]

/-! ### Sums and means -/

theorem flSum_singleton {l : List ℚ} {s : ℚ} (h : Fl.FlSum l s) {x : ℚ} (hl : l = [x]) : s = x := by
  induction h with
  | nil => simp at hl
  | one y => simpa using hl
  | add h1 h2 _ _ _ _ =>
    exfalso
    have := congrArg List.length hl
    have := List.length_pos_iff.2 h1
    have := List.length_pos_iff.2 h2
    simp only [List.length_append, List.length_singleton] at *
    omega
  | perm _ hp ih =>
    subst hl
    exact ih (List.perm_singleton.1 hp)

theorem flSum_near {l : List ℚ} {s : ℚ} (h : Fl.FlSum l s) (h2 : ∀ x ∈ l, |x| ≤ 2) (hl : l.length ≤ 2 ^ 51) :
    |s - l.sum| ≤ 3 * (l.length : ℚ) ^ 2 / 2 ^ 53 - 3 * l.length / 2 ^ 53 ∧ |s| ≤ 3 * l.length := by
  induction h with
  | nil => simp
  | one x =>
    have := h2 x (by simp)
    simp only [List.sum_singleton, sub_self, abs_zero, List.length_singleton, Nat.cast_one]
    norm_num
    linarith
  | @add l k s t hl0 hk0 _ _ ih1 ih2 =>
    rw [List.length_append] at hl ⊢
    obtain ⟨a1, b1⟩ := ih1 (fun x hx => h2 x (by simp [hx])) (by omega)
    obtain ⟨a2, b2⟩ := ih2 (fun x hx => h2 x (by simp [hx])) (by omega)
    rw [List.sum_append]
    have hla : (1 : ℚ) ≤ l.length := by exact_mod_cast List.length_pos_iff.2 hl0
    have hlb : (1 : ℚ) ≤ k.length := by exact_mod_cast List.length_pos_iff.2 hk0
    have hsum : ∀ m : List ℚ, (∀ x ∈ m, |x| ≤ 2) → |m.sum| ≤ 2 * m.length := by
      intro m hm
      induction m with
      | nil => simp
      | cons x m ih =>
        rw [List.sum_cons, List.length_cons]
        have := abs_add_le x m.sum
        have := hm x (by simp)
        have := ih (fun y hy => hm y (by simp [hy]))
        push_cast
        linarith
    have hS := hsum (l ++ k) h2
    rw [List.sum_append, List.length_append] at hS
    have hq : ((l.length + k.length : ℕ) : ℚ) ≤ 2 ^ 51 := by exact_mod_cast hl
    push_cast at hS hq ⊢
    set a : ℚ := ((l.length : ℕ) : ℚ)
    set b : ℚ := ((k.length : ℕ) : ℚ)
    have hd := double_err (s + t)
    have hst : |s + t| ≤ 3 * (a + b) := (abs_add_le s t).trans (by linarith)
    have hd' : |s + t| / 2 ^ 53 ≤ 3 * (a + b) / 2 ^ 53 := by gcongr
    have key : |double (s + t) - (l.sum + k.sum)| ≤ 3 * (a + b) ^ 2 / 2 ^ 53 - 3 * (a + b) / 2 ^ 53 := by
      have e : double (s + t) - (l.sum + k.sum) = (double (s + t) - (s + t)) + ((s - l.sum) + (t - k.sum)) := by ring
      rw [e]
      refine (abs_add_le _ _).trans ((add_le_add (hd.trans hd') ((abs_add_le _ _).trans (add_le_add a1 a2))).trans ?_)
      have : (0 : ℚ) ≤ (a - 1) * (b - 1) := mul_nonneg (by linarith) (by linarith)
      have hab : a + b ≤ 2 * a * b := by nlinarith
      have e2 : 3 * (a + b) ^ 2 / 2 ^ 53 - 3 * (a + b) / 2 ^ 53 - (3 * (a + b) / 2 ^ 53 + ((3 * a ^ 2 / 2 ^ 53 - 3 * a / 2 ^ 53) +
          (3 * b ^ 2 / 2 ^ 53 - 3 * b / 2 ^ 53))) = 3 * (2 * a * b - (a + b)) / 2 ^ 53 := by ring
      have e3 : (0 : ℚ) ≤ 3 * (2 * a * b - (a + b)) / 2 ^ 53 := by
        apply div_nonneg _ (by norm_num)
        linarith
      linarith
    refine ⟨key, ?_⟩
    have hx : 3 * (a + b) ^ 2 / 2 ^ 53 ≤ a + b := by
      rw [div_le_iff₀ (by norm_num)]
      nlinarith
    have h0 : (0 : ℚ) ≤ 3 * (a + b) / 2 ^ 53 := by positivity
    have := abs_add_le (double (s + t) - (l.sum + k.sum)) (l.sum + k.sum)
    rw [sub_add_cancel] at this
    linarith
  | @perm l k s _ hp ih =>
    rw [← hp.length_eq] at hl ⊢
    rw [← hp.sum_eq]
    exact ih (fun x hx => h2 x (hp.mem_iff.1 hx)) hl

/-- The error of a mean: `f` computed, `g` exact. -/
theorem npMeanD_near {α : Type} {sum : List ℚ → ℚ} (hsum : ∀ l, Fl.FlSum l (sum l)) {l : List α} {f g : α → ℚ} {c : ℚ}
    (hc : c ≤ 1) (h : ∀ x ∈ l, |f x - g x| ≤ c) (h1 : ∀ x ∈ l, 0 ≤ g x ∧ g x ≤ 1) (hl : l ≠ []) (hlen : l.length ≤ 2 ^ 51) :
    ∃ x e, Fl.npMean sum (l.map f) = some x ∧ npMean (l.map g) = some e ∧ |x - e| ≤ c + (l.length + 1) / 2 ^ 51 := by
  have h0 : l.length ≠ 0 := by simpa using hl
  have hpos : (0 : ℚ) < l.length := by exact_mod_cast Nat.pos_of_ne_zero h0
  refine ⟨_, _, by unfold Fl.npMean; rw [if_neg (by simpa using hl)], by unfold npMean; rw [if_neg (by simpa using hl)], ?_⟩
  rw [List.length_map, List.length_map, double_nat (hlen.trans (by norm_num))]
  obtain ⟨a1, b1⟩ := flSum_near (hsum (l.map f)) (by
    intro y hy
    obtain ⟨x, hx, rfl⟩ := List.mem_map.1 hy
    have hh := abs_le.1 (h x hx)
    have := h1 x hx
    rw [abs_le]
    constructor <;> linarith) (by simpa using hlen)
  rw [List.length_map] at a1 b1
  have hfg : |(l.map f).sum - (l.map g).sum| ≤ c * l.length := by
    clear a1 b1 hpos h0 hl hlen h1
    induction l with
    | nil => simp
    | cons x l ih =>
      simp only [List.map_cons, List.sum_cons, List.length_cons]
      have e : f x + (l.map f).sum - (g x + (l.map g).sum) = (f x - g x) + ((l.map f).sum - (l.map g).sum) := by ring
      rw [e]
      have := abs_add_le (f x - g x) ((l.map f).sum - (l.map g).sum)
      have := h x (by simp)
      have := ih (fun y hy => h y (by simp [hy]))
      push_cast
      linarith
  set S := sum (l.map f)
  set n : ℚ := ((l.length : ℕ) : ℚ)
  have hd := double_err (S / n)
  have hSn : |S / n| ≤ 3 := by
    rw [abs_div, abs_of_pos hpos, div_le_iff₀ hpos]
    exact b1
  have hd' : |S / n| / 2 ^ 53 ≤ 3 / 2 ^ 53 := by gcongr
  have e : double (S / n) - (l.map g).sum / n = (double (S / n) - S / n) +
      ((S - (l.map f).sum) + ((l.map f).sum - (l.map g).sum)) / n := by ring
  rw [e]
  refine (abs_add_le _ _).trans ?_
  have h2 : |((S - (l.map f).sum) + ((l.map f).sum - (l.map g).sum)) / n| ≤ 3 * n / 2 ^ 53 + c := by
    rw [abs_div, abs_of_pos hpos, div_le_iff₀ hpos]
    refine (abs_add_le _ _).trans ((add_le_add a1 hfg).trans ?_)
    have : (0 : ℚ) ≤ 3 * n / 2 ^ 53 := by positivity
    have e : (3 * n / 2 ^ 53 + c) * n = 3 * n ^ 2 / 2 ^ 53 + c * n := by ring
    rw [e]
    linarith
  have e2 : (n + 1) / 2 ^ 51 = 3 * n / 2 ^ 53 + 3 / 2 ^ 53 + (n + 1) / 2 ^ 53 := by ring
  have : (0 : ℚ) ≤ (n + 1) / 2 ^ 53 := by positivity
  linarith

end Sumo
