import Verif.Lemmas.FloatScores

/-!
# Properties of the shape and semantics scores in double precision (C139)

`sum` is how numpy adds up a vector: any function that adds pairwise, in any order and grouping, rounding every time.
-/

set_option linter.unusedSectionVars false

namespace Sumo
open AssocSpec ApSpec

variable {ι σ τ P : Type} [DecidableEq ι] [LinearOrder σ] [LinearOrder τ]

theorem nEvaluated_le (els : List (Obj ι σ P)) : nEvaluated els ≤ els.length := List.length_filter_le _ _

theorem nEvaluated_pos {els : List (Obj ι σ P)} {g : Obj ι σ P} (hg : g ∈ els) (he : g.evaluated = true) :
    nEvaluated els ≠ 0 := by
  intro h0
  have : g ∈ els.filter (fun v => v.evaluated) := List.mem_filter.2 ⟨hg, he⟩
  rw [List.length_eq_zero_iff.1 h0] at this
  simp at this

theorem apAtDouble_near {argsort : List σ → List ℕ} (hs : ∀ l, IsArgsort (argsort l) l)
    {sim : Obj ι σ P → Obj ι σ P → τ} {t : τ} {sub gt : Elements ι σ P}
    (hd : DistinctIds sub.values) (hg : DistinctIds gt.values) {a : Dict ι (Corr ι σ τ)}
    (h : matchAll (pruneCache t (makeSimCache sim sub gt)) sub.values = .ok a)
    (hn : nEvaluated gt.values ≠ 0) (hn48 : nEvaluated gt.values ≤ 2 ^ 48) :
    |apAtDouble argsort sub.values a (nEvaluated gt.values) - apAt argsort sub.values a (nEvaluated gt.values)| ≤
      nEvaluated gt.values / 2 ^ 49 := by
  have hc : (ranked (argsort (detVectors sub.values a).2) (detVectors sub.values a).1).count true ≤ nEvaluated gt.values := by
    rw [ranked_count (hs _) (length_detVectors _ _)]
    exact nCorrect_le hd hg h
  refine (apDouble_near hc (hc.trans hn48) (ap_lt_one (Nat.pos_of_ne_zero hn) hc).le).trans ?_
  apply div_le_div_of_nonneg_right _ (by norm_num)
  exact_mod_cast hc

/-- **C139**: the shape score as computed differs from its exact value by at most `n / 2^49 + (k + 1) / 2^51`, for `n` evaluated
elements in the ground truth and `k` thresholds; it is NaN in the same cases, and never raises. -/
theorem C139_shape_accuracy {argsort : List σ → List ℕ} (hsort : ∀ l, IsArgsort (argsort l) l) {sum : List ℚ → ℚ}
    (hsum : ∀ l, Fl.FlSum l (sum l)) {sim : Obj ι σ P → Obj ι σ P → τ} {sub gt : Elements ι σ P} {s : AssocSettings τ}
    {ev : Evaluator ι σ τ P} (h : Evaluator.build sim sub gt s = .ok ev) (hs : WellKeyed sub) (hg : WellKeyed gt)
    (hsl : sub.values.length < 2 ^ 53) (hgl : gt.values.length ≤ 2 ^ 48) (ht : s.thresholds ≠ [])
    (htl : s.thresholds.length ≤ 2 ^ 51) (samples : List ℚ) :
    ((∃ g ∈ gt.values, g.evaluated = true) →
      ∃ x e, Fl.shapeScore sum argsort ev samples = .ok (some x) ∧ shapeScore argsort ev samples = .ok (some e) ∧
        |x - e| ≤ gt.values.length / 2 ^ 49 + (s.thresholds.length + 1) / 2 ^ 51) ∧
    ((∀ g ∈ gt.values, g.evaluated = false) → Fl.shapeScore sum argsort ev samples = .ok none) := by
  have hgl' := (nEvaluated_le gt.values).trans hgl
  rw [shapeScoreD_eq hsort h hsl (hgl'.trans (by norm_num)), shapeScore_eq hsort h]
  have hlen : ev.settings.thresholds.length = s.thresholds.length := by
    rw [(build_ok h).2.2.2.2.2]; exact List.length_insertionSort _ _
  constructor
  · rintro ⟨g, hgm, hge⟩
    have hn := nEvaluated_pos hgm hge
    rw [if_neg hn, if_neg hn]
    have hq : (nEvaluated gt.values : ℚ) / 2 ^ 49 ≤ gt.values.length / 2 ^ 49 := by
      apply div_le_div_of_nonneg_right _ (by norm_num)
      exact_mod_cast nEvaluated_le gt.values
    obtain ⟨x, e, h1, h2, h3⟩ := npMeanD_near hsum (l := ev.settings.thresholds) (c := nEvaluated gt.values / 2 ^ 49)
      (f := fun t => apAtDouble argsort sub.values (assocAt ev.agnostic t) (nEvaluated gt.values))
      (g := fun t => apAt argsort sub.values (assocAt ev.agnostic t) (nEvaluated gt.values))
      (by
        rw [div_le_one (by norm_num)]
        exact_mod_cast hgl'.trans (by norm_num))
      (fun t htm => apAtDouble_near hsort (distinctIds_of_wellKeyed hs) (distinctIds_of_wellKeyed hg)
        (matchAll_of_assocAt h ((mem_settings h).1 htm)) hn hgl')
      (fun t htm => by
        have := apAt_range hsort (distinctIds_of_wellKeyed hs) (distinctIds_of_wellKeyed hg)
          (matchAll_of_assocAt h ((mem_settings h).1 htm)) hn
        exact ⟨this.1, this.2.le⟩)
      (by
        obtain ⟨t, ht'⟩ := List.exists_mem_of_ne_nil _ ht
        exact List.ne_nil_of_mem ((mem_settings h).2 ht'))
      (by rw [hlen]; exact htl)
    rw [hlen] at h3
    exact ⟨x, e, by rw [h1], by rw [h2], by linarith⟩
  · intro hall
    have hn : nEvaluated gt.values = 0 := by
      unfold nEvaluated
      rw [List.length_eq_zero_iff, List.filter_eq_nil_iff]
      intro g hg; simp [hall g hg]
    rw [if_pos hn]

example : ∃ ev, Evaluator.build AssocExample.sim AssocExample.sub AssocExample.gt AssocExample.settings = .ok ev ∧
    WellKeyed AssocExample.sub ∧ WellKeyed AssocExample.gt ∧ (∃ g ∈ AssocExample.gt.values, g.evaluated = true) ∧
    (∀ l, Fl.FlSum l (leftSum l)) :=
  ⟨_, rfl, AssocExample.wk_sub, AssocExample.wk_gt, ⟨_, List.mem_cons_self, rfl⟩, leftSum_flSum⟩

/-- **C139**: the semantics score as computed differs from its exact value by at most `n / 2^49 + (k + 1) / 2^51`, for `n`
elements in the ground truth and `k` pairs of a threshold and a category; it is NaN in the same cases, and never raises. -/
theorem C139_semantics_accuracy {argsort : List σ → List ℕ} (hsort : ∀ l, IsArgsort (argsort l) l) {sum : List ℚ → ℚ}
    (hsum : ∀ l, Fl.FlSum l (sum l)) {sim : Obj ι σ P → Obj ι σ P → τ} {sub gt : Elements ι σ P} {s : AssocSettings τ}
    {ev : Evaluator ι σ τ P} (h : Evaluator.build sim sub gt s = .ok ev) (hs : WellKeyed sub) (hg : WellKeyed gt)
    (hsl : sub.values.length < 2 ^ 53) (hgl : gt.values.length ≤ 2 ^ 48)
    (htl : s.thresholds.length * s.categories.length ≤ 2 ^ 51) :
    (s.thresholds ≠ [] → (∃ cat ∈ s.categories, hasEvaluated gt cat = true) →
      ∃ x e, Fl.semanticsScore sum argsort ev = .ok (some x) ∧ semanticsScore argsort ev = .ok (some e) ∧
        |x - e| ≤ gt.values.length / 2 ^ 49 + (s.thresholds.length * s.categories.length + 1) / 2 ^ 51) ∧
    ((∀ cat ∈ s.categories, hasEvaluated gt cat = false) → Fl.semanticsScore sum argsort ev = .ok none) := by
  obtain ⟨hev, nd, A, hnd, hA, hloop⟩ := semantics_loop (argsort := argsort) h hs hg
  have hset := (build_ok h).2.2.2.2.2
  have hgt : ev.groundTruth = gt := (build_ok h).2.2.2.1
  have hcl : ∀ cat, (Dict.values (ofCategory sub cat)).length < 2 ^ 53 := by
    intro cat
    rw [values_ofCategory]
    exact (List.length_filter_le _ _).trans_lt hsl
  have hcg : ∀ cat, nEvaluated (Dict.values (ofCategory gt cat)) ≤ gt.values.length := by
    intro cat
    refine (nEvaluated_le _).trans ?_
    rw [values_ofCategory]
    exact List.length_filter_le _ _
  have e1 : semanticsScore argsort ev = .ok (npMean ((npSort s.thresholds).flatMap
      (fun t => (s.categories.filter (hasEvaluated gt)).map (fun cat => apAt argsort (Dict.values (ofCategory sub cat)) (A t cat)
        (nEvaluated (Dict.values (ofCategory gt cat))))))) := by
    unfold semanticsScore
    rw [hgt, hset, hnd]
    have := hloop (fun o m n => computeAp o m n none false true) _
      (fun t _ cat _ _ => computeAp_apAt hsort (Dict.values (ofCategory sub cat)) (A t cat)
        (nEvaluated (Dict.values (ofCategory gt cat))) none false)
    simp only [bind, Except.bind] at this ⊢
    rw [this, ← npMeanNan_some]
    rfl
  have e2 : Fl.semanticsScore sum argsort ev = .ok (Fl.npMean sum ((npSort s.thresholds).flatMap
      (fun t => (s.categories.filter (hasEvaluated gt)).map (fun cat => apAtDouble argsort (Dict.values (ofCategory sub cat)) (A t cat)
        (nEvaluated (Dict.values (ofCategory gt cat))))))) := by
    unfold Fl.semanticsScore
    rw [hgt, hset, hnd]
    have := hloop (fun o m n => Fl.computeAp sum o m n none false true) _
      (fun t _ cat _ _ => computeApD_apAt hsort (hcl cat) (A t cat) (((hcg cat).trans hgl).trans (by norm_num)) sum none false)
    simp only [bind, Except.bind] at this ⊢
    rw [this, ← npMeanNanD_some]
    rfl
  rw [e1, e2]
  constructor
  · rintro hne ⟨cat, hc, hce⟩
    set l : List (τ × String) := (npSort s.thresholds).flatMap
      (fun t => (s.categories.filter (hasEvaluated gt)).map (fun c => (t, c))) with hl
    have hmem : ∀ x ∈ l, hasEvaluated gt x.2 = true := by
      intro x hx
      rw [hl, List.mem_flatMap] at hx
      obtain ⟨t, _, hx⟩ := hx
      obtain ⟨c, hcm, rfl⟩ := List.mem_map.1 hx
      exact (List.mem_filter.1 hcm).2
    have hmap : ∀ f : τ → String → ℚ, (npSort s.thresholds).flatMap
        (fun t => (s.categories.filter (hasEvaluated gt)).map (f t)) = l.map (fun x => f x.1 x.2) := by
      intro f
      rw [hl, List.map_flatMap]
      simp [List.map_map, Function.comp_def]
    have hlen : l.length ≤ s.thresholds.length * s.categories.length := by
      rw [hl, List.length_flatMap]
      simp only [List.length_map, List.map_const', List.sum_replicate, nsmul_eq_mul, Nat.cast_id]
      have : (npSort s.thresholds).length = s.thresholds.length := List.length_insertionSort _ _
      rw [this]
      exact Nat.mul_le_mul_left _ (List.length_filter_le _ _)
    have hq : ∀ cat, (nEvaluated (Dict.values (ofCategory gt cat)) : ℚ) / 2 ^ 49 ≤ gt.values.length / 2 ^ 49 := by
      intro cat
      apply div_le_div_of_nonneg_right _ (by norm_num)
      exact_mod_cast hcg cat
    rw [hmap (fun t cat => apAtDouble argsort (Dict.values (ofCategory sub cat)) (A t cat)
        (nEvaluated (Dict.values (ofCategory gt cat)))), hmap (fun t cat => apAt argsort (Dict.values (ofCategory sub cat))
        (A t cat) (nEvaluated (Dict.values (ofCategory gt cat))))]
    obtain ⟨x, e, h1, h2, h3⟩ := npMeanD_near hsum (l := l) (c := gt.values.length / 2 ^ 49)
      (f := fun x => apAtDouble argsort (Dict.values (ofCategory sub x.2)) (A x.1 x.2)
        (nEvaluated (Dict.values (ofCategory gt x.2))))
      (g := fun x => apAt argsort (Dict.values (ofCategory sub x.2)) (A x.1 x.2)
        (nEvaluated (Dict.values (ofCategory gt x.2))))
      (by
        rw [div_le_one (by norm_num)]
        exact_mod_cast hgl.trans (by norm_num))
      (fun x hx => (apAtDouble_near hsort (distinctIds_of_wellKeyed (wellKeyed_filter hs _))
        (distinctIds_of_wellKeyed (wellKeyed_filter hg _)) (hA x.1 x.2) ((hev x.2).1 (hmem x hx))
        ((hcg x.2).trans hgl)).trans (hq x.2))
      (fun x hx => by
        have := apAt_range hsort (distinctIds_of_wellKeyed (wellKeyed_filter hs _))
          (distinctIds_of_wellKeyed (wellKeyed_filter hg _)) (hA x.1 x.2) ((hev x.2).1 (hmem x hx))
        exact ⟨this.1, this.2.le⟩)
      (by
        obtain ⟨t, ht'⟩ := List.exists_mem_of_ne_nil _ hne
        apply List.ne_nil_of_mem (a := (t, cat))
        rw [hl, List.mem_flatMap]
        exact ⟨t, (mem_npSort _ _).2 ht', List.mem_map_of_mem (List.mem_filter.2 ⟨hc, hce⟩)⟩)
      (hlen.trans htl)
    refine ⟨x, e, by rw [h1], by rw [h2], h3.trans ?_⟩
    have : (l.length : ℚ) ≤ s.thresholds.length * s.categories.length := by exact_mod_cast hlen
    gcongr
  · intro hall
    have : s.categories.filter (hasEvaluated gt) = [] := by
      rw [List.filter_eq_nil_iff]; intro c hc; simp [hall c hc]
    rw [this]
    simp only [List.map_nil]
    rw [List.flatMap_eq_nil_iff.2 (by simp)]
    rfl

example : ∃ ev, Evaluator.build AssocExample.sim AssocExample.sub AssocExample.gt AssocExample.settings = .ok ev ∧
    AssocExample.settings.thresholds ≠ [] ∧ (∃ cat ∈ AssocExample.settings.categories, hasEvaluated AssocExample.gt cat = true) ∧
    AssocExample.settings.thresholds.length * AssocExample.settings.categories.length ≤ 2 ^ 51 :=
  ⟨_, rfl, by decide, ⟨"chair", by decide, by decide⟩, by decide⟩

/-! ### A perfect submission can score more than 1 -/

namespace FloatScoresExample
/-- Nine chairs; the submission is the ground truth. -/
def scene : Elements ℕ ℕ Unit := [AssocExample.mk 1 "chair" 9, AssocExample.mk 2 "chair" 8, AssocExample.mk 3 "chair" 7,
  AssocExample.mk 4 "chair" 6, AssocExample.mk 5 "chair" 5, AssocExample.mk 6 "chair" 4, AssocExample.mk 7 "chair" 3,
  AssocExample.mk 8 "chair" 2, AssocExample.mk 9 "chair" 1]
def sim (d g : Obj ℕ ℕ Unit) : ℕ := if d.id = g.id then 100 else 0
theorem wk : WellKeyed scene := by unfold WellKeyed Dict.NodupKeys; decide
end FloatScoresExample

theorem ranked_all_hits {order : List ℕ} {scores : List σ} (h : IsArgsort order scores) {ms : List ℤ}
    (hl : ms.length = scores.length) {n : ℕ} (hms : ms = List.replicate n 1) : ranked order ms = List.replicate n true := by
  have ho : order.length = n := by rw [length_order h, ← hl, hms, List.length_replicate]
  rw [List.eq_replicate_iff]
  refine ⟨by rw [length_ranked, ho], ?_⟩
  intro b hb
  unfold ranked at hb
  obtain ⟨i, hi, rfl⟩ := List.mem_map.1 hb
  have hin : i < n := by
    have := order_lt h hl i hi
    rwa [hms, List.length_replicate] at this
  simp [hms, List.getD_eq_getElem?_getD, hin]

theorem npMeanD_singleton {sum : List ℚ → ℚ} (hsum : ∀ l, Fl.FlSum l (sum l)) (x : ℚ) :
    Fl.npMean sum [x] = some (double x) := by
  unfold Fl.npMean
  rw [if_neg (by simp), flSum_singleton (hsum [x]) rfl, List.length_singleton, double_nat (by norm_num)]
  simp

open FloatScoresExample in
/-- **C139**: the range of C18 and C21 is false in double precision.  Nine elements, submitted exactly as they are in the ground
truth, get a shape score and a semantics score of `1 + 2^-52`. -/
theorem C139_range_false {argsort : List ℕ → List ℕ} (hsort : ∀ l, IsArgsort (argsort l) l) {sum : List ℚ → ℚ}
    (hsum : ∀ l, Fl.FlSum l (sum l)) :
    ∃ ev, Evaluator.build sim scene scene ⟨[50], ["chair"]⟩ = .ok ev ∧
      Fl.shapeScore sum argsort ev [] = .ok (some (1 + 1 / 2 ^ 52)) ∧
      Fl.semanticsScore sum argsort ev = .ok (some (1 + 1 / 2 ^ 52)) := by
  obtain ⟨ev, hev⟩ := build_succeeds sim wk wk ⟨[50], ["chair"]⟩
  have key : double (apDouble (List.replicate 9 true) 9) = 1 + 1 / 2 ^ 52 := by decide +kernel
  refine ⟨ev, hev, ?_, ?_⟩
  · rw [shapeScoreD_eq hsort hev (by decide) (by decide)]
    have h1 : (Evaluator.build sim scene scene ⟨[50], ["chair"]⟩).toOption.map
        (fun ev => (detVectors scene.values (assocAt ev.agnostic 50)).1) = some (List.replicate 9 1) := by decide +kernel
    rw [hev] at h1
    simp only [Except.toOption, Option.map_some, Option.some.injEq] at h1
    have t1 : ev.settings.thresholds = [50] := by rw [(build_ok hev).2.2.2.2.2]; rfl
    have hn : nEvaluated scene.values = 9 := by decide
    rw [hn, t1, if_neg (by norm_num), List.map_singleton, npMeanD_singleton hsum]
    unfold apAtDouble
    rw [ranked_all_hits (hsort _) (length_detVectors _ _) h1, key]
  · obtain ⟨_, nd, A, hnd, hA, hloop⟩ := semantics_loop (argsort := argsort) hev wk wk
    have hset := (build_ok hev).2.2.2.2.2
    have hgt : ev.groundTruth = scene := (build_ok hev).2.2.2.1
    have h1 : (matchAll (pruneCache 50 (makeSimCache sim (ofCategory scene "chair") (ofCategory scene "chair")))
        (Dict.values (ofCategory scene "chair"))).toOption.map
        (fun a => (detVectors (Dict.values (ofCategory scene "chair")) a).1) = some (List.replicate 9 1) := by decide +kernel
    rw [hA] at h1
    simp only [Except.toOption, Option.map_some, Option.some.injEq] at h1
    have hn : nEvaluated (Dict.values (ofCategory scene "chair")) = 9 := by decide
    unfold Fl.semanticsScore
    rw [hgt, hset, hnd]
    have := hloop (fun o m n => Fl.computeAp sum o m n none false true) _
      (fun t _ cat hc _ => computeApD_apAt hsort (els := Dict.values (ofCategory scene cat)) (by
          rw [values_ofCategory]; exact (List.length_filter_le _ _).trans_lt (by decide)) (A t cat) (by
          refine (nEvaluated_le _).trans ?_
          rw [values_ofCategory]; exact (List.length_filter_le _ _).trans (by decide)) sum none false)
    simp only [bind, Except.bind] at this ⊢
    rw [this]
    simp only [pure, Except.pure]
    rw [npMeanNanD_some]
    have hh : (npSort [50]).flatMap (fun t => (["chair"].filter (hasEvaluated scene)).map
        (fun cat => apAtDouble argsort (Dict.values (ofCategory scene cat)) (A t cat)
          (nEvaluated (Dict.values (ofCategory scene cat))))) = [apAtDouble argsort (Dict.values (ofCategory scene "chair"))
            (A 50 "chair") (nEvaluated (Dict.values (ofCategory scene "chair")))] := by
      have e1 : npSort [50] = [50] := rfl
      have e2 : ["chair"].filter (hasEvaluated scene) = ["chair"] := by decide
      rw [e1, e2]
      rfl
    rw [hh, npMeanD_singleton hsum, hn]
    unfold apAtDouble
    rw [ranked_all_hits (hsort _) (length_detVectors _ _) h1, key]

example : (∀ l : List ℕ, IsArgsort (someArgsort l) l) ∧ (∀ l, Fl.FlSum l (leftSum l)) := ⟨someArgsort_spec, leftSum_flSum⟩

end Sumo
