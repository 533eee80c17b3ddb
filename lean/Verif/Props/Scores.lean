import Verif.Lemmas.Scores

/-!
# Properties of the shape and semantics scores (C18–C21, C33)

`argsort` is numpy's sort: any function with `IsArgsort (argsort l) l` for all `l`.  `.ok none` is the NaN
numpy returns for an empty mean.
-/

namespace Sumo
open AssocSpec ApSpec

variable {ι σ τ P : Type} [DecidableEq ι] [LinearOrder σ] [LinearOrder τ]

/-- Sorting functions exist, so the theorems are not vacuous; the examples below use this one. -/
noncomputable def someArgsort (l : List σ) : List ℕ := (exists_argsort l).choose
theorem someArgsort_spec (l : List σ) : IsArgsort (someArgsort l) l := (exists_argsort l).choose_spec

theorem matchAll_of_assocAt {sim : Obj ι σ P → Obj ι σ P → τ} {sub gt : Elements ι σ P} {s : AssocSettings τ}
    {ev : Evaluator ι σ τ P} (h : Evaluator.build sim sub gt s = .ok ev) {t : τ} (ht : t ∈ s.thresholds) :
    matchAll (pruneCache t (makeSimCache sim sub gt)) sub.values = .ok (assocAt ev.agnostic t) := by
  obtain ⟨a, ha⟩ := (C05_threshold_independent h h t).1.1 ht
  have := ((build_agnostic h t a).1 ha).2
  unfold assocAt; rw [ha]; exact this

/-- **C18**: the shape score is in `[0, 1)` when something is evaluated, and NaN exactly otherwise; it never
raises. -/
theorem C18_shape_score_range {argsort : List σ → List ℕ} (hsort : ∀ l, IsArgsort (argsort l) l)
    {sim : Obj ι σ P → Obj ι σ P → τ} {sub gt : Elements ι σ P} {s : AssocSettings τ}
    {ev : Evaluator ι σ τ P} (h : Evaluator.build sim sub gt s = .ok ev)
    (hs : WellKeyed sub) (hg : WellKeyed gt) (ht : s.thresholds ≠ []) (samples : List ℚ) :
    ((∃ g ∈ gt.values, g.evaluated = true) →
      ∃ x, shapeScore argsort ev samples = .ok (some x) ∧ 0 ≤ x ∧ x < 1) ∧
    ((∀ g ∈ gt.values, g.evaluated = false) → shapeScore argsort ev samples = .ok none) := by
  rw [shapeScore_eq hsort h]
  constructor
  · rintro ⟨g, hgm, hge⟩
    have hn : nEvaluated gt.values ≠ 0 := by
      unfold nEvaluated
      have : g ∈ gt.values.filter (fun v => v.evaluated) := List.mem_filter.2 ⟨hgm, hge⟩
      intro h0
      rw [List.length_eq_zero_iff.1 h0] at this
      simp at this
    rw [if_neg hn]
    have hne : ev.settings.thresholds ≠ [] := by
      obtain ⟨t, ht'⟩ := List.exists_mem_of_ne_nil _ ht
      exact List.ne_nil_of_mem ((mem_settings h).2 ht')
    obtain ⟨m, h1, h2, h3⟩ := npMean_range (l := ev.settings.thresholds.map
        (fun t => apAt argsort sub.values (assocAt ev.agnostic t) (nEvaluated gt.values)))
        (by simpa using hne) (by
          intro x hx
          obtain ⟨t, htm, rfl⟩ := List.mem_map.1 hx
          exact apAt_range hsort (distinctIds_of_wellKeyed hs) (distinctIds_of_wellKeyed hg)
            (matchAll_of_assocAt h ((mem_settings h).1 htm)) hn)
    exact ⟨m, by rw [h1], h2, h3⟩
  · intro hall
    have hn : nEvaluated gt.values = 0 := by
      unfold nEvaluated
      rw [List.length_eq_zero_iff, List.filter_eq_nil_iff]
      intro g hg; simp [hall g hg]
    rw [if_pos hn]

example : ∃ ev, Evaluator.build AssocExample.sim AssocExample.sub AssocExample.gt AssocExample.settings = .ok ev ∧
    WellKeyed AssocExample.sub ∧ WellKeyed AssocExample.gt ∧ AssocExample.settings.thresholds ≠ [] ∧
    (∃ g ∈ AssocExample.gt.values, g.evaluated = true) ∧
    ∃ x, shapeScore someArgsort ev [] = .ok (some x) ∧ 0 ≤ x ∧ x < 1 := by
  refine ⟨_, rfl, AssocExample.wk_sub, AssocExample.wk_gt, by decide, ⟨_, List.mem_cons_self, rfl⟩, ?_⟩
  exact (C18_shape_score_range (sim := AssocExample.sim) (s := AssocExample.settings) someArgsort_spec rfl AssocExample.wk_sub AssocExample.wk_gt (by decide) []).1
    ⟨_, List.mem_cons_self, rfl⟩

/-- **C19** is false of the code: the documented `recall_samples` setting never influences the shape score,
whatever the scenes and settings, because `compute_ap` is called with `area_under_curve` left at `True`. -/
theorem C19_recall_samples_ignored {argsort : List σ → List ℕ} (hsort : ∀ l, IsArgsort (argsort l) l)
    {sim : Obj ι σ P → Obj ι σ P → τ} {sub gt : Elements ι σ P} {s : AssocSettings τ}
    {ev : Evaluator ι σ τ P} (h : Evaluator.build sim sub gt s = .ok ev) (samples samples' : List ℚ) :
    shapeScore argsort ev samples = shapeScore argsort ev samples' := by
  rw [shapeScore_eq hsort h, shapeScore_eq hsort h]

/-- **C19**, what remains true: `compute_ap` itself honours the samples when asked for the sampled mean
(`area_under_curve=False`). Missing: `shape_score` does not ask for it. -/
theorem C19_samples_matter_in_compute_ap_partial :
    computeAp [0, 1] [1, 0] 2 (some [1/4]) true false ≠ computeAp [0, 1] [1, 0] 2 (some [3/4]) true false := by
  decide +kernel

/-- **C20**: a detection `d` whose match `g` is not evaluated at every threshold can be deleted together with
`g` without changing the shape score. -/
theorem C20_unevaluated_ignored {argsort : List σ → List ℕ} (hsort : ∀ l, IsArgsort (argsort l) l)
    {sim : Obj ι σ P → Obj ι σ P → τ} {sub gt : Elements ι σ P} {s : AssocSettings τ}
    {ev ev' : Evaluator ι σ τ P} (h : Evaluator.build sim sub gt s = .ok ev)
    (hs : WellKeyed sub) (hg : WellKeyed gt) {d g : Obj ι σ P} (hd : d ∈ sub.values) (hgm : g ∈ gt.values)
    (hge : g.evaluated = false)
    (hmatch : ∀ t ∈ s.thresholds, ∃ a c, ev.agnostic.get? t = some a ∧ a.get? d.id = some c ∧ c.gtId = g.id)
    (h' : Evaluator.build sim (without sub d.id) (without gt g.id) s = .ok ev') (samples : List ℚ) :
    shapeScore argsort ev' samples = shapeScore argsort ev samples := by
  have hs' : WellKeyed (without sub d.id) := wellKeyed_filter hs _
  have hg' : WellKeyed (without gt g.id) := wellKeyed_filter hg _
  have hdd := distinctIds_of_wellKeyed hs
  have hgd := distinctIds_of_wellKeyed hg
  have hdd' := distinctIds_of_wellKeyed hs'
  have hgd' := distinctIds_of_wellKeyed hg'
  rw [shapeScore_eq hsort h, shapeScore_eq hsort h']
  have hn : nEvaluated (Dict.values (without gt g.id)) = nEvaluated gt.values := by
    unfold nEvaluated
    rw [values_without hg, List.filter_filter]
    congr 1
    apply List.filter_congr
    intro x hx
    by_cases hxe : x.evaluated = true
    · have : x.id ≠ g.id := by
        intro e
        have := eq_of_id_eq hgd hx hgm e
        subst this; rw [hge] at hxe; simp at hxe
      simp [hxe, this]
    · simp [hxe]
  rw [hn]
  have hst : ev'.settings.thresholds = ev.settings.thresholds := by
    rw [(build_ok h).2.2.2.2.2, (build_ok h').2.2.2.2.2]
  rw [hst]
  congr 2
  congr 1
  apply List.map_congr_left
  intro t ht
  have ht := (mem_settings h).1 ht
  unfold apAt
  have hvec : detVectors (Dict.values (without sub d.id)) (assocAt ev'.agnostic t) =
      detVectors sub.values (assocAt ev.agnostic t) := by
    obtain ⟨a, c, ha, hc, hcg⟩ := hmatch t ht
    have ea : assocAt ev.agnostic t = a := by unfold assocAt; rw [ha]; rfl
    rw [ea]
    have hm := matchAll_of_assocAt h ht
    rw [ea] at hm
    have hm' := matchAll_of_assocAt h' ht
    set a' := assocAt ev'.agnostic t with ha'
    have hMdg : Matched sub.values gt.values a d g := ⟨hd, hgm, c, hc, hcg⟩
    have hG := isGreedy_remove hdd hgd (matched_isGreedy hdd hgd hm) hMdg
    rw [← values_without hs, ← values_without hg] at hG
    have hu := greedy_unique hdd' hgd' hG (matched_isGreedy hdd' hgd' hm')
    have hcd : c.evaluated = false := by
      obtain ⟨d1, g1, hM, hdi, rfl⟩ := (get?_iff_matched hdd hgd hm d.id c).1 hc
      have : g1 = g := eq_of_id_eq hgd hM.2.1 hgm hcg
      subst this; exact hge
    have hsame : ∀ e ∈ sub.values, e.id ≠ d.id → a'.get? e.id = a.get? e.id := by
      intro e he hne
      apply Option.ext
      intro c'
      rw [get?_iff_matched hdd' hgd' hm', get?_iff_matched hdd hgd hm]
      constructor
      · rintro ⟨d1, g1, hM, h1, h2⟩
        exact ⟨d1, g1, ((hu _ _).2 hM).1, h1, h2⟩
      · rintro ⟨d1, g1, hM, h1, h2⟩
        exact ⟨d1, g1, (hu _ _).1 ⟨hM, h1 ▸ hne⟩, h1, h2⟩
    rw [detVectors_eq, detVectors_eq, values_without hs]
    have : (sub.values.filter (fun e => decide (e.id ≠ d.id))).filterMap (detEntry a') =
        sub.values.filterMap (detEntry a) := by
      rw [List.filterMap_filter]
      apply List.filterMap_congr
      intro e he
      by_cases hne : e.id = d.id
      · simp [detEntry, hne, hc, hcd]
      · simp only [ne_eq, hne, not_false_iff, decide_true, if_true]
        unfold detEntry
        rw [hsame e he hne]
    rw [this]
  rw [hvec]

/-- **C20** at a single threshold: the two vectors handed to `compute_ap` contain one entry per detection except
the ones matched to an unevaluated element; entries are 1 exactly for the others that are matched. -/
theorem C20_vectors (els : List (Obj ι σ P)) (a : Dict ι (Corr ι σ τ)) :
    (detVectors els a).1.zip (detVectors els a).2 =
      (els.filter (fun e => ((a.get? e.id).map Corr.evaluated).getD true)).map
        (fun e => (if (a.get? e.id).isSome then 1 else 0, e.score)) := by
  rw [detVectors_eq, ← List.unzip_eq_map, List.zip_unzip]
  induction els with
  | nil => rfl
  | cons e els ih =>
    unfold detEntry at ih ⊢
    cases h : a.get? e.id with
    | none => simpa [h] using ih
    | some c => cases hc : c.evaluated <;> simpa [h, hc] using ih

namespace ScoresExample
/-- The example ground truth with element 11 not evaluated: it is detection 2's match at both thresholds. -/
def gt' : Elements ℕ ℕ Unit :=
  [AssocExample.mk 10 "chair" 0, (11, ⟨11, "chair", 0, false, ()⟩), AssocExample.mk 12 "bed" 0]
end ScoresExample

example : ∃ ev ev' d g, Evaluator.build AssocExample.sim AssocExample.sub ScoresExample.gt'
      AssocExample.settings = .ok ev ∧ WellKeyed ScoresExample.gt' ∧ d ∈ AssocExample.sub.values ∧
      g ∈ ScoresExample.gt'.values ∧ g.evaluated = false ∧
      (∀ t ∈ AssocExample.settings.thresholds, ∃ a c, ev.agnostic.get? t = some a ∧ a.get? d.id = some c ∧
        c.gtId = g.id) ∧
      Evaluator.build AssocExample.sim (without AssocExample.sub d.id) (without ScoresExample.gt' g.id)
        AssocExample.settings = .ok ev' := by
  refine ⟨_, _, (AssocExample.mk 2 "table" 7).2, ⟨11, "chair", 0, false, ()⟩, rfl, ?_, by decide, by decide, rfl, ?_, rfl⟩
  · unfold WellKeyed Dict.NodupKeys; decide
  · intro t ht
    have : t = 50 ∨ t = 30 := by simpa [AssocExample.settings] using ht
    rcases this with rfl | rfl
    · exact ⟨_, _, rfl, rfl, rfl⟩
    · exact ⟨_, _, rfl, rfl, rfl⟩

/-- Does the category have an evaluated ground truth element? -/
def hasEvaluated (gt : Elements ι σ P) (cat : String) : Bool :=
  gt.values.any (fun e => decide (e.category = cat) && e.evaluated)

/-- **C21**: the semantics score is the mean, over thresholds and configured categories with an evaluated ground
truth element, of the shape score at that threshold of the two scenes restricted to the category; it never
raises, is in `[0, 1)` if there is something to average, and NaN otherwise. -/
theorem C21_semantics_score {argsort : List σ → List ℕ} (hsort : ∀ l, IsArgsort (argsort l) l)
    {sim : Obj ι σ P → Obj ι σ P → τ} {sub gt : Elements ι σ P} {s : AssocSettings τ}
    {ev : Evaluator ι σ τ P} (h : Evaluator.build sim sub gt s = .ok ev)
    (hs : WellKeyed sub) (hg : WellKeyed gt) :
    ∃ f : τ → String → ℚ,
      (∀ t ∈ s.thresholds, ∀ cat ∈ s.categories, hasEvaluated gt cat = true → ∃ ev',
        Evaluator.build sim (ofCategory sub cat) (ofCategory gt cat) ⟨[t], []⟩ = .ok ev' ∧
        shapeScore argsort ev' [] = .ok (some (f t cat))) ∧
      semanticsScore argsort ev = .ok (npMean ((npSort s.thresholds).flatMap
        (fun t => (s.categories.filter (hasEvaluated gt)).map (f t)))) ∧
      (s.thresholds ≠ [] → (∃ cat ∈ s.categories, hasEvaluated gt cat = true) →
        ∃ x, semanticsScore argsort ev = .ok (some x) ∧ 0 ≤ x ∧ x < 1) ∧
      ((∀ cat ∈ s.categories, hasEvaluated gt cat = false) → semanticsScore argsort ev = .ok none) := by
  have hex : ∀ t cat, ∃ ev', Evaluator.build sim (ofCategory sub cat) (ofCategory gt cat) ⟨[t], []⟩ = .ok ev' :=
    fun t cat => build_succeeds sim (wellKeyed_filter hs _) (wellKeyed_filter hg _) _
  choose E hE using hex
  set A : τ → String → Dict ι (Corr ι σ τ) := fun t cat => assocAt (E t cat).agnostic t with hA
  set f : τ → String → ℚ := fun t cat => apAt argsort (Dict.values (ofCategory sub cat)) (A t cat)
    (nEvaluated (Dict.values (ofCategory gt cat))) with hf
  have hset := (build_ok h).2.2.2.2.2
  have hsub : ev.submission = sub := (build_ok h).2.2.1
  have hgt : ev.groundTruth = gt := (build_ok h).2.2.2.1
  have hnev : ∀ cat, nEvaluated (Dict.values (ofCategory gt cat)) =
      (gt.values.filter (fun e => decide (e.category = cat) && e.evaluated)).length := by
    intro cat
    unfold nEvaluated
    rw [values_ofCategory, List.filter_filter]
    congr 1
    apply List.filter_congr
    intro x _; exact Bool.and_comm _ _
  have hev : ∀ cat, hasEvaluated gt cat = true ↔ nEvaluated (Dict.values (ofCategory gt cat)) ≠ 0 := by
    intro cat
    rw [hnev, Ne, List.length_eq_zero_iff, List.filter_eq_nil_iff]
    unfold hasEvaluated
    rw [List.any_eq_true]
    push Not
    rfl
  have hscore : ∀ t cat, hasEvaluated gt cat = true → shapeScore argsort (E t cat) [] = .ok (some (f t cat)) := by
    intro t cat hc
    rw [shapeScore_eq hsort (hE t cat), if_neg ((hev cat).1 hc)]
    have : (E t cat).settings.thresholds = [t] := by
      rw [(build_ok (hE t cat)).2.2.2.2.2]; rfl
    rw [this, List.map_singleton, npMean_singleton]
  -- category tables agree with the restricted evaluators
  obtain ⟨ev0, h0, hiff, hcat⟩ := C07_category_is_restriction sim hs hg s
  rw [h] at h0; simp at h0; subst h0
  have htab : ∀ t ∈ s.thresholds, ∀ e ∈ sub.values, e.category ∈ s.categories →
      ∃ da, ev.category.get? e.category = some da ∧ da.get? t = some (A t e.category) := by
    intro t ht e he hc
    obtain ⟨da, hda⟩ := (hiff e.category).2 ⟨hc, e, List.mem_append_left _ he, rfl⟩
    obtain ⟨ev1, h1, rfl⟩ := hcat _ _ hda []
    refine ⟨_, hda, ?_⟩
    have hC := (C05_threshold_independent h1 (hE t e.category) t).2 ht (by simp)
    rw [hC]
    have := agnostic_get (hE t e.category) (t := t) (by simp)
    exact Dict.get_eq_ok.1 this
  have hmain : semanticsScore argsort ev = .ok (npMean ((npSort s.thresholds).flatMap
        (fun t => (s.categories.filter (hasEvaluated gt)).map (f t)))) := by
    obtain ⟨nd, hnd, hnget⟩ := nGt_get? (cats := s.categories) (gts := gt.values)
    unfold semanticsScore
    rw [hgt, hset]
    simp only [hnd, bind, Except.bind]
    have hloop := foldlM_append_ok (f := fun (aps : List (Option ℚ)) t => do
        let vs ← detVectorsByCategory ev t
        s.categories.foldlM (fun aps cat => do
          let n ← nd.get cat
          if n > 0 then do
            let v ← vs.get cat
            let r ← computeAp (argsort v.2) v.1 n none false true
            pure (aps ++ [r.1])
          else pure aps) aps)
      (g := fun t => (s.categories.filter (hasEvaluated gt)).map (fun cat => some (f t cat)))
      (npSort s.thresholds) (by
        intro t ht acc
        rw [mem_npSort] at ht
        obtain ⟨vs, hvs, hvget⟩ := detVectorsByCategory_get? (ev := ev) (t := t) (A t) (by
          rw [hsub, hset]; exact htab t ht)
        rw [hset] at hvget
        simp only [hvs, bind, Except.bind]
        refine Eq.trans (foldlM_append_ok (g := fun cat => if hasEvaluated gt cat = true then
          [some (f t cat)] else []) _ ?_ acc) ?_
        · intro cat hc acc
          have hn := hnget cat
          rw [if_pos hc, ← hnev] at hn
          simp only [Dict.get_eq_ok.2 hn, Dict.get_eq_ok.2 (hvget cat hc)]
          by_cases hh : hasEvaluated gt cat = true
          · rw [if_pos (Nat.pos_of_ne_zero ((hev cat).1 hh))]
            obtain ⟨p, r, hcomp⟩ := computeAp_apAt hsort (Dict.values (ofCategory sub cat)) (A t cat)
              (nEvaluated (Dict.values (ofCategory gt cat))) none false
            rw [values_ofCategory sub] at hcomp
            rw [hsub, hcomp]
            simp only [hh, if_true, pure, Except.pure, hf]
            rw [values_ofCategory sub]
          · have : nEvaluated (Dict.values (ofCategory gt cat)) = 0 := by
              by_contra h0; exact hh ((hev cat).2 h0)
            rw [this]
            simp [hh, pure, Except.pure]
        · congr 2
          clear hvget
          induction s.categories with
          | nil => rfl
          | cons c l ih =>
            rw [List.flatMap_cons, ih]
            by_cases hh : hasEvaluated gt c = true
            · simp [hh]
            · simp [hh]) []
    simp only [bind, Except.bind] at hloop
    rw [hloop]
    simp only [pure, Except.pure, List.nil_append]
    rw [← npMeanNan_some, List.map_flatMap]
    simp [List.map_map, Function.comp_def]
  refine ⟨f, ?_, hmain, ?_, ?_⟩
  · intro t _ cat _ hc; exact ⟨_, hE t cat, hscore t cat hc⟩
  · intro hne ⟨cat, hc, hce⟩
    rw [hmain]
    obtain ⟨m, h1, h2, h3⟩ := npMean_range (l := (npSort s.thresholds).flatMap
        (fun t => (s.categories.filter (hasEvaluated gt)).map (f t))) (by
          obtain ⟨t, ht⟩ := List.exists_mem_of_ne_nil _ hne
          apply List.ne_nil_of_mem (a := f t cat)
          rw [List.mem_flatMap]
          exact ⟨t, (mem_npSort _ _).2 ht, List.mem_map_of_mem (List.mem_filter.2 ⟨hc, hce⟩)⟩) (by
          intro x hx
          rw [List.mem_flatMap] at hx
          obtain ⟨t, _, hx⟩ := hx
          obtain ⟨c, hcm, rfl⟩ := List.mem_map.1 hx
          rw [List.mem_filter] at hcm
          exact apAt_range hsort (distinctIds_of_wellKeyed (wellKeyed_filter hs _))
            (distinctIds_of_wellKeyed (wellKeyed_filter hg _)) (matchAll_of_assocAt (hE t c) (by simp))
            ((hev c).1 hcm.2))
    exact ⟨m, by rw [h1], h2, h3⟩
  · intro hall
    rw [hmain]
    have : s.categories.filter (hasEvaluated gt) = [] := by
      rw [List.filter_eq_nil_iff]; intro c hc; simp [hall c hc]
    rw [this]
    simp only [List.map_nil]
    rw [List.flatMap_eq_nil_iff.2 (by simp)]
    rfl

example : ∃ ev, Evaluator.build AssocExample.sim AssocExample.sub AssocExample.gt AssocExample.settings = .ok ev ∧
    hasEvaluated AssocExample.gt "chair" = true ∧ hasEvaluated AssocExample.gt "table" = false ∧
    ∃ x, semanticsScore someArgsort ev = .ok (some x) ∧ 0 ≤ x ∧ x < 1 := by
  refine ⟨_, rfl, by decide, by decide, ?_⟩
  obtain ⟨_, _, _, h, _⟩ := C21_semantics_score (ev := (Evaluator.build AssocExample.sim AssocExample.sub
    AssocExample.gt AssocExample.settings).toOption.get rfl) (sim := AssocExample.sim)
    (s := AssocExample.settings) someArgsort_spec rfl AssocExample.wk_sub AssocExample.wk_gt
  exact h (by decide) ⟨"chair", by decide, by decide⟩

/-! ### The voxel track (C33) -/

namespace VoxelExample
/-- Two voxel objects submitted, one of them wrong, for a single ground truth object. -/
def sub : Elements ℕ ℕ Unit := [AssocExample.mk 1 "chair" 9, AssocExample.mk 2 "chair" 5]
def gt : Elements ℕ ℕ Unit := [AssocExample.mk 10 "chair" 0]
def sim (a b : Obj ℕ ℕ Unit) : ℕ := if (a.id = 2 ∧ b.id = 10) ∨ (a.id = 10 ∧ b.id = 2) then 80 else 0
theorem wk_sub : WellKeyed sub := by unfold WellKeyed Dict.NodupKeys; decide
theorem wk_gt : WellKeyed gt := by unfold WellKeyed Dict.NodupKeys; decide
end VoxelExample

theorem argsort_two {argsort : List ℕ → List ℕ} (hsort : ∀ l, IsArgsort (argsort l) l) :
    argsort [9, 5] = [0, 1] ∧ argsort [0] = [0] := by
  constructor
  · have h := hsort [9, 5]
    have hp : (argsort [9, 5]).Perm [0, 1] := h.1
    obtain ⟨a, b, e⟩ := List.length_eq_two.1 (hp.length_eq.trans rfl)
    have h2 := h.2
    rw [e] at hp h2 ⊢
    have ha : a ∈ [0, 1] := hp.mem_iff.1 (by simp)
    have hb : b ∈ [0, 1] := hp.mem_iff.1 (by simp)
    have hab : a ≠ b := by
      have := hp.nodup_iff.2 (by decide)
      simpa using this
    simp only [List.mem_cons, List.not_mem_nil, or_false] at ha hb
    rcases ha with rfl | rfl <;> rcases hb with rfl | rfl
    · exact absurd rfl hab
    · rfl
    · exact absurd h2 (by decide)
    · exact absurd rfl hab
  · exact List.perm_singleton.1 (hsort [0]).1

/-- **C33** is false: there are scenes, with a symmetric similarity, for which the voxel track reports another shape
score than the evaluation of the submission against the ground truth, because the two scenes are exchanged.
Here the submission's false positive outranks its true positive, but the voxel track sees one correct detection and
one missed element. -/
theorem C33_voxel_scores_differ : ∃ ev ev' : Evaluator ℕ ℕ ℕ Unit,
    (∀ a b, VoxelExample.sim a b = VoxelExample.sim b a) ∧
    bbEvaluator VoxelExample.sim VoxelExample.sub VoxelExample.gt ⟨[50], []⟩ = .ok ev ∧
    voxelEvaluator VoxelExample.sim VoxelExample.sub VoxelExample.gt ⟨[50], []⟩ = .ok ev' ∧
    ev.submission = VoxelExample.sub ∧ ev'.submission = VoxelExample.gt ∧
    ∀ argsort : List ℕ → List ℕ, (∀ l, IsArgsort (argsort l) l) →
      shapeScore argsort ev [] ≠ shapeScore argsort ev' [] := by
  have hsym : ∀ a b, VoxelExample.sim a b = VoxelExample.sim b a := by
    intro a b; unfold VoxelExample.sim
    simp only [and_comm, or_comm]
  obtain ⟨ev, hev⟩ := build_succeeds VoxelExample.sim VoxelExample.wk_sub VoxelExample.wk_gt ⟨[50], []⟩
  obtain ⟨ev', hev'⟩ := build_succeeds VoxelExample.sim VoxelExample.wk_gt VoxelExample.wk_sub ⟨[50], []⟩
  refine ⟨ev, ev', hsym, hev, hev', (build_ok hev).2.2.1, (build_ok hev').2.2.1, ?_⟩
  intro argsort hsort
  have h1 : (Evaluator.build VoxelExample.sim VoxelExample.sub VoxelExample.gt ⟨[50], []⟩).toOption.map
      (fun ev => detVectors VoxelExample.sub.values (assocAt ev.agnostic 50)) = some ([0, 1], [9, 5]) := rfl
  have h2 : (Evaluator.build VoxelExample.sim VoxelExample.gt VoxelExample.sub ⟨[50], []⟩).toOption.map
      (fun ev => detVectors VoxelExample.gt.values (assocAt ev.agnostic 50)) = some ([1], [0]) := rfl
  rw [hev] at h1
  rw [hev'] at h2
  simp only [Except.toOption, Option.map_some, Option.some.injEq] at h1 h2
  have t1 : ev.settings.thresholds = [50] := by rw [(build_ok hev).2.2.2.2.2]; rfl
  have t2 : ev'.settings.thresholds = [50] := by rw [(build_ok hev').2.2.2.2.2]; rfl
  rw [shapeScore_eq hsort hev, shapeScore_eq hsort hev', t1, t2]
  unfold apAt
  simp only [List.map_cons, List.map_nil, h1, h2, argsort_two hsort]
  decide +kernel

/-- **C33**, what holds: the voxel track computes the evaluation with the two scenes exchanged, so it agrees with the
other tracks when both scenes are the same, and its score is NaN when nothing *submitted* is evaluated, however good
the ground truth. Missing: agreement for different scenes. -/
theorem C33_voxel_exchanged_partial {argsort : List σ → List ℕ} (hsort : ∀ l, IsArgsort (argsort l) l)
    (sim : Obj ι σ P → Obj ι σ P → τ) {sub gt : Elements ι σ P} (hs : WellKeyed sub) (hg : WellKeyed gt)
    (s : AssocSettings τ) :
    voxelEvaluator sim sub sub s = bbEvaluator sim sub sub s ∧
    ∃ ev, voxelEvaluator sim sub gt s = .ok ev ∧
      ((∀ d ∈ sub.values, d.evaluated = false) → shapeScore argsort ev [] = .ok none) := by
  refine ⟨rfl, ?_⟩
  obtain ⟨ev, hev⟩ := build_succeeds sim hg hs s
  refine ⟨ev, hev, ?_⟩
  intro hall
  rw [shapeScore_eq hsort hev, if_pos]
  unfold nEvaluated
  rw [List.length_eq_zero_iff, List.filter_eq_nil_iff]
  intro g hg; simp [hall g hg]

example : WellKeyed VoxelExample.sub ∧ WellKeyed VoxelExample.gt := ⟨VoxelExample.wk_sub, VoxelExample.wk_gt⟩

end Sumo
