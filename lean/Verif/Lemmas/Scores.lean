import Verif.Model.Scores
import Verif.Props.Assoc
import Verif.Props.Ap

/-! Closed forms of the score loops. -/

set_option linter.unusedSectionVars false

namespace Sumo
open AssocSpec ApSpec

variable {ι σ τ P : Type} [DecidableEq ι] [LinearOrder σ] [LinearOrder τ]

theorem foldlM_append_ok {α β : Type} {f : List β → α → Except PyErr (List β)} {g : α → List β} (l : List α)
    (h : ∀ x ∈ l, ∀ acc, f acc x = .ok (acc ++ g x)) (acc : List β) :
    l.foldlM f acc = .ok (acc ++ l.flatMap g) := by
  induction l generalizing acc with
  | nil => simp [pure, Except.pure]
  | cons x l ih =>
    rw [List.foldlM_cons, h x (by simp)]
    simp only [bind, Except.bind]
    rw [ih (fun y hy => h y (by simp [hy]))]
    simp

/-- What an element contributes to the vectors. -/
def detEntry (a : Dict ι (Corr ι σ τ)) (e : Obj ι σ P) : Option (ℤ × σ) :=
  match a.get? e.id with
  | some c => if c.evaluated then some (1, e.score) else none
  | none => some (0, e.score)

theorem detStep_eq (a : Dict ι (Corr ι σ τ)) (st : List ℤ × List σ) (e : Obj ι σ P) :
    detStep a st e = (st.1 ++ (detEntry a e).toList.map Prod.fst, st.2 ++ (detEntry a e).toList.map Prod.snd) := by
  unfold detStep detEntry
  cases a.get? e.id with
  | none => simp
  | some c => cases h : c.evaluated <;> simp [h]

theorem detVectors_eq (els : List (Obj ι σ P)) (a : Dict ι (Corr ι σ τ)) :
    detVectors els a = ((els.filterMap (detEntry a)).map Prod.fst, (els.filterMap (detEntry a)).map Prod.snd) := by
  have key : ∀ (l : List (Obj ι σ P)) (st : List ℤ × List σ), l.foldl (detStep a) st =
      (st.1 ++ (l.filterMap (detEntry a)).map Prod.fst, st.2 ++ (l.filterMap (detEntry a)).map Prod.snd) := by
    intro l
    induction l with
    | nil => intro st; simp
    | cons e l ih =>
      intro st
      rw [List.foldl_cons, ih, detStep_eq]
      cases h : detEntry a e <;> simp [h]
  unfold detVectors
  rw [key]; simp

theorem length_detVectors (els : List (Obj ι σ P)) (a : Dict ι (Corr ι σ τ)) :
    (detVectors els a).1.length = (detVectors els a).2.length := by rw [detVectors_eq]; simp

/-- Number of evaluated elements. -/
def nEvaluated (els : List (Obj ι σ P)) : ℕ := (els.filter (fun v => v.evaluated)).length

/-- AP of a scene at one threshold, from its association. -/
def apAt (argsort : List σ → List ℕ) (els : List (Obj ι σ P)) (a : Dict ι (Corr ι σ τ)) (n : ℕ) : ℚ :=
  ap (ranked (argsort (detVectors els a).2) (detVectors els a).1) n

theorem computeAp_apAt {argsort : List σ → List ℕ} (hs : ∀ l, IsArgsort (argsort l) l)
    (els : List (Obj ι σ P)) (a : Dict ι (Corr ι σ τ)) (n : ℕ) (samples : Option (List ℚ)) (interp : Bool) :
    ∃ p r, computeAp (argsort (detVectors els a).2) (detVectors els a).1 n samples interp true =
      .ok (some (apAt argsort els a n), p, r) :=
  ⟨_, _, C10_ap_formula (hs _) (length_detVectors els a) n samples interp⟩

theorem mapM_id_some (l : List ℚ) : (l.map some).mapM id = some l := by
  induction l with
  | nil => rfl
  | cons x l ih => rw [List.map_cons, List.mapM_cons, ih]; rfl

theorem npMeanNan_some (l : List ℚ) : npMeanNan (l.map some) = npMean l := by
  unfold npMeanNan; rw [mapM_id_some]; rfl

/-- The association at `t`, or the empty one. -/
def assocAt (da : DataAssoc ι σ τ) (t : τ) : Dict ι (Corr ι σ τ) := (da.get? t).getD []

theorem agnostic_get {sim : Obj ι σ P → Obj ι σ P → τ} {sub gt : Elements ι σ P} {s : AssocSettings τ}
    {ev : Evaluator ι σ τ P} (h : Evaluator.build sim sub gt s = .ok ev) {t : τ} (ht : t ∈ s.thresholds) :
    ev.agnostic.get t = .ok (assocAt ev.agnostic t) := by
  obtain ⟨a, ha⟩ := (C05_threshold_independent h h t).1.1 ht
  unfold assocAt
  rw [ha]; exact Dict.get_eq_ok.2 ha

theorem mem_settings {sim : Obj ι σ P → Obj ι σ P → τ} {sub gt : Elements ι σ P} {s : AssocSettings τ}
    {ev : Evaluator ι σ τ P} (h : Evaluator.build sim sub gt s = .ok ev) {t : τ} :
    t ∈ ev.settings.thresholds ↔ t ∈ s.thresholds := by
  rw [(build_ok h).2.2.2.2.2]; exact mem_npSort _ _

theorem shapeScore_eq {argsort : List σ → List ℕ} (hs : ∀ l, IsArgsort (argsort l) l)
    {sim : Obj ι σ P → Obj ι σ P → τ} {sub gt : Elements ι σ P} {s : AssocSettings τ}
    {ev : Evaluator ι σ τ P} (h : Evaluator.build sim sub gt s = .ok ev) (samples : List ℚ) :
    shapeScore argsort ev samples = .ok (if nEvaluated gt.values = 0 then none else
      npMean (ev.settings.thresholds.map
        (fun t => apAt argsort sub.values (assocAt ev.agnostic t) (nEvaluated gt.values)))) := by
  obtain ⟨_, _, hsub, hgt, _, hset⟩ := build_ok h
  unfold shapeScore
  rw [hsub, hgt]
  dsimp only
  by_cases hn : nEvaluated gt.values = 0
  · rw [foldlM_append_ok (g := fun _ => []) _ (by
      intro t ht acc
      rw [agnostic_get h ((mem_settings h).1 ht)]
      unfold nEvaluated at hn
      simp [bind, Except.bind, pure, Except.pure, hn])]
    simp only [hn, if_true, bind, Except.bind, pure, Except.pure]
    rw [List.nil_append, List.flatMap_eq_nil_iff.2 (by simp)]; rfl
  · rw [foldlM_append_ok (g := fun t => [some (apAt argsort sub.values (assocAt ev.agnostic t)
        (nEvaluated gt.values))]) _ (by
      intro t ht acc
      rw [agnostic_get h ((mem_settings h).1 ht)]
      obtain ⟨p, r, hc⟩ := computeAp_apAt hs sub.values (assocAt ev.agnostic t) (nEvaluated gt.values)
        (some samples) true
      have hn' : nEvaluated gt.values > 0 := Nat.pos_of_ne_zero hn
      unfold nEvaluated at hn' hc ⊢
      simp only [bind, Except.bind, hn', if_true, hc, pure, Except.pure])]
    simp only [hn, if_false, bind, Except.bind, pure, Except.pure, List.nil_append]
    rw [← npMeanNan_some, List.map_map]
    congr 2
    exact (List.map_eq_flatMap).symm

/-! ### Number of correct detections -/

theorem nCorrect_detVectors (els : List (Obj ι σ P)) (a : Dict ι (Corr ι σ τ)) :
    nCorrect (detVectors els a).1 = (els.filter (fun e => match a.get? e.id with
      | some c => c.evaluated | none => false)).length := by
  rw [detVectors_eq]
  unfold nCorrect
  simp only
  induction els with
  | nil => rfl
  | cons e els ih =>
    unfold detEntry at ih ⊢
    cases h : a.get? e.id with
    | none => simpa [h] using ih
    | some c => cases hc : c.evaluated <;> simpa [h, hc] using ih

theorem nCorrect_le {sim : Obj ι σ P → Obj ι σ P → τ} {t : τ} {sub gt : Elements ι σ P}
    (hd : DistinctIds sub.values) (hg : DistinctIds gt.values) {a : Dict ι (Corr ι σ τ)}
    (h : matchAll (pruneCache t (makeSimCache sim sub gt)) sub.values = .ok a) :
    nCorrect (detVectors sub.values a).1 ≤ nEvaluated gt.values := by
  rw [nCorrect_detVectors]
  set ds := sub.values.filter (fun e => match a.get? e.id with
      | some c => c.evaluated | none => false) with hds
  have hG := matched_isGreedy hd hg h
  have hex : ∀ d ∈ ds, ∃ g, Matched sub.values gt.values a d g ∧ g.evaluated = true := by
    intro d hdm
    rw [hds, List.mem_filter] at hdm
    cases hc : a.get? d.id with
    | none => simp [hc] at hdm
    | some c =>
      obtain ⟨d', g, hM, hdi, rfl⟩ := (get?_iff_matched hd hg h d.id c).1 hc
      have := eq_of_id_eq hd hM.1 hdm.1 hdi
      subst this
      refine ⟨g, hM, ?_⟩
      simp only [hc] at hdm
      exact hdm.2
  classical
  choose! f hf using hex
  have hnd : ds.Nodup := by
    have : sub.values.Nodup := List.Nodup.of_map _ hd
    exact this.filter _
  have hmap : (ds.map f).Nodup := by
    apply List.Nodup.map_on _ hnd
    intro x hx y hy hxy
    exact hG.one_det x y (f x) (hf x hx).1 (hxy ▸ (hf y hy).1)
  have hsub : ds.map f ⊆ gt.values.filter (fun v => v.evaluated) := by
    intro g hgm
    obtain ⟨d, hdm, rfl⟩ := List.mem_map.1 hgm
    rw [List.mem_filter]
    exact ⟨(hf d hdm).1.2.1, (hf d hdm).2⟩
  have := (List.subperm_of_subset hmap hsub).length_le
  simpa [nEvaluated] using this

theorem apAt_range {argsort : List σ → List ℕ} (hs : ∀ l, IsArgsort (argsort l) l)
    {sim : Obj ι σ P → Obj ι σ P → τ} {t : τ} {sub gt : Elements ι σ P}
    (hd : DistinctIds sub.values) (hg : DistinctIds gt.values) {a : Dict ι (Corr ι σ τ)}
    (h : matchAll (pruneCache t (makeSimCache sim sub gt)) sub.values = .ok a)
    (hn : nEvaluated gt.values ≠ 0) :
    0 ≤ apAt argsort sub.values a (nEvaluated gt.values) ∧
      apAt argsort sub.values a (nEvaluated gt.values) < 1 := by
  refine ⟨ap_nonneg _ _, ap_lt_one (Nat.pos_of_ne_zero hn) ?_⟩
  rw [ranked_count (hs _) (length_detVectors _ _)]
  exact nCorrect_le hd hg h

theorem npMean_range {l : List ℚ} (hl : l ≠ []) (h : ∀ x ∈ l, 0 ≤ x ∧ x < 1) :
    ∃ m, npMean l = some m ∧ 0 ≤ m ∧ m < 1 := by
  have hpos : (0 : ℚ) < l.length := by exact_mod_cast List.length_pos_iff.2 hl
  refine ⟨_, by unfold npMean; rw [if_neg (by simpa using hl)], ?_, ?_⟩
  · exact div_nonneg (List.sum_nonneg (fun x hx => (h x hx).1)) (le_of_lt hpos)
  · rw [div_lt_one hpos]
    clear hpos
    induction l with
    | nil => exact absurd rfl hl
    | cons y l ih =>
      rw [List.sum_cons, List.length_cons]
      have hy := (h y (by simp)).2
      by_cases h0 : l = []
      · subst h0; simpa using hy
      · have := ih h0 (fun x hx => h x (by simp [hx]))
        push_cast; linarith

theorem npMean_singleton (x : ℚ) : npMean [x] = some x := by simp [npMean]

/-! ### Restricting a scene -/

theorem before_sublist {l l' : List (Obj ι σ P)} (hl : DistinctIds l) (hs : l'.Sublist l)
    {a b : Obj ι σ P} (ha : a ∈ l') (hb : b ∈ l') (h : Before l' a b) : Before l a b := by
  have hpw : l'.Pairwise (Before l) := (pairwise_before hl).sublist hs
  have hl' : DistinctIds l' := (hs.map Obj.id).nodup hl
  obtain ⟨i, hi, rfl⟩ := List.mem_iff_getElem.1 ha
  obtain ⟨j, hj, rfl⟩ := List.mem_iff_getElem.1 hb
  unfold Before at h
  have hidx : ∀ k (hk : k < l'.length), (l'.map Obj.id).idxOf (l'[k]).id = k := by
    intro k hk
    have := List.Nodup.idxOf_getElem hl' k (by simpa using hk)
    simpa using this
  rw [hidx i hi, hidx j hj] at h
  exact List.pairwise_iff_getElem.1 hpw i j hi hj h

/-- The greedy matching stays greedy when a matched pair is taken out of both scenes. -/
theorem isGreedy_remove {sim : Obj ι σ P → Obj ι σ P → τ} {t : τ} {ds gs : List (Obj ι σ P)}
    (hd : DistinctIds ds) (hg : DistinctIds gs) {M : Obj ι σ P → Obj ι σ P → Prop}
    (hM : IsGreedy sim t ds gs M) {d0 g0 : Obj ι σ P} (h0 : M d0 g0) :
    IsGreedy sim t (ds.filter (fun d => decide (d.id ≠ d0.id))) (gs.filter (fun g => decide (g.id ≠ g0.id)))
      (fun d g => M d g ∧ d.id ≠ d0.id) := by
  have hgne : ∀ d g, M d g → d.id ≠ d0.id → g.id ≠ g0.id := by
    intro d g h hne e
    have := eq_of_id_eq hg (hM.mem _ _ h).2 (hM.mem _ _ h0).2 e
    subst this
    exact hne (by rw [hM.one_det _ _ _ h h0])
  have hdne : ∀ d g, M d g → g.id ≠ g0.id → d.id ≠ d0.id := by
    intro d g h hne e
    have := eq_of_id_eq hd (hM.mem _ _ h).1 (hM.mem _ _ h0).1 e
    subst this
    exact hne (by rw [hM.one_gt _ _ _ h h0])
  refine { mem := ?_, similar := ?_, one_gt := ?_, one_det := ?_, stable := ?_ }
  · rintro d g ⟨h, hne⟩
    simp only [List.mem_filter, decide_eq_true_eq]
    exact ⟨⟨(hM.mem _ _ h).1, hne⟩, (hM.mem _ _ h).2, hgne _ _ h hne⟩
  · rintro d g ⟨h, _⟩; exact hM.similar _ _ h
  · rintro d g g' ⟨h, _⟩ ⟨h', _⟩; exact hM.one_gt _ _ _ h h'
  · rintro d d' g ⟨h, _⟩ ⟨h', _⟩; exact hM.one_det _ _ _ h h'
  · rintro d g ⟨h1, h2, h3, h4, h5, h6⟩
    have h1' := h1
    have h2' := h2
    simp only [List.mem_filter, decide_eq_true_eq] at h1 h2
    refine hM.stable d g ⟨h1.1, h2.1, h3, fun h => h4 ⟨h, h1.2⟩, ?_, ?_⟩
    · intro g' hg'
      have hm : g' ∈ gs.filter (fun g => decide (g.id ≠ g0.id)) := by
        simp only [List.mem_filter, decide_eq_true_eq]
        exact ⟨(hM.mem _ _ hg').2, hgne _ _ hg' h1.2⟩
      rcases h5 g' ⟨hg', h1.2⟩ with h | ⟨h, hb⟩
      · exact Or.inl h
      · exact Or.inr ⟨h, before_sublist hg List.filter_sublist hm h2' hb⟩
    · intro d' hd'
      have hne := hdne _ _ hd' h2.2
      have hm : d' ∈ ds.filter (fun d => decide (d.id ≠ d0.id)) := by
        simp only [List.mem_filter, decide_eq_true_eq]
        exact ⟨(hM.mem _ _ hd').1, hne⟩
      rcases h6 d' ⟨hd', hne⟩ with h | ⟨h, hb⟩
      · exact Or.inl h
      · exact Or.inr ⟨h, before_sublist hd List.filter_sublist h1' hm hb⟩

/-- The scene without the element `k`. -/
def without (els : Elements ι σ P) (k : ι) : Elements ι σ P := els.filter (fun p => decide (p.1 ≠ k))

theorem values_without {els : Elements ι σ P} (h : WellKeyed els) (k : ι) :
    Dict.values (without els k) = els.values.filter (fun e => decide (e.id ≠ k)) := by
  unfold without Dict.values
  rw [List.filter_map]
  congr 1
  apply List.filter_congr
  intro p hp
  simp [h.2 p hp]

/-! ### Categories -/

theorem nGt_get? {cats : List String} {gts : List (Obj ι σ P)} :
    ∃ d, nGtByCategory cats gts = .ok d ∧ ∀ cat, d.get? cat =
      if cat ∈ cats then some (gts.filter (fun e => decide (e.category = cat) && e.evaluated)).length else none := by
  have h0 : ∀ (υ : Type) (v : υ) (l : List String) (d : Dict String υ) (cat : String),
      (l.foldl (fun d c => Dict.set d c v) d).get? cat = if cat ∈ l then some v else d.get? cat := by
    intro υ v l
    induction l with
    | nil => intro d cat; simp
    | cons c l ih =>
      intro d cat
      rw [List.foldl_cons, ih, Dict.get?_set]
      by_cases h1 : cat ∈ l
      · simp [h1]
      · by_cases h2 : c = cat
        · simp [h2]
        · simp [h1, h2, Ne.symm h2]
  unfold nGtByCategory
  obtain ⟨d, hd, hI⟩ := foldlM_ok (ε := PyErr) (I := fun (pre : List (Obj ι σ P)) (d : Dict String ℕ) =>
      ∀ cat, d.get? cat = if cat ∈ cats then
        some (pre.filter (fun e => decide (e.category = cat) && e.evaluated)).length else none)
    (f := fun (d : Dict String ℕ) (e : Obj ι σ P) => if e.category ∈ cats ∧ e.evaluated = true then do
      let n ← Dict.get d e.category
      pure (d.set e.category (n + 1))
    else pure d) (b := cats.foldl (fun d c => Dict.set d c 0) []) (l := gts) (by
      intro cat; rw [h0]; by_cases h : cat ∈ cats <;> simp [h, Dict.get?]) (by
      intro pre e post d _ hI
      by_cases he : e.category ∈ cats ∧ e.evaluated = true
      · have hg := hI e.category
        rw [if_pos he.1] at hg
        rw [if_pos he]
        simp only [Dict.get_eq_ok.2 hg, bind, Except.bind, pure, Except.pure]
        refine ⟨_, rfl, ?_⟩
        intro cat
        rw [Dict.get?_set]
        by_cases hc : e.category = cat
        · subst hc; simp [he.1, he.2, List.filter_append]
        · rw [if_neg hc, hI cat]
          simp [List.filter_append, hc]
      · rw [if_neg he]
        refine ⟨d, rfl, ?_⟩
        intro cat
        rw [hI cat]
        by_cases hc : cat ∈ cats
        · simp only [hc, if_true, List.filter_append]
          have : List.filter (fun e => decide (e.category = cat) && e.evaluated) [e] = [] := by
            rw [List.filter_eq_nil_iff]
            intro x hx
            simp only [List.mem_singleton] at hx
            subst hx
            intro hh
            simp only [Bool.and_eq_true, decide_eq_true_eq] at hh
            exact he ⟨hh.1 ▸ hc, hh.2⟩
          rw [this]; simp
        · simp [hc])
  exact ⟨d, hd, hI⟩

theorem foldl_set_const {υ : Type} (v : υ) (l : List String) (d : Dict String υ) (cat : String) :
    (l.foldl (fun d c => Dict.set d c v) d).get? cat = if cat ∈ l then some v else d.get? cat := by
  induction l generalizing d with
  | nil => simp
  | cons c l ih =>
    rw [List.foldl_cons, ih, Dict.get?_set]
    by_cases h1 : cat ∈ l
    · simp [h1]
    · by_cases h2 : c = cat
      · simp [h2]
      · simp [h1, h2, Ne.symm h2]

theorem detVectorsByCategory_get? {ev : Evaluator ι σ τ P} {t : τ} (A : String → Dict ι (Corr ι σ τ))
    (hA : ∀ e ∈ ev.submission.values, e.category ∈ ev.settings.categories →
      ∃ da, ev.category.get? e.category = some da ∧ da.get? t = some (A e.category)) :
    ∃ d, detVectorsByCategory ev t = .ok d ∧ ∀ cat, cat ∈ ev.settings.categories → d.get? cat =
      some (detVectors (ev.submission.values.filter (fun e => decide (e.category = cat))) (A cat)) := by
  unfold detVectorsByCategory
  obtain ⟨d, hd, hI⟩ := foldlM_ok (ε := PyErr)
    (I := fun (pre : List (Obj ι σ P)) (d : Dict String (List ℤ × List σ)) =>
      ∀ cat ∈ ev.settings.categories, d.get? cat =
        some (detVectors (pre.filter (fun e => decide (e.category = cat))) (A cat)))
    (f := fun (d : Dict String (List ℤ × List σ)) (e : Obj ι σ P) => if e.category ∈ ev.settings.categories then do
      let da ← ev.category.get e.category
      let a ← da.get t
      let v ← Dict.get d e.category
      pure (d.set e.category (detStep a v e))
    else pure d) (b := ev.settings.categories.foldl (fun d c => Dict.set d c ([], [])) [])
    (l := ev.submission.values) (by
      intro cat hc; rw [foldl_set_const, if_pos hc]; rfl) (by
      intro pre e post d hl hI
      by_cases he : e.category ∈ ev.settings.categories
      · obtain ⟨da, h1, h2⟩ := hA e (by rw [hl]; simp) he
        rw [if_pos he]
        simp only [Dict.get_eq_ok.2 h1, Dict.get_eq_ok.2 h2, Dict.get_eq_ok.2 (hI _ he), bind, Except.bind,
          pure, Except.pure]
        refine ⟨_, rfl, ?_⟩
        intro cat hc
        rw [Dict.get?_set]
        by_cases hec : e.category = cat
        · subst hec
          simp [detVectors, List.filter_append]
        · rw [if_neg hec, hI cat hc]
          simp [List.filter_append, hec]
      · rw [if_neg he]
        refine ⟨d, rfl, ?_⟩
        intro cat hc
        have hec : e.category ≠ cat := fun h => he (h ▸ hc)
        rw [hI cat hc]
        simp [List.filter_append, hec])
  exact ⟨d, hd, hI⟩

theorem values_ofCategory (els : Elements ι σ P) (cat : String) :
    Dict.values (ofCategory els cat) = els.values.filter (fun e => decide (e.category = cat)) := by
  unfold ofCategory Dict.values
  rw [List.filter_map]
  rfl

end Sumo
