import Verif.Props.Scores
import Verif.Lemmas.Pairs

/-!
# Associations of a scene with a copy of itself
-/

set_option linter.unusedSectionVars false

namespace Sumo
open AssocSpec ApSpec

variable {ι σ τ P : Type} [DecidableEq ι] [LinearOrder σ] [LinearOrder τ]

/-- Every detection is most similar to the element with the same id, which exists. -/
structure BestIsSame (sim : Obj ι σ P → Obj ι σ P → τ) (ts : List τ) (ds gs : List (Obj ι σ P)) : Prop where
  ids : ∀ i, (∃ d ∈ ds, d.id = i) ↔ ∃ g ∈ gs, g.id = i
  enough : ∀ d ∈ ds, ∀ g ∈ gs, d.id = g.id → ∀ t ∈ ts, t ≤ sim d g
  best : ∀ d ∈ ds, ∀ g ∈ gs, ∀ g' ∈ gs, d.id = g.id → d.id ≠ g'.id → sim d g' < sim d g

theorem identity_isGreedy {sim : Obj ι σ P → Obj ι σ P → τ} {ts : List τ} {ds gs : List (Obj ι σ P)}
    (hd : DistinctIds ds) (hg : DistinctIds gs) (hb : BestIsSame sim ts ds gs) {t : τ} (ht : t ∈ ts) :
    IsGreedy sim t ds gs (fun d g => d ∈ ds ∧ g ∈ gs ∧ d.id = g.id) where
  mem := fun d g h => ⟨h.1, h.2.1⟩
  similar := fun d g h => hb.enough d h.1 g h.2.1 h.2.2 t ht
  one_gt := fun d g g' h h' => eq_of_id_eq hg h.2.1 h'.2.1 (h.2.2.symm.trans h'.2.2)
  one_det := fun d d' g h h' => eq_of_id_eq hd h.1 h'.1 (h.2.2.trans h'.2.2.symm)
  stable := by
    rintro d g ⟨hdm, hgm, -, hn, hp, -⟩
    obtain ⟨g', hg', hid⟩ := (hb.ids d.id).1 ⟨d, hdm, rfl⟩
    have hne : d.id ≠ g.id := fun h => hn ⟨hdm, hgm, h⟩
    have hlt := hb.best d hdm g' hg' g hgm hid.symm hne
    rcases hp g' ⟨hdm, hg', hid.symm⟩ with h | ⟨h, -⟩
    · exact absurd h (not_lt.2 hlt.le)
    · exact absurd h hlt.ne'

variable {sim : Obj ι σ P → Obj ι σ P → τ} {sub gt : Elements ι σ P} {s : AssocSettings τ} {ev : Evaluator ι σ τ P}

/-- A copy is matched with itself. -/
theorem identity_matched (h : Evaluator.build sim sub gt s = .ok ev) (hs : WellKeyed sub) (hg : WellKeyed gt)
    (hb : BestIsSame sim s.thresholds sub.values gt.values) {t : τ} (ht : t ∈ s.thresholds) (d g : Obj ι σ P) :
    Matched sub.values gt.values (assocAt ev.agnostic t) d g ↔ d ∈ sub.values ∧ g ∈ gt.values ∧ d.id = g.id := by
  obtain ⟨a, ha⟩ := (C05_threshold_independent h h t).1.1 ht
  have e : assocAt ev.agnostic t = a := by unfold assocAt; rw [ha]; rfl
  rw [e]
  have hG := identity_isGreedy (distinctIds_of_wellKeyed hs) (distinctIds_of_wellKeyed hg) hb ht
  exact ((C04_greedy_unique_ties h hs hg ha _).1 hG d g).symm

/-- Its table has one entry per id. -/
theorem identity_get? (h : Evaluator.build sim sub gt s = .ok ev) (hs : WellKeyed sub) (hg : WellKeyed gt)
    (hb : BestIsSame sim s.thresholds sub.values gt.values) {t : τ} (ht : t ∈ s.thresholds) {d g : Obj ι σ P}
    (hd : d ∈ sub.values) (hgm : g ∈ gt.values) (he : d.id = g.id) :
    ∃ c, (assocAt ev.agnostic t).get? d.id = some c ∧ c.evaluated = g.evaluated := by
  obtain ⟨-, -, c, hc, hcg⟩ := (identity_matched h hs hg hb ht d g).2 ⟨hd, hgm, he⟩
  refine ⟨c, hc, ?_⟩
  obtain ⟨d1, g1, hM, -, rfl⟩ := (get?_iff_matched (distinctIds_of_wellKeyed hs) (distinctIds_of_wellKeyed hg)
    (matchAll_of_assocAt h ht) d.id c).1 hc
  have : g1 = g := eq_of_id_eq (distinctIds_of_wellKeyed hg) hM.2.1 hgm hcg
  subst this; rfl

theorem identity_vectors (h : Evaluator.build sim sub gt s = .ok ev) (hs : WellKeyed sub) (hg : WellKeyed gt)
    (hb : BestIsSame sim s.thresholds sub.values gt.values) {t : τ} (ht : t ∈ s.thresholds) :
    (∀ m ∈ (detVectors sub.values (assocAt ev.agnostic t)).1, m = 1) ∧
    (detVectors sub.values (assocAt ev.agnostic t)).1.length = nEvaluated gt.values := by
  classical
  have hdd := distinctIds_of_wellKeyed hs
  have hgd := distinctIds_of_wellKeyed hg
  have hent : ∀ d ∈ sub.values, detEntry (assocAt ev.agnostic t) d =
      if (∃ g ∈ gt.values, g.id = d.id ∧ g.evaluated = true) then some (1, d.score) else none := by
    intro d hd
    obtain ⟨g, hgm, hid⟩ := (hb.ids d.id).1 ⟨d, hd, rfl⟩
    obtain ⟨c, hc, hce⟩ := identity_get? h hs hg hb ht hd hgm hid.symm
    unfold detEntry
    rw [hc]
    dsimp only
    rw [hce]
    by_cases hge : g.evaluated = true
    · rw [if_pos hge, if_pos ⟨g, hgm, hid, hge⟩]
    · rw [if_neg hge, if_neg]
      rintro ⟨g', hg', hid', he'⟩
      rw [eq_of_id_eq hgd hg' hgm (hid'.trans hid.symm)] at he'
      exact hge he'
  rw [detVectors_eq]
  dsimp only
  have hfm : sub.values.filterMap (detEntry (assocAt ev.agnostic t)) =
      (sub.values.filter (fun d => decide (∃ g ∈ gt.values, g.id = d.id ∧ g.evaluated = true))).map
        (fun d => ((1 : ℤ), d.score)) := by
    rw [← List.filterMap_eq_map, List.filterMap_filter]
    apply List.filterMap_congr
    intro d hd
    rw [hent d hd]
    simp only [decide_eq_true_eq, Function.comp]
  rw [hfm]
  constructor
  · intro m hm
    simp only [List.map_map, List.mem_map, Function.comp] at hm
    obtain ⟨-, -, rfl⟩ := hm
    rfl
  · rw [List.length_map, List.length_map]
    unfold nEvaluated
    have hp : ((sub.values.filter (fun d => decide (∃ g ∈ gt.values, g.id = d.id ∧ g.evaluated = true))).map Obj.id).Perm
        ((gt.values.filter (fun v => v.evaluated)).map Obj.id) := by
      rw [List.perm_ext_iff_of_nodup]
      · intro i
        simp only [List.mem_map, List.mem_filter, decide_eq_true_eq]
        constructor
        · rintro ⟨d, ⟨-, g, hgm, hid, hge⟩, rfl⟩
          exact ⟨g, ⟨hgm, hge⟩, hid⟩
        · rintro ⟨g, ⟨hgm, hge⟩, rfl⟩
          obtain ⟨d, hd, hid⟩ := (hb.ids g.id).2 ⟨g, hgm, rfl⟩
          exact ⟨d, ⟨hd, g, hgm, hid.symm, hge⟩, hid⟩
      · exact hdd.sublist (List.Sublist.map _ List.filter_sublist)
      · exact hgd.sublist (List.Sublist.map _ List.filter_sublist)
    simpa using hp.length_eq

theorem npMean_const {l : List ℚ} {x : ℚ} (hl : l ≠ []) (h : ∀ y ∈ l, y = x) : npMean l = some x := by
  have : l = List.replicate l.length x := List.eq_replicate_iff.2 ⟨rfl, h⟩
  have h0 : (l.length : ℚ) ≠ 0 := by
    have := List.length_pos_iff.2 hl
    positivity
  rw [this]
  unfold npMean
  rw [if_neg (by simpa using hl)]
  simp only [List.sum_replicate, List.length_replicate, nsmul_eq_mul]
  congr 1
  field_simp

/-- The shape score of a copy. -/
theorem identity_shapeScore {argsort : List σ → List ℕ} (hsort : ∀ l, IsArgsort (argsort l) l)
    (h : Evaluator.build sim sub gt s = .ok ev) (hs : WellKeyed sub) (hg : WellKeyed gt)
    (hb : BestIsSame sim s.thresholds sub.values gt.values) (hne : s.thresholds ≠ [])
    (hev : nEvaluated gt.values ≠ 0) (samples : List ℚ) :
    shapeScore argsort ev samples =
      .ok (some ((nEvaluated gt.values : ℚ) / ((nEvaluated gt.values : ℚ) + epsilon))) := by
  rw [shapeScore_eq hsort h, if_neg hev]
  congr 1
  apply npMean_const
  · obtain ⟨t, ht'⟩ := List.exists_mem_of_ne_nil _ hne
    have := List.ne_nil_of_mem ((mem_settings h).2 ht')
    simpa using this
  · intro y hy
    obtain ⟨t, ht, rfl⟩ := List.mem_map.1 hy
    obtain ⟨h1, h2⟩ := identity_vectors h hs hg hb ((mem_settings h).1 ht)
    obtain ⟨p, r, hc⟩ := computeAp_apAt hsort sub.values (assocAt ev.agnostic t) (nEvaluated gt.values) none false
    have := C17_perfect (hsort (detVectors sub.values (assocAt ev.agnostic t)).2)
      (length_detVectors sub.values (assocAt ev.agnostic t))
      (fun m hm => by rw [h1 m hm]; norm_num) (fun h0 => hev (by rw [← h2, h0]; rfl))
    rw [h2] at this
    unfold apOf at this
    rw [hc] at this
    simpa using this

/-- Copies have copies of each category. -/
theorem BestIsSame.ofCategory {ts : List τ} (hb : BestIsSame sim ts sub.values gt.values)
    (hcat : ∀ d ∈ sub.values, ∀ g ∈ gt.values, d.id = g.id → d.category = g.category) (cat : String) :
    BestIsSame sim ts (ofCategory sub cat).values (ofCategory gt cat).values := by
  rw [values_ofCategory, values_ofCategory]
  refine ⟨fun i => ?_, ?_, ?_⟩
  · simp only [List.mem_filter, decide_eq_true_eq]
    constructor
    · rintro ⟨d, ⟨hd, hc⟩, rfl⟩
      obtain ⟨g, hg, hid⟩ := (hb.ids d.id).1 ⟨d, hd, rfl⟩
      exact ⟨g, ⟨hg, (hcat d hd g hg hid.symm).symm.trans hc⟩, hid⟩
    · rintro ⟨g, ⟨hg, hc⟩, rfl⟩
      obtain ⟨d, hd, hid⟩ := (hb.ids g.id).2 ⟨g, hg, rfl⟩
      exact ⟨d, ⟨hd, (hcat d hd g hg hid).trans hc⟩, hid⟩
  · intro d hd g hg he
    exact hb.enough d (List.mem_filter.1 hd).1 g (List.mem_filter.1 hg).1 he
  · intro d hd g hg g' hg' he hne
    exact hb.best d (List.mem_filter.1 hd).1 g (List.mem_filter.1 hg).1 g' (List.mem_filter.1 hg').1 he hne

theorem ratio_bounds {n : ℕ} (hn : n ≠ 0) :
    1 / (1 + epsilon) ≤ (n : ℚ) / ((n : ℚ) + epsilon) ∧ (n : ℚ) / ((n : ℚ) + epsilon) < 1 := by
  have he : (0 : ℚ) < epsilon := by unfold epsilon; norm_num
  have h1 : (1 : ℚ) ≤ n := by exact_mod_cast Nat.one_le_iff_ne_zero.2 hn
  constructor
  · rw [div_le_div_iff₀ (by linarith) (by linarith)]
    nlinarith
  · rw [div_lt_one (by linarith)]
    linarith

theorem npMean_bounds {l : List ℚ} {lo hi : ℚ} (hl : l ≠ []) (h : ∀ y ∈ l, lo ≤ y ∧ y < hi) :
    ∃ x, npMean l = some x ∧ lo ≤ x ∧ x < hi := by
  have h0 : (0 : ℚ) < l.length := by exact_mod_cast List.length_pos_iff.2 hl
  refine ⟨l.sum / l.length, ?_, ?_, ?_⟩
  · unfold npMean
    rw [if_neg (by simpa using hl)]
  · rw [le_div_iff₀ h0]
    have := List.card_nsmul_le_sum l lo (fun y hy => (h y hy).1)
    rw [nsmul_eq_mul] at this
    linarith
  · rw [div_lt_iff₀ h0]
    have := List.sum_lt_sum_of_ne_nil hl (fun y => y) (fun _ => hi) (fun y hy => (h y hy).2)
    simp only [List.map_id', List.map_const', List.sum_replicate, nsmul_eq_mul] at this
    linarith

/-- The semantics score of a copy. -/
theorem identity_semanticsScore {argsort : List σ → List ℕ} (hsort : ∀ l, IsArgsort (argsort l) l)
    (h : Evaluator.build sim sub gt s = .ok ev) (hs : WellKeyed sub) (hg : WellKeyed gt)
    (hb : BestIsSame sim s.thresholds sub.values gt.values) (hne : s.thresholds ≠ [])
    (hcat : ∀ d ∈ sub.values, ∀ g ∈ gt.values, d.id = g.id → d.category = g.category)
    (hev : ∃ cat ∈ s.categories, hasEvaluated gt cat = true) :
    ∃ x, semanticsScore argsort ev = .ok (some x) ∧ 1 / (1 + epsilon) ≤ x ∧ x < 1 := by
  obtain ⟨f, h1, h2, -⟩ := C21_semantics_score hsort h hs hg
  have hf : ∀ t ∈ s.thresholds, ∀ cat ∈ s.categories, hasEvaluated gt cat = true →
      1 / (1 + epsilon) ≤ f t cat ∧ f t cat < 1 := by
    intro t ht cat hc he
    obtain ⟨ev', hev', hsc⟩ := h1 t ht cat hc he
    have hn : nEvaluated (ofCategory gt cat).values ≠ 0 := by
      unfold hasEvaluated at he
      rw [List.any_eq_true] at he
      obtain ⟨g, hg, hge⟩ := he
      rw [Bool.and_eq_true] at hge
      unfold nEvaluated
      rw [values_ofCategory]
      intro h0
      have : g ∈ (gt.values.filter (fun e => decide (e.category = cat))).filter (fun v => v.evaluated) :=
        List.mem_filter.2 ⟨List.mem_filter.2 ⟨hg, hge.1⟩, hge.2⟩
      rw [List.length_eq_zero_iff.1 h0] at this
      simp at this
    have hb' : BestIsSame sim [t] (ofCategory sub cat).values (ofCategory gt cat).values := by
      have := hb.ofCategory hcat cat
      exact ⟨this.ids, fun d hd g hg he t' ht' => this.enough d hd g hg he t' (by simp at ht'; rw [ht']; exact ht), this.best⟩
    have := identity_shapeScore (s := ⟨[t], []⟩) hsort hev' (wellKeyed_filter hs _) (wellKeyed_filter hg _) hb' (by simp) hn []
    rw [hsc] at this
    simp only [Except.ok.injEq, Option.some.injEq] at this
    rw [this]
    exact ratio_bounds hn
  obtain ⟨cat, hc, hce⟩ := hev
  obtain ⟨t, ht⟩ := List.exists_mem_of_ne_nil _ hne
  have hmem : ∀ y ∈ (npSort s.thresholds).flatMap (fun t => (s.categories.filter (hasEvaluated gt)).map (f t)),
      1 / (1 + epsilon) ≤ y ∧ y < 1 := by
    intro y hy
    obtain ⟨t', ht', hy⟩ := List.mem_flatMap.1 hy
    obtain ⟨c, hc, rfl⟩ := List.mem_map.1 hy
    obtain ⟨hc1, hc2⟩ := List.mem_filter.1 hc
    exact hf t' ((mem_npSort _ _).1 ht') c hc1 hc2
  obtain ⟨x, hx, hx1, hx2⟩ := npMean_bounds (lo := 1 / (1 + epsilon)) (hi := 1) (by
    apply List.ne_nil_of_mem (a := f t cat)
    exact List.mem_flatMap.2 ⟨t, (mem_npSort _ _).2 ht, List.mem_map.2 ⟨cat, List.mem_filter.2 ⟨hc, hce⟩, rfl⟩⟩) hmem
  exact ⟨x, by rw [h2, hx], hx1, hx2⟩

end Sumo
