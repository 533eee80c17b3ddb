import Verif.Lemmas.Assoc

/-! From the loops to `Evaluator.build`. -/

set_option linter.unusedSectionVars false

namespace Sumo
open AssocSpec

variable {ι σ τ P : Type} [DecidableEq ι] [LinearOrder σ] [LinearOrder τ]

theorem build_ok {sim : Obj ι σ P → Obj ι σ P → τ} {sub gt : Elements ι σ P} {s : AssocSettings τ}
    {ev : Evaluator ι σ τ P} (h : Evaluator.build sim sub gt s = .ok ev) :
    agnosticAssoc sub (npSort s.thresholds) (makeSimCache sim sub gt) = .ok ev.agnostic ∧
    categoryAssoc sub gt (npSort s.thresholds) s.categories (makeSimCache sim sub gt) = .ok ev.category ∧
    ev.submission = sub ∧ ev.groundTruth = gt ∧ ev.simCache = makeSimCache sim sub gt ∧
    ev.settings = { thresholds := npSort s.thresholds, categories := s.categories } := by
  unfold Evaluator.build at h
  cases h1 : agnosticAssoc sub (npSort s.thresholds) (makeSimCache sim sub gt) with
  | error e => simp [h1, bind, Except.bind] at h
  | ok ag =>
    cases h2 : categoryAssoc sub gt (npSort s.thresholds) s.categories (makeSimCache sim sub gt) with
    | error e => simp [h1, h2, bind, Except.bind] at h
    | ok ca =>
      simp only [h1, h2, bind, Except.bind, pure, Except.pure, Except.ok.injEq] at h
      subst h
      simp

theorem build_agnostic {sim : Obj ι σ P → Obj ι σ P → τ} {sub gt : Elements ι σ P} {s : AssocSettings τ}
    {ev : Evaluator ι σ τ P} (h : Evaluator.build sim sub gt s = .ok ev) (t : τ)
    (a : Dict ι (Corr ι σ τ)) :
    ev.agnostic.get? t = some a ↔ t ∈ s.thresholds ∧
      matchAll (pruneCache t (makeSimCache sim sub gt)) sub.values = .ok a := by
  rw [agnosticAssoc_get? (pairwise_npSort _) (rowsNodup_makeSimCache sim sub gt) (build_ok h).1,
    mem_npSort]

theorem matched_isGreedy {sim : Obj ι σ P → Obj ι σ P → τ} {t : τ} {sub gt : Elements ι σ P}
    (hd : DistinctIds sub.values) (hg : DistinctIds gt.values) {a : Dict ι (Corr ι σ τ)}
    (h : matchAll (pruneCache t (makeSimCache sim sub gt)) sub.values = .ok a) :
    IsGreedy sim t sub.values gt.values (Matched sub.values gt.values a) := by
  obtain ⟨asg, hI⟩ := matchAll_loopInv hd hg h
  have hm : ∀ d g, Matched sub.values gt.values a d g → a.get? d.id = some (corrOf sim d g) ∧
      t ≤ sim d g := by
    rintro d g ⟨hdm, hgm, c, hc, hcg⟩
    obtain ⟨d', hd', g', hg', he, rfl, hs⟩ := hI.sound _ _ hc
    rw [mem_pySortedRev] at hd'
    have e1 := eq_of_id_eq hd hdm hd' he
    have e2 := eq_of_id_eq hg hg' hgm hcg
    subst e1; subst e2
    exact ⟨hc, hs⟩
  refine { mem := fun d g h => ⟨h.1, h.2.1⟩, similar := fun d g h => (hm d g h).2, one_gt := ?_,
           one_det := ?_, stable := ?_ }
  · rintro d g g' ⟨_, h1, c, hc, hcg⟩ ⟨_, h2, c', hc', hcg'⟩
    rw [hc] at hc'; simp at hc'; subst hc'
    exact eq_of_id_eq hg h1 h2 (hcg.symm.trans hcg')
  · rintro d d' g ⟨h1, _, c, hc, hcg⟩ ⟨h2, _, c', hc', hcg'⟩
    exact eq_of_id_eq hd h1 h2 (matchAll_inj h hc hc' (hcg.trans hcg'.symm))
  · rintro d g ⟨hdm, hgm, hs, hn, hp, hr⟩
    rcases hI.stable d ((mem_pySortedRev _ _ _).2 hdm) g hgm hs with
      ⟨g', hg', h1, h2⟩ | ⟨d', hd', h1, h2⟩
    · have hM : Matched sub.values gt.values a d g' := ⟨hdm, hg', _, h1, rfl⟩
      rcases h2 with rfl | h2
      · exact hn hM
      · exact prefers_asymm (hp g' hM) h2
    · rw [mem_pySortedRev] at hd'
      exact outranks_asymm (hr d' ⟨hd', hgm, _, h1, rfl⟩) h2

/-- The full content of the association, from the matched relation. -/
theorem get?_iff_matched {sim : Obj ι σ P → Obj ι σ P → τ} {t : τ} {sub gt : Elements ι σ P}
    (hd : DistinctIds sub.values) (hg : DistinctIds gt.values) {a : Dict ι (Corr ι σ τ)}
    (h : matchAll (pruneCache t (makeSimCache sim sub gt)) sub.values = .ok a) (i : ι) (c : Corr ι σ τ) :
    a.get? i = some c ↔ ∃ d g, Matched sub.values gt.values a d g ∧ d.id = i ∧ c = corrOf sim d g := by
  obtain ⟨asg, hI⟩ := matchAll_loopInv hd hg h
  constructor
  · intro hc
    obtain ⟨d', hd', g', hg', he, rfl, hs⟩ := hI.sound _ _ hc
    rw [mem_pySortedRev] at hd'
    exact ⟨d', g', ⟨hd', hg', _, he ▸ hc, rfl⟩, he.symm, rfl⟩
  · rintro ⟨d, g, ⟨hdm, hgm, c', hc', hcg⟩, rfl, rfl⟩
    obtain ⟨d', hd', g', hg', he, rfl, hs⟩ := hI.sound _ _ hc'
    rw [mem_pySortedRev] at hd'
    have e1 := eq_of_id_eq hd hdm hd' he
    have e2 := eq_of_id_eq hg hg' hgm hcg
    subst e1; subst e2; exact hc'

/-- Two associations with the same matched pairs are equal as maps. -/
theorem get?_congr {sim : Obj ι σ P → Obj ι σ P → τ} {t t' : τ} {sub gt sub' gt' : Elements ι σ P}
    (hd : DistinctIds sub.values) (hg : DistinctIds gt.values)
    (hd' : DistinctIds sub'.values) (hg' : DistinctIds gt'.values) {a a' : Dict ι (Corr ι σ τ)}
    (h : matchAll (pruneCache t (makeSimCache sim sub gt)) sub.values = .ok a)
    (h' : matchAll (pruneCache t' (makeSimCache sim sub' gt')) sub'.values = .ok a')
    (hm : ∀ d g, Matched sub.values gt.values a d g ↔ Matched sub'.values gt'.values a' d g) (i : ι) :
    a.get? i = a'.get? i := by
  apply Option.ext
  intro c
  rw [get?_iff_matched hd hg h, get?_iff_matched hd' hg' h']
  simp only [hm]

/-- Without ties the tie-breaking order is irrelevant. -/
theorem isGreedy_of_noTies {sim : Obj ι σ P → Obj ι σ P → τ} {t : τ} {ds gs : List (Obj ι σ P)}
    {M : Obj ι σ P → Obj ι σ P → Prop} (hM : IsMatching sim t ds gs M)
    (hn : ∀ d g, ¬ StrictBlocking sim t ds gs M d g) (hT : NoTies sim ds gs) :
    IsGreedy sim t ds gs M := by
  refine { hM with stable := ?_ }
  rintro d g ⟨hd, hg, hs, hnm, h1, h2⟩
  refine hn d g ⟨hd, hg, hs, hnm, ?_, ?_⟩
  · intro g' hg'
    rcases h1 g' hg' with h | ⟨h, _⟩
    · exact h
    · have := hT.sims d hd g' (hM.mem _ _ hg').2 g hg h
      subst this; exact absurd hg' hnm
  · intro d' hd'
    rcases h2 d' hd' with h | ⟨h, _⟩
    · exact h
    · have := hT.scores d hd d' (hM.mem _ _ hd').1 h
      subst this; exact absurd hd' hnm

theorem strict_of_isGreedy {sim : Obj ι σ P → Obj ι σ P → τ} {t : τ} {ds gs : List (Obj ι σ P)}
    {M : Obj ι σ P → Obj ι σ P → Prop} (hM : IsGreedy sim t ds gs M) (d g : Obj ι σ P) :
    ¬ StrictBlocking sim t ds gs M d g := by
  rintro ⟨hd, hg, hs, hnm, h1, h2⟩
  exact hM.stable d g ⟨hd, hg, hs, hnm, fun g' h => Or.inl (h1 g' h), fun d' h => Or.inl (h2 d' h)⟩

/-- Whatever the cache, each entry of the result comes from one run of the detection loop. -/
theorem agnosticAssoc_entry {dets : Elements ι σ P} {ts : List τ} {cache : SimCache ι σ τ}
    {r : DataAssoc ι σ τ} (h : agnosticAssoc dets ts cache = .ok r) {t : τ} {a : Dict ι (Corr ι σ τ)}
    (ha : r.get? t = some a) : ∃ c, matchAll c dets.values = .ok a := by
  unfold agnosticAssoc at h
  cases hf : ts.foldlM (threshStep dets.values) (cache, []) with
  | error e => rw [hf] at h; simp [bind, Except.bind] at h
  | ok q =>
    rw [hf] at h
    simp only [bind, Except.bind, pure, Except.pure, Except.ok.injEq] at h
    subst h
    have hinv := foldlM_inv (I := fun (_ : List τ) (st : SimCache ι σ τ × DataAssoc ι σ τ) =>
        ∀ t a, st.2.get? t = some a → ∃ c, matchAll c dets.values = .ok a) (by simp) (by
        intro pre x post st st' _ hI hst t a ha
        unfold threshStep at hst
        cases hm : matchAll (pruneCache x st.1) dets.values with
        | error e => simp [hm, bind, Except.bind] at hst
        | ok b =>
          simp only [hm, bind, Except.bind, pure, Except.pure, Except.ok.injEq] at hst
          subst hst
          simp only [Dict.get?_set] at ha
          split at ha
          · simp at ha; subst ha; exact ⟨_, hm⟩
          · exact hI t a ha) hf
    exact hinv t a ha

/-! ### Categories -/

theorem byCategory_eq {els : Elements ι σ P} (h : els.NodupKeys) (cat : String) :
    byCategory els cat = els.filter (fun p => decide (p.2.category = cat)) := by
  unfold byCategory
  have key : ∀ (l : Elements ι σ P) (d : Elements ι σ P), (l.map Prod.fst).Nodup →
      (∀ p ∈ l, p.1 ∉ Dict.keys d) →
      l.foldl (fun d p => if p.2.category = cat then Dict.set d p.1 p.2 else d) d =
        d ++ l.filter (fun p => decide (p.2.category = cat)) := by
    intro l
    induction l with
    | nil => intro d _ _; simp
    | cons p l ih =>
      intro d hn hd
      simp only [List.map_cons, List.nodup_cons] at hn
      rw [List.foldl_cons]
      by_cases hc : p.2.category = cat
      · simp only [hc, if_true]
        rw [Dict.set_of_not_mem (hd p (by simp)), ih _ hn.2]
        · simp [hc]
        · intro q hq
          simp only [Dict.keys, List.map_append, List.map_cons, List.map_nil, List.mem_append,
            List.mem_singleton, not_or]
          refine ⟨hd q (by simp [hq]), ?_⟩
          intro e; exact hn.1 (e ▸ List.mem_map_of_mem hq)
      · simp only [hc, if_false]
        rw [ih _ hn.2 (fun q hq => hd q (by simp [hq]))]
        simp [hc]
  simpa using key els [] h (by simp [Dict.keys])

theorem wellKeyed_filter {els : Elements ι σ P} (h : WellKeyed els) (f : ι × Obj ι σ P → Bool) :
    WellKeyed (els.filter f) :=
  ⟨Dict.nodupKeys_filter h.1 f, fun p hp => h.2 p (List.mem_of_mem_filter hp)⟩

theorem keys_eq_ids {els : Elements ι σ P} (h : WellKeyed els) :
    els.keys = els.values.map Obj.id := by
  unfold Dict.keys Dict.values
  rw [List.map_map]
  exact List.map_congr_left h.2

theorem catRow_eq (sim : Obj ι σ P → Obj ι σ P → τ) {cache : SimCache ι σ τ} {d : Obj ι σ P}
    {allGts : List (Obj ι σ P)} (ha : DistinctIds allGts)
    (hc : cache.get? d.id = some (simRow sim d allGts)) (gs : List (Obj ι σ P))
    (hgs : DistinctIds gs) (hsub : ∀ g ∈ gs, g ∈ allGts) :
    (gs.map Obj.id).foldlM (fun (row : Dict ι (Corr ι σ τ)) gtId => do
      let full ← cache.get d.id
      match full.get? gtId with
      | some c => pure (row.set gtId c)
      | none => pure row) [] = (.ok (simRow sim d gs) : Except PyErr _) := by
  have hget : cache.get d.id = .ok (simRow sim d allGts) := Dict.get_eq_ok.2 hc
  have hrow : ∀ g ∈ allGts, (simRow sim d allGts).get? g.id = some (corrOf sim d g) := by
    intro g hg
    apply Dict.get?_of_mem (nodupKeys_simRow sim d _)
    rw [simRow_eq sim d ha]
    exact List.mem_map.2 ⟨g, hg, rfl⟩
  rw [simRow_eq sim d hgs]
  simp only [hget, bind, Except.bind]
  have key : ∀ (l : List (Obj ι σ P)) (r : Dict ι (Corr ι σ τ)), (l.map Obj.id).Nodup →
      (∀ g ∈ l, g ∈ allGts) → (∀ g ∈ l, g.id ∉ r.keys) →
      (l.map Obj.id).foldlM (fun (row : Dict ι (Corr ι σ τ)) gtId =>
        match (simRow sim d allGts).get? gtId with
        | some c => pure (row.set gtId c)
        | none => pure row) r = (.ok (r ++ l.map (fun g => (g.id, corrOf sim d g))) : Except PyErr _) := by
    intro l
    induction l with
    | nil => intro r _ _ _; simp [pure, Except.pure]
    | cons g l ih =>
      intro r hn hm hr
      simp only [List.map_cons, List.nodup_cons] at hn
      rw [List.map_cons, List.foldlM_cons, hrow g (hm g (by simp))]
      simp only [pure, Except.pure, bind, Except.bind]
      rw [Dict.set_of_not_mem (hr g (by simp))]
      refine Eq.trans (ih _ hn.2 (fun g hg => hm g (by simp [hg])) ?_) ?_
      rotate_left
      · simp
      · intro q hq
        simp only [Dict.keys, List.map_append, List.map_cons, List.map_nil, List.mem_append,
          List.mem_singleton, not_or]
        refine ⟨hr q (by simp [hq]), ?_⟩
        intro e; exact hn.1 (e ▸ List.mem_map_of_mem hq)
  exact key gs [] hgs hsub (by simp [Dict.keys])

theorem catCache_eq (sim : Obj ι σ P → Obj ι σ P → τ) {sub gt : Elements ι σ P}
    (hs : WellKeyed sub) (hg : WellKeyed gt) (f f' : ι × Obj ι σ P → Bool) :
    catCache (makeSimCache sim sub gt) (sub.filter f) (gt.filter f') =
      .ok (makeSimCache sim (sub.filter f) (gt.filter f')) := by
  have hsf := wellKeyed_filter hs f
  have hgf := wellKeyed_filter hg f'
  have hsd := distinctIds_of_wellKeyed hs
  have hgd := distinctIds_of_wellKeyed hg
  have hgsub : ∀ g ∈ Dict.values (gt.filter f'), g ∈ gt.values := by
    intro g hg
    unfold Dict.values at *
    obtain ⟨p, hp, rfl⟩ := List.mem_map.1 hg
    exact List.mem_map_of_mem (List.mem_of_mem_filter hp)
  have hssub : ∀ d ∈ Dict.values (sub.filter f), d ∈ sub.values := by
    intro g hg
    unfold Dict.values at *
    obtain ⟨p, hp, rfl⟩ := List.mem_map.1 hg
    exact List.mem_map_of_mem (List.mem_of_mem_filter hp)
  have hcache : ∀ d ∈ sub.values, (makeSimCache sim sub gt).get? d.id = some (simRow sim d gt.values) := by
    intro d hd
    rw [makeSimCache_eq sim hsd]
    apply Dict.get?_of_mem
    · unfold Dict.NodupKeys Dict.keys; rw [List.map_map]; exact hsd
    · exact List.mem_map.2 ⟨d, hd, rfl⟩
  rw [makeSimCache_eq sim (distinctIds_of_wellKeyed hsf)]
  unfold catCache
  rw [keys_eq_ids hsf, keys_eq_ids hgf]
  have key : ∀ (l : List (Obj ι σ P)) (acc : SimCache ι σ τ), (l.map Obj.id).Nodup →
      (∀ d ∈ l, d ∈ sub.values) → (∀ d ∈ l, d.id ∉ acc.keys) →
      (l.map Obj.id).foldlM (fun (acc : SimCache ι σ τ) detId => do
        let row ← ((Dict.values (gt.filter f')).map Obj.id).foldlM
          (fun (row : Dict ι (Corr ι σ τ)) gtId => do
            let full ← (makeSimCache sim sub gt).get detId
            match full.get? gtId with
            | some c => pure (row.set gtId c)
            | none => pure row) []
        pure (acc.set detId row)) acc =
      (.ok (acc ++ l.map (fun d => (d.id, simRow sim d (Dict.values (gt.filter f'))))) : Except PyErr _) := by
    intro l
    induction l with
    | nil => intro r _ _ _; simp [pure, Except.pure]
    | cons d l ih =>
      intro acc hn hm hr
      simp only [List.map_cons, List.nodup_cons] at hn
      rw [List.map_cons, List.foldlM_cons,
        catRow_eq sim hgd (hcache d (hm d (by simp))) _ (distinctIds_of_wellKeyed hgf) hgsub]
      have h1 := Dict.set_of_not_mem (hr d (by simp)) (simRow sim d (Dict.values (gt.filter f')))
      have h2 := ih (acc ++ [(d.id, simRow sim d (Dict.values (gt.filter f')))]) hn.2
        (fun d hd => hm d (by simp [hd])) (by
          intro q hq
          simp only [Dict.keys, List.map_append, List.map_cons, List.map_nil, List.mem_append,
            List.mem_singleton, not_or]
          refine ⟨hr q (by simp [hq]), ?_⟩
          intro e; exact hn.1 (e ▸ List.mem_map_of_mem hq))
      simp only [bind, Except.bind, pure, Except.pure] at h2 ⊢
      rw [h1, h2]
      simp
  exact key (Dict.values (sub.filter f)) [] (distinctIds_of_wellKeyed hsf) hssub (by simp [Dict.keys])

/-- The category loop: what the result holds for each category. -/
theorem categoryAssoc_get? {sub gt : Elements ι σ P} {ts : List τ} {cats : List String}
    {cache : SimCache ι σ τ} {r : Dict String (DataAssoc ι σ τ)}
    (h : categoryAssoc sub gt ts cats cache = .ok r) (cat : String) :
    (cat ∈ cats → (byCategory sub cat).length + (byCategory gt cat).length ≠ 0 →
      ∃ cc da, catCache cache (byCategory sub cat) (byCategory gt cat) = .ok cc ∧
        agnosticAssoc (byCategory sub cat) ts cc = .ok da ∧ r.get? cat = some da) ∧
    ((cat ∉ cats ∨ (byCategory sub cat).length + (byCategory gt cat).length = 0) → r.get? cat = none) := by
  have hinv := foldlM_inv (I := fun (pre : List String) (acc : Dict String (DataAssoc ι σ τ)) =>
      (cat ∈ pre → (byCategory sub cat).length + (byCategory gt cat).length ≠ 0 →
        ∃ cc da, catCache cache (byCategory sub cat) (byCategory gt cat) = .ok cc ∧
        agnosticAssoc (byCategory sub cat) ts cc = .ok da ∧ acc.get? cat = some da) ∧
      ((cat ∉ pre ∨ (byCategory sub cat).length + (byCategory gt cat).length = 0) →
        acc.get? cat = none))
    (by simp) (by
      intro pre x post acc acc' _ hI hst
      by_cases hz : (byCategory sub x).length + (byCategory gt x).length = 0
      · simp only [hz, if_true, pure, Except.pure, Except.ok.injEq] at hst
        subst hst
        constructor
        · intro hm hnz
          rcases List.mem_append.1 hm with hm | hm
          · exact hI.1 hm hnz
          · simp at hm; subst hm; exact absurd hz hnz
        · rintro (hm | hm)
          · exact hI.2 (Or.inl (fun h => hm (List.mem_append_left _ h)))
          · exact hI.2 (Or.inr hm)
      · simp only [hz, if_false] at hst
        cases hcc : catCache cache (byCategory sub x) (byCategory gt x) with
        | error e => rw [hcc] at hst; simp [bind, Except.bind] at hst
        | ok cc =>
          rw [hcc] at hst
          cases hda : agnosticAssoc (byCategory sub x) ts cc with
          | error e => simp [hda, bind, Except.bind] at hst
          | ok da =>
            simp only [hda, bind, Except.bind, pure, Except.pure, Except.ok.injEq] at hst
            subst hst
            by_cases hx : x = cat
            · subst hx
              constructor
              · intro _ _; exact ⟨cc, da, hcc, hda, by simp⟩
              · rintro (hm | hm)
                · simp at hm
                · exact absurd hm hz
            · rw [Dict.get?_set_ne _ _ hx]
              constructor
              · intro hm hnz
                rcases List.mem_append.1 hm with hm | hm
                · exact hI.1 hm hnz
                · simp at hm; exact absurd hm.symm hx
              · rintro (hm | hm)
                · exact hI.2 (Or.inl (fun h => hm (List.mem_append_left _ h)))
                · exact hI.2 (Or.inr hm)) h
  exact hinv

/-- Construction succeeds on well-keyed scenes. -/
theorem build_succeeds (sim : Obj ι σ P → Obj ι σ P → τ) {sub gt : Elements ι σ P}
    (hs : WellKeyed sub) (hg : WellKeyed gt) (s : AssocSettings τ) :
    ∃ ev, Evaluator.build sim sub gt s = .ok ev := by
  obtain ⟨ag, hag⟩ := agnosticAssoc_succeeds (dets := sub) (ts := npSort s.thresholds)
    (cache := makeSimCache sim sub gt) (fun d hd => mem_keys_makeSimCache sim sub gt hd)
  have hcat : ∃ ca, categoryAssoc sub gt (npSort s.thresholds) s.categories
      (makeSimCache sim sub gt) = .ok ca := by
    have := foldlM_ok (ε := PyErr) (I := fun _ _ => True)
      (f := fun (acc : Dict String (DataAssoc ι σ τ)) cat => do
        let ds := byCategory sub cat
        let gs := byCategory gt cat
        if ds.length + gs.length = 0 then pure acc
        else do
          let cc ← catCache (makeSimCache sim sub gt) ds gs
          let a ← agnosticAssoc ds (npSort s.thresholds) cc
          pure (acc.set cat a)) (b := []) (l := s.categories) trivial (by
        intro pre x post acc _ _
        by_cases hz : (byCategory sub x).length + (byCategory gt x).length = 0
        · exact ⟨acc, by simp [hz, pure, Except.pure], trivial⟩
        · rw [byCategory_eq hs.1, byCategory_eq hg.1] at *
          have hsf := wellKeyed_filter hs (fun p => decide (p.2.category = x))
          have hcc := catCache_eq sim hs hg (fun p => decide (p.2.category = x))
            (fun p => decide (p.2.category = x))
          obtain ⟨da, hda⟩ := agnosticAssoc_succeeds (ts := npSort s.thresholds)
            (fun d hd => mem_keys_makeSimCache sim (sub.filter (fun p => decide (p.2.category = x)))
              (gt.filter (fun p => decide (p.2.category = x))) hd)
          exact ⟨acc.set x da, by simp only [hz, if_false, hcc, hda, bind, Except.bind, pure,
            Except.pure], trivial⟩)
    obtain ⟨ca, hca, _⟩ := this
    exact ⟨ca, hca⟩
  obtain ⟨ca, hca⟩ := hcat
  exact ⟨_, by unfold Evaluator.build; simp only [hag, hca, bind, Except.bind]; rfl⟩

end Sumo
