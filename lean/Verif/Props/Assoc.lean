import Verif.Lemmas.AssocProps

/-!
# Properties of data association (C01–C08, C78)

`Evaluator.build` is the constructor shared by the three tracks; `sim` is the track's shape similarity, an
arbitrary function.  `ev.agnostic.get? t` is the association reported at threshold `t`
(det id ↦ correspondence), `ev.category.get? cat` the one for a category.
-/

namespace Sumo
open AssocSpec

variable {ι σ τ P : Type} [DecidableEq ι] [LinearOrder σ] [LinearOrder τ]

/-! A concrete pair of scenes: three detections (two with equal score), two ground truth elements, two of
the similarities tied.  It meets the hypotheses of the theorems below. -/
namespace AssocExample

/-- Element with id, category and score. -/
def mk (i : ℕ) (c : String) (s : ℕ) : ℕ × Obj ℕ ℕ Unit := (i, ⟨i, c, s, true, ()⟩)

def sub : Elements ℕ ℕ Unit := [mk 1 "chair" 5, mk 2 "table" 7, mk 3 "chair" 5]
def gt : Elements ℕ ℕ Unit := [mk 10 "chair" 0, mk 11 "chair" 0, mk 12 "bed" 0]
/-- Similarities in percent. -/
def sim (d g : Obj ℕ ℕ Unit) : ℕ :=
  match d.id, g.id with
  | 1, 10 => 80 | 1, 11 => 40
  | 2, 10 => 60 | 2, 11 => 60
  | 3, 10 => 90 | 3, 11 => 35
  | _, _ => 0
def settings : AssocSettings ℕ := ⟨[50, 30], ["chair", "table", "lamp"]⟩

theorem wk_sub : WellKeyed sub := by unfold WellKeyed Dict.NodupKeys; decide
theorem wk_gt : WellKeyed gt := by unfold WellKeyed Dict.NodupKeys; decide

/-- The evaluator of the example: at threshold 30 detection 2 takes 11 (tie, later element), 1 takes 10;
at 50 likewise; for chairs alone 1 takes 10 and 3 takes 11 at threshold 30. -/
theorem run : (Evaluator.build sim sub gt settings).toOption.map
      (fun ev => (ev.agnostic.map (fun p => (p.1, p.2.map (fun q => (q.1, q.2.gtId)))),
        ev.category.map (fun q => (q.1, q.2.map (fun p => (p.1, p.2.map (fun q => (q.1, q.2.gtId)))))))) =
    some ([(30, [(2, 11), (1, 10)]), (50, [(2, 11), (1, 10)])],
      [("chair", [(30, [(1, 10), (3, 11)]), (50, [(1, 10)])]), ("table", [(30, []), (50, [])])]) := by
  rfl

/-- A tie-free similarity and submission, for C04 and C06. -/
def sub' : Elements ℕ ℕ Unit := [mk 1 "chair" 5, mk 2 "table" 7, mk 3 "chair" 6]
def sim' (d g : Obj ℕ ℕ Unit) : ℕ :=
  match d.id, g.id with
  | 1, 10 => 80 | 1, 11 => 40
  | 2, 10 => 60 | 2, 11 => 70
  | 3, 10 => 90 | 3, 11 => 35
  | _, _ => 0

theorem noTies : NoTies sim' sub'.values gt.values :=
  ⟨by decide, by decide⟩

end AssocExample

/-- **C01**: at every threshold the association is one-to-one, in the agnostic table and in every category
table. No assumption on the scenes, not even that keys are ids. -/
theorem C01_one_to_one {sim : Obj ι σ P → Obj ι σ P → τ} {sub gt : Elements ι σ P} {s : AssocSettings τ}
    {ev : Evaluator ι σ τ P} (h : Evaluator.build sim sub gt s = .ok ev) :
    (∀ t a, ev.agnostic.get? t = some a → ∀ d d' c c', a.get? d = some c → a.get? d' = some c' →
      (c.gtId = c'.gtId ↔ d = d')) ∧
    (∀ cat da t a, ev.category.get? cat = some da → da.get? t = some a →
      ∀ d d' c c', a.get? d = some c → a.get? d' = some c' → (c.gtId = c'.gtId ↔ d = d')) := by
  obtain ⟨hag, hca, _⟩ := build_ok h
  constructor
  · intro t a ha d d' c c' h1 h2
    obtain ⟨cc, hm⟩ := agnosticAssoc_entry hag ha
    refine ⟨fun e => matchAll_inj hm h1 h2 e, ?_⟩
    rintro rfl; rw [h1] at h2; simp at h2; rw [h2]
  · intro cat da t a hda ha d d' c c' h1 h2
    have hcat := categoryAssoc_get? hca cat
    by_cases hc : cat ∉ s.categories ∨ (byCategory sub cat).length + (byCategory gt cat).length = 0
    · rw [hcat.2 hc] at hda; simp at hda
    · push Not at hc
      obtain ⟨cc, da', _, h4, h5⟩ := hcat.1 hc.1 hc.2
      rw [hda] at h5; simp at h5; subst h5
      obtain ⟨cc', hm⟩ := agnosticAssoc_entry h4 ha
      refine ⟨fun e => matchAll_inj hm h1 h2 e, ?_⟩
      rintro rfl; rw [h1] at h2; simp at h2; rw [h2]

/-- Non-vacuity: the example has two distinct matched pairs at threshold 30. -/
example : ∃ ev a c c', Evaluator.build AssocExample.sim AssocExample.sub AssocExample.gt
      AssocExample.settings = .ok ev ∧ ev.agnostic.get? 30 = some a ∧ a.get? 2 = some c ∧ a.get? 1 = some c' :=
  ⟨_, _, _, _, rfl, rfl, rfl, rfl⟩

/-- **C02**: every correspondence reported at `t` joins a submitted and a ground truth element of similarity at
least `t`, with exactly that similarity, the detection's score and the ground truth's flag. -/
theorem C02_matches_are_real {sim : Obj ι σ P → Obj ι σ P → τ} {sub gt : Elements ι σ P}
    {s : AssocSettings τ} {ev : Evaluator ι σ τ P} (h : Evaluator.build sim sub gt s = .ok ev)
    (hs : WellKeyed sub) (hg : WellKeyed gt) {t : τ} {a : Dict ι (Corr ι σ τ)}
    (ha : ev.agnostic.get? t = some a) {i : ι} {c : Corr ι σ τ} (hc : a.get? i = some c) :
    t ∈ s.thresholds ∧ ∃ d g, sub.get? i = some d ∧ gt.get? c.gtId = some g ∧ t ≤ sim d g ∧
      c.detId = i ∧ c.similarity = sim d g ∧ c.detScore = d.score ∧ c.evaluated = g.evaluated := by
  obtain ⟨ht, hm⟩ := (build_agnostic h t a).1 ha
  refine ⟨ht, ?_⟩
  obtain ⟨d, g, hM, rfl, rfl⟩ := (get?_iff_matched (distinctIds_of_wellKeyed hs)
    (distinctIds_of_wellKeyed hg) hm i c).1 hc
  have hgr := matched_isGreedy (distinctIds_of_wellKeyed hs) (distinctIds_of_wellKeyed hg) hm
  have key : ∀ {els : Elements ι σ P}, WellKeyed els → ∀ e ∈ els.values, els.get? e.id = some e := by
    intro els hw e he
    unfold Dict.values at he
    obtain ⟨p, hp, rfl⟩ := List.mem_map.1 he
    rw [← hw.2 p hp]
    exact Dict.get?_of_mem hw.1 hp
  exact ⟨d, g, key hs d hM.1, key hg g hM.2.1, hgr.similar _ _ hM, rfl, rfl, rfl, rfl⟩

example : ∃ ev a c, Evaluator.build AssocExample.sim AssocExample.sub AssocExample.gt
      AssocExample.settings = .ok ev ∧ WellKeyed AssocExample.sub ∧ WellKeyed AssocExample.gt ∧
      ev.agnostic.get? 50 = some a ∧ a.get? 2 = some c :=
  ⟨_, _, _, rfl, AssocExample.wk_sub, AssocExample.wk_gt, rfl, rfl⟩

/-- **C03**: no blocking pair.  A feasible pair that is not matched together has a reason: the detection got
something at least as similar, or the ground truth element went to a detection with at least as high a score. -/
theorem C03_no_blocking_pair {sim : Obj ι σ P → Obj ι σ P → τ} {sub gt : Elements ι σ P}
    {s : AssocSettings τ} {ev : Evaluator ι σ τ P} (h : Evaluator.build sim sub gt s = .ok ev)
    (hs : WellKeyed sub) (hg : WellKeyed gt) {t : τ} {a : Dict ι (Corr ι σ τ)}
    (ha : ev.agnostic.get? t = some a) {d g : Obj ι σ P} (hd : d ∈ sub.values) (hgm : g ∈ gt.values)
    (hsim : t ≤ sim d g) (hn : ∀ c, a.get? d.id = some c → c.gtId ≠ g.id) :
    (∃ c, a.get? d.id = some c ∧ sim d g ≤ c.similarity) ∨
    (∃ d' ∈ sub.values, ∃ c, a.get? d'.id = some c ∧ c.gtId = g.id ∧ d.score ≤ d'.score) := by
  obtain ⟨ht, hm⟩ := (build_agnostic h t a).1 ha
  have hdd := distinctIds_of_wellKeyed hs
  have hgd := distinctIds_of_wellKeyed hg
  obtain ⟨asg, hI⟩ := matchAll_loopInv hdd hgd hm
  rcases hI.stable d ((mem_pySortedRev _ _ _).2 hd) g hgm hsim with ⟨g', hg', h1, h2⟩ | ⟨d', hd', h1, h2⟩
  · refine Or.inl ⟨_, h1, ?_⟩
    rcases h2 with rfl | h2 | h2
    · exact le_refl _
    · exact le_of_lt h2
    · exact le_of_eq h2.1
  · refine Or.inr ⟨d', (mem_pySortedRev _ _ _).1 hd', _, h1, rfl, ?_⟩
    rcases h2 with h2 | h2
    · exact le_of_lt h2
    · exact le_of_eq h2.1.symm

/-- **C03**, second sentence: an unmatched detection lost every feasible element to a detection with at least as
high a score. -/
theorem C03_unmatched {sim : Obj ι σ P → Obj ι σ P → τ} {sub gt : Elements ι σ P}
    {s : AssocSettings τ} {ev : Evaluator ι σ τ P} (h : Evaluator.build sim sub gt s = .ok ev)
    (hs : WellKeyed sub) (hg : WellKeyed gt) {t : τ} {a : Dict ι (Corr ι σ τ)}
    (ha : ev.agnostic.get? t = some a) {d g : Obj ι σ P} (hd : d ∈ sub.values) (hgm : g ∈ gt.values)
    (hsim : t ≤ sim d g) (hn : a.get? d.id = none) :
    ∃ d' ∈ sub.values, ∃ c, a.get? d'.id = some c ∧ c.gtId = g.id ∧ d.score ≤ d'.score := by
  rcases C03_no_blocking_pair h hs hg ha hd hgm hsim (by simp [hn]) with ⟨c, hc, _⟩ | h
  · rw [hn] at hc; simp at hc
  · exact h

/-- In the example detection 3 is unmatched at threshold 50 although it is 90% similar to element 10. -/
example : ∃ ev a d g, Evaluator.build AssocExample.sim AssocExample.sub AssocExample.gt
      AssocExample.settings = .ok ev ∧ ev.agnostic.get? 50 = some a ∧
      d ∈ AssocExample.sub.values ∧ g ∈ AssocExample.gt.values ∧ 50 ≤ AssocExample.sim d g ∧
      a.get? d.id = none :=
  ⟨_, _, (AssocExample.mk 3 "chair" 5).2, (AssocExample.mk 10 "chair" 0).2, rfl, rfl, by decide, by decide,
    by decide, by decide⟩

/-- **C04** in full generality: with ties broken by scene order, the association computed by the evaluator is
the one and only greedy association. -/
theorem C04_greedy_unique_ties {sim : Obj ι σ P → Obj ι σ P → τ} {sub gt : Elements ι σ P}
    {s : AssocSettings τ} {ev : Evaluator ι σ τ P} (h : Evaluator.build sim sub gt s = .ok ev)
    (hs : WellKeyed sub) (hg : WellKeyed gt) {t : τ} {a : Dict ι (Corr ι σ τ)}
    (ha : ev.agnostic.get? t = some a) (M : Obj ι σ P → Obj ι σ P → Prop) :
    IsGreedy sim t sub.values gt.values M ↔ ∀ d g, M d g ↔ Matched sub.values gt.values a d g := by
  obtain ⟨ht, hm⟩ := (build_agnostic h t a).1 ha
  have hdd := distinctIds_of_wellKeyed hs
  have hgd := distinctIds_of_wellKeyed hg
  have hG := matched_isGreedy hdd hgd hm
  constructor
  · intro hM d g; exact greedy_unique hdd hgd hM hG d g
  · intro hM
    have : M = Matched sub.values gt.values a := by funext d g; exact propext (hM d g)
    rw [this]; exact hG

/-- **C04**: without ties, any one-to-one threshold-respecting assignment without a (strictly) blocking pair
equals the association the evaluator computes, and the latter is one. -/
theorem C04_greedy_unique {sim : Obj ι σ P → Obj ι σ P → τ} {sub gt : Elements ι σ P}
    {s : AssocSettings τ} {ev : Evaluator ι σ τ P} (h : Evaluator.build sim sub gt s = .ok ev)
    (hs : WellKeyed sub) (hg : WellKeyed gt) (hT : NoTies sim sub.values gt.values)
    {t : τ} {a : Dict ι (Corr ι σ τ)} (ha : ev.agnostic.get? t = some a)
    (M : Obj ι σ P → Obj ι σ P → Prop) :
    (IsMatching sim t sub.values gt.values M ∧ ∀ d g, ¬ StrictBlocking sim t sub.values gt.values M d g) ↔
      ∀ d g, M d g ↔ Matched sub.values gt.values a d g := by
  rw [← C04_greedy_unique_ties h hs hg ha]
  exact ⟨fun hM => isGreedy_of_noTies hM.1 hM.2 hT, fun hM => ⟨hM.toIsMatching, strict_of_isGreedy hM⟩⟩

example : ∃ ev a, Evaluator.build AssocExample.sim' AssocExample.sub' AssocExample.gt
      AssocExample.settings = .ok ev ∧ ev.agnostic.get? 30 = some a ∧ a.keys = [2, 3] ∧
      NoTies AssocExample.sim' AssocExample.sub'.values AssocExample.gt.values :=
  ⟨_, _, rfl, rfl, rfl, AssocExample.noTies⟩

/-- **C05**: the association at `t` is the same whatever the other thresholds and their order, and there is one
for every threshold in the settings and for no other (per category: `C05_category_threshold_independent`). -/
theorem C05_threshold_independent {sim : Obj ι σ P → Obj ι σ P → τ} {sub gt : Elements ι σ P}
    {s s' : AssocSettings τ} {ev ev' : Evaluator ι σ τ P}
    (h : Evaluator.build sim sub gt s = .ok ev) (h' : Evaluator.build sim sub gt s' = .ok ev') (t : τ) :
    (t ∈ s.thresholds ↔ ∃ a, ev.agnostic.get? t = some a) ∧
    (t ∈ s.thresholds → t ∈ s'.thresholds → ev.agnostic.get? t = ev'.agnostic.get? t) := by
  have hsome : ∀ {s : AssocSettings τ} {ev : Evaluator ι σ τ P}, Evaluator.build sim sub gt s = .ok ev →
      t ∈ s.thresholds → ∃ a, ev.agnostic.get? t = some a := by
    intro s ev h ht
    obtain ⟨a, ha⟩ := matchAll_succeeds (cache := pruneCache t (makeSimCache sim sub gt))
      (dets := sub.values) (fun d hd => by
        rw [keys_pruneCache]; exact mem_keys_makeSimCache sim sub gt hd)
    exact ⟨a, (build_agnostic h t a).2 ⟨ht, ha⟩⟩
  refine ⟨⟨hsome h, fun ⟨a, ha⟩ => ((build_agnostic h t a).1 ha).1⟩, ?_⟩
  intro ht ht'
  obtain ⟨a, ha⟩ := hsome h ht
  have := (build_agnostic h t a).1 ha
  rw [ha]
  exact ((build_agnostic h' t a).2 ⟨ht', this.2⟩).symm

/-- The thresholds 30 and 50 in either order, alone and with others. -/
example : ∃ ev ev' a, Evaluator.build AssocExample.sim AssocExample.sub AssocExample.gt ⟨[50, 30], []⟩ = .ok ev ∧
      Evaluator.build AssocExample.sim AssocExample.sub AssocExample.gt ⟨[30, 85, 10], []⟩ = .ok ev' ∧
      ev.agnostic.get? 30 = some a ∧ ev'.agnostic.get? 30 = some a ∧ a.keys = [2, 1] :=
  ⟨_, _, _, rfl, rfl, rfl, rfl, rfl⟩

/-- **C06**: without ties, permuting the elements of either scene changes nothing in the association. -/
theorem C06_order_independent {sim : Obj ι σ P → Obj ι σ P → τ} {sub gt sub' gt' : Elements ι σ P}
    {s : AssocSettings τ} {ev ev' : Evaluator ι σ τ P}
    (h : Evaluator.build sim sub gt s = .ok ev) (h' : Evaluator.build sim sub' gt' s = .ok ev')
    (hs : WellKeyed sub) (hg : WellKeyed gt) (hps : sub.Perm sub') (hpg : gt.Perm gt')
    (hT : NoTies sim sub.values gt.values) {t : τ} {a a' : Dict ι (Corr ι σ τ)}
    (ha : ev.agnostic.get? t = some a) (ha' : ev'.agnostic.get? t = some a') (i : ι) :
    a.get? i = a'.get? i := by
  have hs' : WellKeyed sub' :=
    ⟨((hps.map Prod.fst).nodup_iff).1 hs.1, fun p hp => hs.2 p (hps.mem_iff.2 hp)⟩
  have hg' : WellKeyed gt' :=
    ⟨((hpg.map Prod.fst).nodup_iff).1 hg.1, fun p hp => hg.2 p (hpg.mem_iff.2 hp)⟩
  have hms : ∀ d, d ∈ sub.values ↔ d ∈ sub'.values := fun d => (hps.map Prod.snd).mem_iff
  have hmg : ∀ d, d ∈ gt.values ↔ d ∈ gt'.values := fun d => (hpg.map Prod.snd).mem_iff
  have hT' : NoTies sim sub'.values gt'.values := by
    constructor
    · intro d hd d' hd'; exact hT.scores d ((hms _).2 hd) d' ((hms _).2 hd')
    · intro d hd g hg g' hg'; exact hT.sims d ((hms _).2 hd) g ((hmg _).2 hg) g' ((hmg _).2 hg')
  obtain ⟨_, hm⟩ := (build_agnostic h t a).1 ha
  obtain ⟨_, hm'⟩ := (build_agnostic h' t a').1 ha'
  refine get?_congr (distinctIds_of_wellKeyed hs) (distinctIds_of_wellKeyed hg)
    (distinctIds_of_wellKeyed hs') (distinctIds_of_wellKeyed hg') hm hm' ?_ i
  refine (C04_greedy_unique h' hs' hg' hT' ha' (Matched sub.values gt.values a)).1 ?_
  have hG := matched_isGreedy (distinctIds_of_wellKeyed hs) (distinctIds_of_wellKeyed hg) hm
  refine ⟨⟨fun d g hM => ⟨(hms _).1 hM.1, (hmg _).1 hM.2.1⟩, hG.similar, hG.one_gt, hG.one_det⟩, ?_⟩
  rintro d g ⟨h1, h2, h3⟩
  exact strict_of_isGreedy hG d g ⟨(hms _).2 h1, (hmg _).2 h2, h3⟩

example : ∃ ev ev' a a', Evaluator.build AssocExample.sim' AssocExample.sub' AssocExample.gt
      AssocExample.settings = .ok ev ∧
      Evaluator.build AssocExample.sim' AssocExample.sub'.reverse AssocExample.gt.reverse
      AssocExample.settings = .ok ev' ∧ AssocExample.sub'.Perm AssocExample.sub'.reverse ∧
      ev.agnostic.get? 30 = some a ∧ ev'.agnostic.get? 30 = some a' ∧ a.keys = [2, 3] :=
  ⟨_, _, _, _, rfl, rfl, (List.reverse_perm _).symm, rfl, rfl, rfl⟩

/-- The tie-free hypothesis of C06 is needed: with two detections of equal score, reversing the submission
changes who gets the ground truth element. -/
theorem C06_ties_depend_on_order : ∃ ev ev' : Evaluator ℕ ℕ ℕ Unit,
    Evaluator.build AssocExample.sim AssocExample.sub AssocExample.gt AssocExample.settings = .ok ev ∧
    Evaluator.build AssocExample.sim AssocExample.sub.reverse AssocExample.gt AssocExample.settings = .ok ev' ∧
    ((ev.agnostic.get? 50).map Dict.keys) = some [2, 1] ∧
    ((ev'.agnostic.get? 50).map Dict.keys) = some [2, 3] :=
  ⟨_, _, rfl, rfl, by decide, by decide⟩

/-- The elements of one category. -/
def ofCategory (els : Elements ι σ P) (cat : String) : Elements ι σ P :=
  els.filter (fun p => decide (p.2.category = cat))

/-- **C07**: construction never raises on well-keyed scenes; the association of a configured category is the
agnostic association of the two scenes restricted to that category (whatever categories are configured for that second
evaluator), and there is an entry exactly for the configured categories present in one of the scenes. -/
theorem C07_category_is_restriction (sim : Obj ι σ P → Obj ι σ P → τ) {sub gt : Elements ι σ P}
    (hs : WellKeyed sub) (hg : WellKeyed gt) (s : AssocSettings τ) :
    ∃ ev, Evaluator.build sim sub gt s = .ok ev ∧
    (∀ cat, (∃ da, ev.category.get? cat = some da) ↔
      cat ∈ s.categories ∧ (∃ e ∈ sub.values ++ gt.values, e.category = cat)) ∧
    ∀ cat da, ev.category.get? cat = some da → ∀ cats, ∃ ev',
      Evaluator.build sim (ofCategory sub cat) (ofCategory gt cat) ⟨s.thresholds, cats⟩ = .ok ev' ∧
      da = ev'.agnostic := by
  obtain ⟨ev, hev⟩ := build_succeeds sim hs hg s
  obtain ⟨_, hca, _⟩ := build_ok hev
  have hlen : ∀ cat, (byCategory sub cat).length + (byCategory gt cat).length ≠ 0 ↔
      ∃ e ∈ sub.values ++ gt.values, e.category = cat := by
    intro cat
    rw [byCategory_eq hs.1, byCategory_eq hg.1, ← List.length_append, Ne, List.length_eq_zero_iff,
      ← List.filter_append, List.filter_eq_nil_iff]
    push Not
    simp only [Dict.values, ← List.map_append, List.mem_map, decide_eq_true_eq]
    constructor
    · rintro ⟨p, hp, hpc⟩; exact ⟨p.2, ⟨p, hp, rfl⟩, hpc⟩
    · rintro ⟨e, ⟨p, hp, rfl⟩, hpc⟩; exact ⟨p, hp, hpc⟩
  refine ⟨ev, hev, ?_, ?_⟩
  · intro cat
    have hcat := categoryAssoc_get? hca cat
    rw [← hlen]
    constructor
    · rintro ⟨da, hda⟩
      by_contra hn
      rw [hcat.2 (by rw [not_and_or, not_not] at hn; exact hn)] at hda
      simp at hda
    · rintro ⟨h1, h2⟩
      obtain ⟨_, da, _, _, h3⟩ := hcat.1 h1 h2
      exact ⟨da, h3⟩
  · intro cat da hda cats
    have hcat := categoryAssoc_get? hca cat
    obtain ⟨ev', hev'⟩ := build_succeeds sim
      (wellKeyed_filter hs (fun p => decide (p.2.category = cat)))
      (wellKeyed_filter hg (fun p => decide (p.2.category = cat))) ⟨s.thresholds, cats⟩
    refine ⟨ev', hev', ?_⟩
    by_cases hc : cat ∉ s.categories ∨ (byCategory sub cat).length + (byCategory gt cat).length = 0
    · rw [hcat.2 hc] at hda; simp at hda
    · push Not at hc
      obtain ⟨cc, da', h1, h2, h3⟩ := hcat.1 hc.1 hc.2
      rw [hda] at h3; simp at h3; subst h3
      rw [byCategory_eq hs.1, byCategory_eq hg.1, catCache_eq sim hs hg] at h1
      rw [byCategory_eq hs.1] at h2
      simp only [Except.ok.injEq] at h1
      subst h1
      have := (build_ok hev').1
      rw [h2] at this
      simpa using this

/-- **C07**: a category match joins two elements of that category. -/
theorem C07_same_category {sim : Obj ι σ P → Obj ι σ P → τ} {sub gt : Elements ι σ P}
    (hs : WellKeyed sub) (hg : WellKeyed gt) {s : AssocSettings τ} {ev : Evaluator ι σ τ P}
    (h : Evaluator.build sim sub gt s = .ok ev) {cat : String} {da : DataAssoc ι σ τ}
    (hda : ev.category.get? cat = some da) {t : τ} {a : Dict ι (Corr ι σ τ)} (ha : da.get? t = some a)
    {i : ι} {c : Corr ι σ τ} (hc : a.get? i = some c) :
    ∃ d g, sub.get? i = some d ∧ gt.get? c.gtId = some g ∧ d.category = cat ∧ g.category = cat ∧
      t ≤ sim d g ∧ c.similarity = sim d g := by
  obtain ⟨ev0, h0, _, hcat⟩ := C07_category_is_restriction sim hs hg s
  rw [h] at h0; simp at h0; subst h0
  obtain ⟨ev', h', rfl⟩ := hcat cat da hda []
  obtain ⟨_, d, g, h1, h2, h3, _, h4, _⟩ := C02_matches_are_real h' (wellKeyed_filter hs _)
    (wellKeyed_filter hg _) ha hc
  have key : ∀ {els : Elements ι σ P}, WellKeyed els → ∀ k e, (ofCategory els cat).get? k = some e →
      els.get? k = some e ∧ e.category = cat := by
    intro els hw k e he
    have := Dict.mem_of_get? he
    unfold ofCategory at this
    rw [List.mem_filter] at this
    exact ⟨Dict.get?_of_mem hw.1 this.1, by simpa using this.2⟩
  exact ⟨d, g, (key hs _ _ h1).1, (key hg _ _ h2).1, (key hs _ _ h1).2, (key hg _ _ h2).2, h3, h4⟩

example : ∃ ev da a c, Evaluator.build AssocExample.sim AssocExample.sub AssocExample.gt
      AssocExample.settings = .ok ev ∧ ev.category.get? "chair" = some da ∧ da.get? 30 = some a ∧
      a.get? 3 = some c ∧ ev.category.get? "lamp" = none :=
  ⟨_, _, _, _, rfl, rfl, rfl, rfl, rfl⟩

/-- **C05** for the category tables: they too do not depend on the other thresholds or the other categories. -/
theorem C05_category_threshold_independent {sim : Obj ι σ P → Obj ι σ P → τ} {sub gt : Elements ι σ P}
    (hs : WellKeyed sub) (hg : WellKeyed gt) {s s' : AssocSettings τ} {ev ev' : Evaluator ι σ τ P}
    (h : Evaluator.build sim sub gt s = .ok ev) (h' : Evaluator.build sim sub gt s' = .ok ev')
    {cat : String} {da da' : DataAssoc ι σ τ} (hda : ev.category.get? cat = some da)
    (hda' : ev'.category.get? cat = some da') {t : τ} (ht : t ∈ s.thresholds) (ht' : t ∈ s'.thresholds) :
    ∃ a, da.get? t = some a ∧ da'.get? t = some a := by
  obtain ⟨ev0, h0, _, hcat⟩ := C07_category_is_restriction sim hs hg s
  rw [h] at h0; simp at h0; subst h0
  obtain ⟨ev0', h0', _, hcat'⟩ := C07_category_is_restriction sim hs hg s'
  rw [h'] at h0'; simp at h0'; subst h0'
  obtain ⟨e1, he1, rfl⟩ := hcat cat da hda []
  obtain ⟨e2, he2, rfl⟩ := hcat' cat da' hda' []
  have hC := C05_threshold_independent he1 he2 t
  obtain ⟨a, ha⟩ := hC.1.1 ht
  exact ⟨a, ha, by rw [← hC.2 ht ht']; exact ha⟩

example : ∃ ev ev' da da', Evaluator.build AssocExample.sim AssocExample.sub AssocExample.gt
      AssocExample.settings = .ok ev ∧
      Evaluator.build AssocExample.sim AssocExample.sub AssocExample.gt ⟨[30, 10], ["chair"]⟩ = .ok ev' ∧
      ev.category.get? "chair" = some da ∧ ev'.category.get? "chair" = some da' :=
  ⟨_, _, _, _, rfl, rfl, rfl, rfl⟩

/-- Without well-keyed scenes construction can raise `KeyError`: a submission whose key is not the id of its
element, with a ground truth element of the same category. -/
theorem C07_ill_keyed_raises :
    Evaluator.build (ι := ℕ) (σ := ℕ) (τ := ℕ) (P := Unit) (fun _ _ => 50)
      [(7, (AssocExample.mk 1 "chair" 5).2)] [AssocExample.mk 10 "chair" 0] ⟨[50], ["chair"]⟩
      = .error .keyError := by rfl

/-- The scene with every score replaced by `f score`. -/
def rescale (f : σ → σ) (els : Elements ι σ P) : Elements ι σ P :=
  els.map (fun p => (p.1, { p.2 with score := f p.2.score }))

/-- **C08**: only the ranking of the scores matters. `hsim`: the similarity does not look at scores. -/
theorem C08_score_ranking {sim : Obj ι σ P → Obj ι σ P → τ} {sub gt : Elements ι σ P}
    {s : AssocSettings τ} {ev ev' : Evaluator ι σ τ P} {f : σ → σ} (hf : StrictMono f)
    (hsim : ∀ d g, sim { d with score := f d.score } g = sim d g)
    (h : Evaluator.build sim sub gt s = .ok ev) (h' : Evaluator.build sim (rescale f sub) gt s = .ok ev')
    (hs : WellKeyed sub) (hg : WellKeyed gt) {t : τ} {a a' : Dict ι (Corr ι σ τ)}
    (ha : ev.agnostic.get? t = some a) (ha' : ev'.agnostic.get? t = some a') (i : ι) :
    (a'.get? i).map (fun c => (c.gtId, c.similarity)) = (a.get? i).map (fun c => (c.gtId, c.similarity)) := by
  obtain ⟨_, hm⟩ := (build_agnostic h t a).1 ha
  obtain ⟨_, hm'⟩ := (build_agnostic h' t a').1 ha'
  set r : Obj ι σ P → Obj ι σ P := fun d => { d with score := f d.score } with hr
  have hval : (rescale f sub).values = sub.values.map r := by
    unfold rescale Dict.values; rw [List.map_map, List.map_map]; rfl
  have hs' : WellKeyed (rescale f sub) := by
    refine ⟨?_, ?_⟩
    · have : (rescale f sub).keys = sub.keys := by unfold rescale Dict.keys; rw [List.map_map]; rfl
      unfold Dict.NodupKeys; rw [this]; exact hs.1
    · intro p hp
      obtain ⟨q, hq, rfl⟩ := List.mem_map.1 hp
      exact hs.2 q hq
  have hid : (sub.values.map r).map Obj.id = sub.values.map Obj.id := by
    rw [List.map_map]; rfl
  have hrinj : ∀ d d', r d = r d' → d = d' := by
    intro d d' e
    simp only [hr, Obj.mk.injEq] at e
    obtain ⟨e1, e2, e3, e4, e5⟩ := e
    have := hf.injective e3
    cases d; cases d'; simp_all
  have hbef : ∀ d d', Before (sub.values.map r) (r d) (r d') ↔ Before sub.values d d' := by
    intro d d'; unfold Before; rw [hid]
  have hout : ∀ d d', Outranks (sub.values.map r) (r d) (r d') → Outranks sub.values d d' := by
    intro d d' ho
    rcases ho with ho | ho
    · exact Or.inl (hf.lt_iff_lt.1 ho)
    · exact Or.inr ⟨hf.injective ho.1, (hbef d d').1 ho.2⟩
  have hdd := distinctIds_of_wellKeyed hs
  have hgd := distinctIds_of_wellKeyed hg
  have hdd' := distinctIds_of_wellKeyed hs'
  have hG := matched_isGreedy hdd hgd hm
  have hG' := matched_isGreedy hdd' hgd hm'
  set M : Obj ι σ P → Obj ι σ P → Prop := fun d' g => ∃ d, d' = r d ∧ Matched sub.values gt.values a d g
    with hMdef
  have hMg : IsGreedy sim t (rescale f sub).values gt.values M := by
    rw [hval]
    refine { mem := ?_, similar := ?_, one_gt := ?_, one_det := ?_, stable := ?_ }
    · rintro _ g ⟨d, rfl, hM⟩; exact ⟨List.mem_map_of_mem hM.1, hM.2.1⟩
    · rintro _ g ⟨d, rfl, hM⟩; rw [hsim]; exact hG.similar _ _ hM
    · rintro _ g g' ⟨d, rfl, hM⟩ ⟨d', e, hM'⟩
      have := hrinj _ _ e; subst this; exact hG.one_gt _ _ _ hM hM'
    · rintro _ _ g ⟨d, rfl, hM⟩ ⟨d', rfl, hM'⟩
      rw [hG.one_det _ _ _ hM hM']
    · rintro d' g ⟨hd, hgm, hsm, hnm, h1, h2⟩
      obtain ⟨d, hdm, rfl⟩ := List.mem_map.1 hd
      refine hG.stable d g ⟨hdm, hgm, by rw [hsim] at hsm; exact hsm, fun hM => hnm ⟨d, rfl, hM⟩, ?_, ?_⟩
      · intro g' hM
        have := h1 g' ⟨d, rfl, hM⟩
        unfold Prefers at this ⊢
        rw [hsim, hsim] at this; exact this
      · intro d' hM; exact hout _ _ (h2 (r d') ⟨d', rfl, hM⟩)
  have huniq := greedy_unique hdd' hgd hMg hG'
  apply Option.ext
  intro q
  simp only [Option.map_eq_some_iff]
  constructor
  · rintro ⟨c, hc, rfl⟩
    obtain ⟨d', g, hM', hdi, rfl⟩ := (get?_iff_matched hdd' hgd hm' i c).1 hc
    obtain ⟨d, rfl, hM⟩ := (huniq _ _).2 hM'
    exact ⟨_, (get?_iff_matched hdd hgd hm i _).2 ⟨d, g, hM, hdi, rfl⟩, by
      simp only [corrOf]; rw [hsim]⟩
  · rintro ⟨c, hc, rfl⟩
    obtain ⟨d, g, hM, hdi, rfl⟩ := (get?_iff_matched hdd hgd hm i c).1 hc
    exact ⟨_, (get?_iff_matched hdd' hgd hm' i _).2 ⟨r d, g, (huniq _ _).1 ⟨d, rfl, hM⟩, hdi, rfl⟩, by
      simp only [corrOf]; rw [hsim]⟩

example : ∃ ev ev' a a', StrictMono (fun n : ℕ => 3 * n + 1) ∧
      Evaluator.build AssocExample.sim AssocExample.sub AssocExample.gt AssocExample.settings = .ok ev ∧
      Evaluator.build AssocExample.sim (rescale (fun n => 3 * n + 1) AssocExample.sub) AssocExample.gt
        AssocExample.settings = .ok ev' ∧
      (∀ d g, AssocExample.sim { d with score := 3 * d.score + 1 } g = AssocExample.sim d g) ∧
      ev.agnostic.get? 30 = some a ∧ ev'.agnostic.get? 30 = some a' ∧ a.keys = [2, 1] :=
  ⟨_, _, _, _, fun a b h => by simp only; omega, rfl, rfl, fun _ _ => rfl, rfl, rfl, rfl⟩

/-- **C78**: after construction the settings object has the same categories and a permutation of the same
thresholds, and a second construction with the changed object gives the same evaluator. -/
theorem C78_settings_reusable {sim : Obj ι σ P → Obj ι σ P → τ} {sub gt : Elements ι σ P}
    {s : AssocSettings τ} {ev : Evaluator ι σ τ P} (h : Evaluator.build sim sub gt s = .ok ev) :
    ev.settings.categories = s.categories ∧ ev.settings.thresholds.Perm s.thresholds ∧
    Evaluator.build sim sub gt ev.settings = .ok ev := by
  obtain ⟨h1, h2, h3, h4, h5, h6⟩ := build_ok h
  rw [h6]
  refine ⟨rfl, List.perm_insertionSort _ _, ?_⟩
  have hid : npSort (npSort s.thresholds) = npSort s.thresholds :=
    List.Pairwise.insertionSort_eq (pairwise_npSort _)
  have : Evaluator.build sim sub gt { thresholds := npSort s.thresholds, categories := s.categories } =
      Evaluator.build sim sub gt s := by
    unfold Evaluator.build
    simp only [hid]
  rw [this, h]

/-- The example settings are really reordered by construction. -/
example : ∃ ev, Evaluator.build AssocExample.sim AssocExample.sub AssocExample.gt
      AssocExample.settings = .ok ev ∧ ev.settings.thresholds = [30, 50] ∧
      AssocExample.settings.thresholds = [50, 30] := ⟨_, rfl, rfl, rfl⟩

end Sumo
