import Verif.Props.Assoc
import Verif.Lemmas.Scores

/-!
# The matched pairs of an evaluator

Used by the pose, perceptual and surface metrics, all of which loop over `self._agnostic_data_assoc[t].values()` and
look both elements up.
-/

set_option linter.unusedSectionVars false

namespace Sumo
open AssocSpec

variable {ι σ τ P : Type} [DecidableEq ι] [LinearOrder σ] [LinearOrder τ]

/-- The pairs behind a list of correspondences. -/
def pairsOf (sub gt : Elements ι σ P) (cs : List (Corr ι σ τ)) : List (Obj ι σ P × Obj ι σ P) :=
  cs.filterMap (fun c => do
    let d ← sub.get? c.detId
    let g ← gt.get? c.gtId
    return (d, g))

/-- A correspondence that points to two elements. -/
def Linked (sub gt : Elements ι σ P) (c : Corr ι σ τ) : Prop :=
  ∃ d g, sub.get? c.detId = some d ∧ gt.get? c.gtId = some g

theorem pairsOf_cons (sub gt : Elements ι σ P) {c : Corr ι σ τ} (cs : List (Corr ι σ τ)) {d g : Obj ι σ P}
    (h1 : sub.get? c.detId = some d) (h2 : gt.get? c.gtId = some g) :
    pairsOf sub gt (c :: cs) = (d, g) :: pairsOf sub gt cs := by
  unfold pairsOf
  rw [List.filterMap_cons_some]
  simp [h1, h2]

variable {sim : Obj ι σ P → Obj ι σ P → τ} {sub gt : Elements ι σ P} {s : AssocSettings τ} {ev : Evaluator ι σ τ P}

theorem nodupKeys_foldlM (cache : SimCache ι σ τ) : ∀ (l : List (Obj ι σ P)) (st st' : MatchState ι σ τ),
    st.assoc.NodupKeys → l.foldlM (matchStep cache) st = .ok st' → st'.assoc.NodupKeys := by
  intro l
  induction l with
  | nil => intro st st' h e; injection e with e; rw [← e]; exact h
  | cons d l ih =>
    intro st st' h e
    rw [List.foldlM_cons] at e
    rcases hs : matchStep cache st d with err | st1
    · rw [hs] at e; simp [bind, Except.bind] at e
    · rw [hs] at e
      refine ih st1 st' ?_ e
      unfold matchStep at hs
      rcases hc : cache.get d.id with err | row
      · rw [hc] at hs; simp [bind, Except.bind] at hs
      · rw [hc] at hs
        simp only [bind, Except.bind] at hs
        split at hs <;> injection hs with hs <;> rw [← hs]
        · exact Dict.nodupKeys_set h _ _
        · exact h

theorem nodupKeys_matchAll {cache : SimCache ι σ τ} {ds : List (Obj ι σ P)} {a : Dict ι (Corr ι σ τ)}
    (h : matchAll cache ds = .ok a) : a.NodupKeys := by
  unfold matchAll at h
  rcases hs : (pySortedRev (fun e : Obj ι σ P => e.score) ds).foldlM (matchStep cache) ⟨[], []⟩ with err | st
  · rw [hs] at h; simp [bind, Except.bind] at h
  · rw [hs] at h
    injection h with h
    rw [← h]
    exact nodupKeys_foldlM cache _ _ _ Dict.nodupKeys_nil hs

theorem nodupKeys_agnostic (h : Evaluator.build sim sub gt s = .ok ev)
    {t : τ} (ht : t ∈ s.thresholds) : (assocAt ev.agnostic t).NodupKeys := by
  obtain ⟨a, ha⟩ := (C05_threshold_independent h h t).1.1 ht
  have hm := ((build_agnostic h t a).1 ha).2
  have : assocAt ev.agnostic t = a := by unfold assocAt; rw [ha]; rfl
  rw [this]
  exact nodupKeys_matchAll hm

theorem agnostic_values (h : Evaluator.build sim sub gt s = .ok ev) (hs : WellKeyed sub) (hg : WellKeyed gt)
    {t : τ} (ht : t ∈ s.thresholds) {c : Corr ι σ τ} (hc : c ∈ (assocAt ev.agnostic t).values) :
    ∃ d g, sub.get? c.detId = some d ∧ gt.get? c.gtId = some g ∧ c.evaluated = g.evaluated ∧
      (assocAt ev.agnostic t).get? c.detId = some c ∧ d.id = c.detId ∧ g.id = c.gtId ∧
      Matched sub.values gt.values (assocAt ev.agnostic t) d g := by
  obtain ⟨a, ha⟩ := (C05_threshold_independent h h t).1.1 ht
  have hm := ((build_agnostic h t a).1 ha).2
  have e : assocAt ev.agnostic t = a := by unfold assocAt; rw [ha]; rfl
  obtain ⟨k, hk⟩ := Dict.mem_values.1 hc
  have hk' := Dict.get?_of_mem (nodupKeys_agnostic h ht) hk
  rw [e] at hk'
  obtain ⟨-, d, g, h1, h2, -, h4, -, -, h6⟩ := C02_matches_are_real h hs hg ha hk'
  have hd := hs.2 _ (Dict.mem_of_get? h1)
  have hgi := hg.2 _ (Dict.mem_of_get? h2)
  refine ⟨d, g, by rw [h4]; exact h1, h2, h6, by rw [e, h4]; exact hk', by rw [h4]; exact hd.symm, hgi.symm, ?_⟩
  exact ⟨Dict.mem_values.2 ⟨_, Dict.mem_of_get? h1⟩, Dict.mem_values.2 ⟨_, Dict.mem_of_get? h2⟩, c,
    by rw [e, ← hd]; exact hk', hgi⟩

theorem linked_values (h : Evaluator.build sim sub gt s = .ok ev) (hs : WellKeyed sub) (hg : WellKeyed gt)
    {t : τ} (ht : t ∈ s.thresholds) : ∀ c ∈ (assocAt ev.agnostic t).values, Linked sub gt c := by
  intro c hc
  obtain ⟨d, g, h1, h2, -⟩ := agnostic_values h hs hg ht hc
  exact ⟨d, g, h1, h2⟩

/-- The pairs are exactly the matched pairs. -/
theorem mem_pairsOf (h : Evaluator.build sim sub gt s = .ok ev) (hs : WellKeyed sub) (hg : WellKeyed gt)
    {t : τ} (ht : t ∈ s.thresholds) (d g : Obj ι σ P) :
    (d, g) ∈ pairsOf sub gt (assocAt ev.agnostic t).values ↔
      Matched sub.values gt.values (assocAt ev.agnostic t) d g := by
  unfold pairsOf
  simp only [List.mem_filterMap]
  constructor
  · rintro ⟨c, hc, e⟩
    obtain ⟨d', g', h1, h2, -, -, -, -, h3⟩ := agnostic_values h hs hg ht hc
    simp only [h1, h2, bind, Option.bind, pure, Option.some.injEq, Prod.mk.injEq] at e
    obtain ⟨rfl, rfl⟩ := e
    exact h3
  · rintro ⟨hd, hgm, c, hc, hcg⟩
    have hv : c ∈ (assocAt ev.agnostic t).values := Dict.mem_values.2 ⟨_, Dict.mem_of_get? hc⟩
    obtain ⟨d', g', h1, h2, -, h5, h6, h7, h8⟩ := agnostic_values h hs hg ht hv
    refine ⟨c, hv, ?_⟩
    obtain ⟨a, ha⟩ := (C05_threshold_independent h h t).1.1 ht
    have e : assocAt ev.agnostic t = a := by unfold assocAt; rw [ha]; rfl
    rw [e] at hc
    have hid := (C02_matches_are_real h hs hg ha hc).2
    obtain ⟨-, -, -, -, -, hid, -⟩ := hid
    have e1 : d' = d := eq_of_id_eq (distinctIds_of_wellKeyed hs) h8.1 hd (by rw [h6, hid])
    have e2 : g' = g := eq_of_id_eq (distinctIds_of_wellKeyed hg) h8.2.1 hgm (by rw [h7, hcg])
    subst e1 e2
    simp [h1, h2]

theorem matchedAt_iff (h : Evaluator.build sim sub gt s = .ok ev) {t : τ} (ht : t ∈ s.thresholds)
    (d g : Obj ι σ P) : MatchedAt sub gt ev t d g ↔
      Matched sub.values gt.values (assocAt ev.agnostic t) d g := by
  obtain ⟨a, ha⟩ := (C05_threshold_independent h h t).1.1 ht
  have e : assocAt ev.agnostic t = a := by unfold assocAt; rw [ha]; rfl
  rw [MatchedAt, e, ha]
  simp

/-! ### The pairs cover both scenes -/

theorem pairsOf_fst (h : Evaluator.build sim sub gt s = .ok ev) (hs : WellKeyed sub) (hg : WellKeyed gt)
    {t : τ} (ht : t ∈ s.thresholds) :
    ((pairsOf sub gt (assocAt ev.agnostic t).values).map Prod.fst).Nodup := by
  have hk : ((assocAt ev.agnostic t).values.map Corr.detId) = (assocAt ev.agnostic t).keys := by
    unfold Dict.values Dict.keys
    rw [List.map_map]
    apply List.map_congr_left
    intro p hp
    have hv : p.2 ∈ (assocAt ev.agnostic t).values := Dict.mem_values.2 ⟨p.1, hp⟩
    obtain ⟨d, g, -, -, -, h5, -⟩ := agnostic_values h hs hg ht hv
    obtain ⟨a, ha⟩ := (C05_threshold_independent h h t).1.1 ht
    have e : assocAt ev.agnostic t = a := by unfold assocAt; rw [ha]; rfl
    have hk := Dict.get?_of_mem (nodupKeys_agnostic h ht) hp
    rw [e] at hk
    obtain ⟨-, -, -, -, -, -, h4, -⟩ := C02_matches_are_real h hs hg ha hk
    exact h4
  have hm : ∀ cs : List (Corr ι σ τ), (∀ c ∈ cs, c ∈ (assocAt ev.agnostic t).values) →
      (pairsOf sub gt cs).map (fun q => q.1.id) = cs.map Corr.detId := by
    intro cs
    induction cs with
    | nil => intro _; rfl
    | cons c cs ih =>
      intro hc
      obtain ⟨d, g, h1, h2, -, -, h6, -⟩ := agnostic_values h hs hg ht (hc c List.mem_cons_self)
      rw [pairsOf_cons _ _ cs h1 h2, List.map_cons, List.map_cons, h6,
        ih (fun c' h' => hc c' (List.mem_cons_of_mem _ h'))]
  have hn : ((pairsOf sub gt (assocAt ev.agnostic t).values).map (fun q => q.1.id)).Nodup := by
    rw [hm _ (fun _ hc => hc), hk]
    exact nodupKeys_agnostic h ht
  have : (((pairsOf sub gt (assocAt ev.agnostic t).values).map Prod.fst).map Obj.id).Nodup := by
    rw [List.map_map]; exact hn
  exact List.Nodup.of_map _ this

end Sumo
