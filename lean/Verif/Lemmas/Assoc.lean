import Verif.Lemmas.AssocSpec

/-! Lemmas relating the association loops to the specification. -/

set_option linter.unusedSectionVars false

namespace Sumo

/-- Invariant rule for a monadic left fold that may raise. -/
theorem foldlM_inv {α β ε : Type} {f : β → α → Except ε β} {I : List α → β → Prop} {l : List α} {b b' : β}
    (h0 : I [] b)
    (step : ∀ pre x post b b', l = pre ++ x :: post → I pre b → f b x = .ok b' → I (pre ++ [x]) b')
    (h : l.foldlM f b = .ok b') : I l b' := by
  have key : ∀ (post pre : List α) (b : β), l = pre ++ post → I pre b → post.foldlM f b = .ok b' →
      I l b' := by
    intro post
    induction post with
    | nil =>
      intro pre b hl hI h
      simp only [List.foldlM_nil, pure, Except.pure, Except.ok.injEq] at h
      subst h; rw [hl, List.append_nil]; exact hI
    | cons x post ih =>
      intro pre b hl hI h
      rw [List.foldlM_cons] at h
      cases hf : f b x with
      | error e => rw [hf] at h; simp [bind, Except.bind] at h
      | ok b1 =>
        rw [hf] at h
        exact ih (pre ++ [x]) b1 (by simp [hl]) (step pre x post b b1 hl hI hf) h
  exact key l [] b rfl h0 h

/-- Success rule for a monadic left fold. -/
theorem foldlM_ok {α β ε : Type} {f : β → α → Except ε β} {I : List α → β → Prop} {l : List α} {b : β}
    (h0 : I [] b)
    (step : ∀ pre x post b, l = pre ++ x :: post → I pre b → ∃ b', f b x = .ok b' ∧ I (pre ++ [x]) b') :
    ∃ b', l.foldlM f b = .ok b' ∧ I l b' := by
  have key : ∀ (post pre : List α) (b : β), l = pre ++ post → I pre b →
      ∃ b', post.foldlM f b = .ok b' ∧ I l b' := by
    intro post
    induction post with
    | nil =>
      intro pre b hl hI
      exact ⟨b, rfl, by rw [hl, List.append_nil]; exact hI⟩
    | cons x post ih =>
      intro pre b hl hI
      obtain ⟨b1, hf, hI1⟩ := step pre x post b hl hI
      obtain ⟨b', h1, h2⟩ := ih (pre ++ [x]) b1 (by simp [hl]) hI1
      refine ⟨b', ?_, h2⟩
      rw [List.foldlM_cons, hf]; exact h1
  exact key l [] b rfl h0

open AssocSpec

variable {ι σ τ P : Type} [DecidableEq ι] [LinearOrder σ] [LinearOrder τ]

/-- The correspondence of a pair. -/
def corrOf (sim : Obj ι σ P → Obj ι σ P → τ) (d g : Obj ι σ P) : Corr ι σ τ :=
  { detId := d.id, gtId := g.id, similarity := sim d g, detScore := d.score, evaluated := g.evaluated }

theorem simRow_eq (sim : Obj ι σ P → Obj ι σ P → τ) (d : Obj ι σ P) {gs : List (Obj ι σ P)}
    (h : DistinctIds gs) : simRow sim d gs = gs.map (fun g => (g.id, corrOf sim d g)) := by
  unfold simRow
  have := Dict.foldl_set_eq (fun g : Obj ι σ P => g.id) (fun g => corrOf sim d g) gs [] h
    (by simp [Dict.keys])
  simpa [corrOf] using this

theorem makeSimCache_eq (sim : Obj ι σ P → Obj ι σ P → τ) {sub gt : Elements ι σ P}
    (h : DistinctIds sub.values) :
    makeSimCache sim sub gt = sub.values.map (fun d => (d.id, simRow sim d gt.values)) := by
  unfold makeSimCache
  have := Dict.foldl_set_eq (fun d : Obj ι σ P => d.id) (fun d => simRow sim d gt.values)
    sub.values [] h (by simp [Dict.keys])
  simpa using this

theorem pruneRow_aux (thresh : τ) (ks : List ι) (row : Dict ι (Corr ι σ τ)) (hn : row.NodupKeys) :
    ks.foldl (fun (r : Dict ι (Corr ι σ τ)) g =>
      match r.get? g with
      | some c => if c.similarity < thresh then r.pop g else r
      | none => r) row =
    row.filter (fun p => decide (p.1 ∉ ks ∨ ¬ p.2.similarity < thresh)) := by
  induction ks generalizing row with
  | nil => simp
  | cons k ks ih =>
    rw [List.foldl_cons]
    cases hk : row.get? k with
    | none =>
      simp only
      rw [ih row hn]
      apply List.filter_congr
      intro p hp
      have : p.1 ≠ k := by
        rintro rfl
        rw [Dict.get?_of_mem hn (show (p.1, p.2) ∈ row from hp)] at hk
        simp at hk
      simp [this]
    | some c =>
      simp only
      split
      · rename_i hc
        rw [ih _ (Dict.nodupKeys_pop hn k), Dict.pop_eq_filter hn, List.filter_filter]
        apply List.filter_congr
        intro p hp
        by_cases hpk : p.1 = k
        · have hpc : p.2 = c := by
            have := Dict.get?_of_mem hn (show (p.1, p.2) ∈ row from hp)
            rw [hpk, hk] at this; simpa using this.symm
          simp [hpk, hpc, hc]
        · simp [hpk]
      · rename_i hc
        rw [ih row hn]
        apply List.filter_congr
        intro p hp
        by_cases hpk : p.1 = k
        · have hpc : p.2 = c := by
            have := Dict.get?_of_mem hn (show (p.1, p.2) ∈ row from hp)
            rw [hpk, hk] at this; simpa using this.symm
          simp [hpc, hc]
        · simp [hpk]

theorem pruneRow_eq (thresh : τ) {row : Dict ι (Corr ι σ τ)} (hn : row.NodupKeys) :
    pruneRow thresh row = row.filter (fun p => decide (¬ p.2.similarity < thresh)) := by
  unfold pruneRow
  refine Eq.trans (pruneRow_aux thresh row.keys row hn) ?_
  apply List.filter_congr
  intro p hp
  have : p.1 ∈ row.keys := List.mem_map_of_mem hp
  simp [this]

/-- All rows of the cache are dictionaries. -/
def RowsNodup (cache : SimCache ι σ τ) : Prop := ∀ p ∈ cache, Dict.NodupKeys p.2

theorem rowsNodup_prune {t : τ} {cache : SimCache ι σ τ} (h : RowsNodup cache) :
    RowsNodup (pruneCache t cache) := by
  intro p hp
  unfold pruneCache at hp
  obtain ⟨q, hq, rfl⟩ := List.mem_map.1 hp
  simp only
  rw [pruneRow_eq t (h q hq)]
  exact Dict.nodupKeys_filter (h q hq) _

theorem prune_prune {t1 t2 : τ} (h12 : t1 ≤ t2) {cache : SimCache ι σ τ} (h : RowsNodup cache) :
    pruneCache t2 (pruneCache t1 cache) = pruneCache t2 cache := by
  unfold pruneCache
  rw [List.map_map]
  apply List.map_congr_left
  intro p hp
  simp only [Function.comp]
  rw [pruneRow_eq t1 (h p hp), pruneRow_eq t2 (h p hp),
    pruneRow_eq t2 (Dict.nodupKeys_filter (h p hp) _), List.filter_filter]
  congr 1
  apply List.filter_congr
  intro q _
  by_cases hq : q.2.similarity < t1
  · simp [lt_of_lt_of_le hq h12]
  · simp [hq]

theorem nodupKeys_simRow (sim : Obj ι σ P → Obj ι σ P → τ) (d : Obj ι σ P) (gs : List (Obj ι σ P)) :
    Dict.NodupKeys (simRow sim d gs) := by
  unfold simRow
  have : ∀ (l : List (Obj ι σ P)) (r : Dict ι (Corr ι σ τ)), r.NodupKeys →
      Dict.NodupKeys (l.foldl (fun row gt => row.set gt.id
        { detId := d.id, gtId := gt.id, similarity := sim d gt,
          detScore := d.score, evaluated := gt.evaluated }) r) := by
    intro l
    induction l with
    | nil => intro r hr; exact hr
    | cons a l ih => intro r hr; exact ih _ (Dict.nodupKeys_set hr _ _)
  exact this gs [] Dict.nodupKeys_nil

theorem rowsNodup_makeSimCache (sim : Obj ι σ P → Obj ι σ P → τ) (sub gt : Elements ι σ P) :
    RowsNodup (makeSimCache sim sub gt) := by
  unfold makeSimCache
  have : ∀ (l : List (Obj ι σ P)) (c : SimCache ι σ τ), c.NodupKeys ∧ RowsNodup c →
      Dict.NodupKeys (l.foldl (fun cache det => cache.set det.id (simRow sim det gt.values)) c) ∧
      RowsNodup (l.foldl (fun cache det => cache.set det.id (simRow sim det gt.values)) c) := by
    intro l
    induction l with
    | nil => intro c hc; exact hc
    | cons a l ih =>
      intro c hc
      apply ih
      refine ⟨Dict.nodupKeys_set hc.1 _ _, ?_⟩
      intro p hp
      rcases (Dict.mem_set hc.1 _ _ _).1 hp with rfl | hp
      · exact nodupKeys_simRow sim a _
      · exact hc.2 p hp.2
  exact (this sub.values [] ⟨Dict.nodupKeys_nil, by simp [RowsNodup]⟩).2

/-- The threshold loop computes, for each threshold of an ascending list, the association on the cache pruned
once for that threshold. -/
theorem threshLoop {dets : List (Obj ι σ P)} {ts : List τ} (hs : ts.Pairwise (· ≤ ·))
    {cache : SimCache ι σ τ} (hc : RowsNodup cache) {acc : DataAssoc ι σ τ}
    {r : SimCache ι σ τ × DataAssoc ι σ τ}
    (h : ts.foldlM (threshStep dets) (cache, acc) = .ok r) (t : τ) :
    (t ∈ ts → ∃ a, matchAll (pruneCache t cache) dets = .ok a ∧ r.2.get? t = some a) ∧
    (t ∉ ts → r.2.get? t = acc.get? t) := by
  induction ts generalizing cache acc with
  | nil =>
    simp only [List.foldlM_nil, pure, Except.pure, Except.ok.injEq] at h
    subst h; simp
  | cons t0 ts ih =>
    rw [List.pairwise_cons] at hs
    rw [List.foldlM_cons] at h
    unfold threshStep at h
    cases hm : matchAll (pruneCache t0 cache) dets with
    | error e => simp [hm, bind, Except.bind] at h
    | ok a =>
      simp only [hm, bind, Except.bind, pure, Except.pure] at h
      have h' := ih hs.2 (rowsNodup_prune hc) h
      by_cases htt : t ∈ ts
      · obtain ⟨a', h1, h2⟩ := h'.1 htt
        rw [prune_prune (hs.1 t htt) hc] at h1
        exact ⟨fun _ => ⟨a', h1, h2⟩, fun hn => absurd (List.mem_cons_of_mem _ htt) hn⟩
      · have h2 := h'.2 htt
        rw [h2, Dict.get?_set]
        constructor
        · intro ht
          rcases List.mem_cons.1 ht with rfl | ht
          · exact ⟨a, hm, by simp⟩
          · exact absurd ht htt
        · intro hn
          have : t0 ≠ t := fun e => hn (e ▸ List.mem_cons_self)
          simp [this]

theorem threshLoop_ok {dets : List (Obj ι σ P)} {ts : List τ}
    {cache : SimCache ι σ τ} {acc : DataAssoc ι σ τ} (I : SimCache ι σ τ → Prop)
    (hI : I cache) (hp : ∀ t c, I c → I (pruneCache t c)) (hok : ∀ c, I c → ∃ a, matchAll c dets = .ok a) :
    ∃ r, ts.foldlM (threshStep dets) (cache, acc) = .ok r := by
  induction ts generalizing cache acc with
  | nil => exact ⟨_, rfl⟩
  | cons t ts ih =>
    rw [List.foldlM_cons]
    unfold threshStep
    obtain ⟨a, ha⟩ := hok _ (hp t _ hI)
    simp only [ha, bind, Except.bind, pure, Except.pure]
    exact ih (hp t _ hI)

theorem agnosticAssoc_get? {dets : Elements ι σ P} {ts : List τ} (hs : ts.Pairwise (· ≤ ·))
    {cache : SimCache ι σ τ} (hc : RowsNodup cache) {r : DataAssoc ι σ τ}
    (h : agnosticAssoc dets ts cache = .ok r) (t : τ) (a : Dict ι (Corr ι σ τ)) :
    r.get? t = some a ↔ t ∈ ts ∧ matchAll (pruneCache t cache) dets.values = .ok a := by
  unfold agnosticAssoc at h
  cases hf : ts.foldlM (threshStep dets.values) (cache, []) with
  | error e => rw [hf] at h; simp [bind, Except.bind] at h
  | ok q =>
    rw [hf] at h
    simp only [bind, Except.bind, pure, Except.pure, Except.ok.injEq] at h
    subst h
    have := threshLoop hs hc hf t
    by_cases ht : t ∈ ts
    · obtain ⟨a', h1, h2⟩ := this.1 ht
      rw [h2, h1]; simp [ht]
    · rw [this.2 ht]; simp [ht]

theorem pairwise_npSort (l : List τ) : (npSort l).Pairwise (· ≤ ·) := List.pairwise_insertionSort _ _

theorem mem_npSort (l : List τ) (t : τ) : t ∈ npSort l ↔ t ∈ l := List.mem_insertionSort _

/-- Shape of a step of the detection loop. -/
theorem matchStep_ok {cache : SimCache ι σ τ} {st st' : MatchState ι σ τ} {d : Obj ι σ P}
    (h : matchStep cache st d = .ok st') :
    ∃ row, cache.get? d.id = some row ∧
      ((bestOf (fun c : Corr ι σ τ => c.similarity)
          (row.values.filter (fun c => !st.assigned.has c.gtId)) = none ∧ st' = st) ∨
       ∃ c, bestOf (fun c : Corr ι σ τ => c.similarity)
          (row.values.filter (fun c => !st.assigned.has c.gtId)) = some c ∧
          st' = { assoc := st.assoc.set d.id c, assigned := st.assigned.set c.gtId d.id }) := by
  unfold matchStep at h
  cases hr : cache.get? d.id with
  | none =>
    have : cache.get d.id = .error .keyError := by unfold Dict.get; rw [hr]
    rw [this] at h; simp [bind, Except.bind] at h
  | some row =>
    have : cache.get d.id = .ok row := by unfold Dict.get; rw [hr]
    rw [this] at h
    simp only [bind, Except.bind, sortCorrsBySimilarity, getLast?_pySorted] at h
    refine ⟨row, rfl, ?_⟩
    cases hb : bestOf (fun c : Corr ι σ τ => c.similarity)
          (row.values.filter (fun c => !st.assigned.has c.gtId)) with
    | none => rw [hb] at h; simp at h; exact Or.inl ⟨rfl, h.symm⟩
    | some c => rw [hb] at h; simp at h; exact Or.inr ⟨c, rfl, h.symm⟩

theorem matchAll_ok {cache : SimCache ι σ τ} {dets : List (Obj ι σ P)} {a : Dict ι (Corr ι σ τ)}
    (h : matchAll cache dets = .ok a) :
    ∃ asg, (pySortedRev (fun e : Obj ι σ P => e.score) dets).foldlM (matchStep cache) ⟨[], []⟩
      = .ok ⟨a, asg⟩ := by
  unfold matchAll at h
  cases hf : (pySortedRev (fun e : Obj ι σ P => e.score) dets).foldlM (matchStep cache) ⟨[], []⟩ with
  | error e => rw [hf] at h; simp [bind, Except.bind] at h
  | ok st =>
    rw [hf] at h
    simp only [bind, Except.bind, pure, Except.pure, Except.ok.injEq] at h
    subst h
    exact ⟨st.assigned, rfl⟩

/-- One-to-one, whatever the cache contains and however the elements are keyed. -/
theorem matchAll_inj {cache : SimCache ι σ τ} {dets : List (Obj ι σ P)} {a : Dict ι (Corr ι σ τ)}
    (h : matchAll cache dets = .ok a) {i j : ι} {c c' : Corr ι σ τ}
    (hi : a.get? i = some c) (hj : a.get? j = some c') (hg : c.gtId = c'.gtId) : i = j := by
  obtain ⟨asg, hf⟩ := matchAll_ok h
  have hinv := foldlM_inv (I := fun (_ : List (Obj ι σ P)) (st : MatchState ι σ τ) =>
      (∀ i c, st.assoc.get? i = some c → st.assigned.has c.gtId = true) ∧
      (∀ i j c c', st.assoc.get? i = some c → st.assoc.get? j = some c' → c.gtId = c'.gtId → i = j))
    (by simp) (by
      intro pre x post st st' _ hI hst
      obtain ⟨row, _, h1 | ⟨c, hc, rfl⟩⟩ := matchStep_ok hst
      · obtain ⟨_, rfl⟩ := h1; exact hI
      · have hcm := bestOf_mem hc
        rw [List.mem_filter] at hcm
        have hna : st.assigned.has c.gtId = false := by simpa using hcm.2
        constructor
        · intro i c1 h1
          simp only [Dict.get?_set] at h1
          rw [Dict.has_set]
          split at h1
          · simp at h1; subst h1; simp
          · simp [hI.1 i c1 h1]
        · intro i j c1 c2 h1 h2 h12
          simp only [Dict.get?_set] at h1 h2
          split at h1 <;> split at h2
          · rename_i e1 e2; exact e1.symm.trans e2
          · simp at h1; subst h1
            have := hI.1 j c2 h2
            rw [← h12, hna] at this; simp at this
          · simp at h2; subst h2
            have := hI.1 i c1 h1
            rw [h12, hna] at this; simp at this
          · exact hI.2 i j c1 c2 h1 h2 h12) hf
  exact hinv.2 i j c c' hi hj hg

/-- The cache for well-keyed scenes, pruned at `t`. -/
theorem pruned_get? (sim : Obj ι σ P → Obj ι σ P → τ) (t : τ) {sub gt : Elements ι σ P}
    (hd : DistinctIds sub.values) (hg : DistinctIds gt.values) {d : Obj ι σ P} (hmem : d ∈ sub.values) :
    (pruneCache t (makeSimCache sim sub gt)).get? d.id =
      some (((gt.values.filter (fun g => decide (t ≤ sim d g))).map
        (fun g => (g.id, corrOf sim d g)))) := by
  rw [makeSimCache_eq sim hd]
  unfold pruneCache
  rw [List.map_map]
  apply Dict.get?_of_mem
  · unfold Dict.NodupKeys Dict.keys
    rw [List.map_map]
    exact hd
  · rw [List.mem_map]
    refine ⟨d, hmem, ?_⟩
    simp only [Function.comp]
    rw [pruneRow_eq t (nodupKeys_simRow sim d _), simRow_eq sim d hg, List.filter_map]
    congr 2
    apply List.filter_congr
    intro g _
    simp [Function.comp, corrOf]

/-- Invariant of the detection loop after the detections `pre`. -/
structure LoopInv (sim : Obj ι σ P → Obj ι σ P → τ) (t : τ) (ds gs : List (Obj ι σ P))
    (pre : List (Obj ι σ P)) (st : MatchState ι σ τ) : Prop where
  sound : ∀ i c, st.assoc.get? i = some c → ∃ d ∈ pre, ∃ g ∈ gs, i = d.id ∧ c = corrOf sim d g ∧ t ≤ sim d g
  asg : ∀ g ∈ gs, st.assigned.has g.id = true ↔ ∃ d ∈ pre, st.assoc.get? d.id = some (corrOf sim d g)
  stable : ∀ d ∈ pre, ∀ g ∈ gs, t ≤ sim d g →
    (∃ g' ∈ gs, st.assoc.get? d.id = some (corrOf sim d g') ∧ (g' = g ∨ Prefers sim gs d g' g)) ∨
    (∃ d' ∈ pre, st.assoc.get? d'.id = some (corrOf sim d' g) ∧ Outranks ds d' d)

theorem loopInv_step {sim : Obj ι σ P → Obj ι σ P → τ} {t : τ} {ds gs : List (Obj ι σ P)}
    (hgs : DistinctIds gs) {pre : List (Obj ι σ P)} {x : Obj ι σ P}
    {cache : SimCache ι σ τ} {st st' : MatchState ι σ τ}
    (hrow : cache.get? x.id = some ((gs.filter (fun g => decide (t ≤ sim x g))).map
        (fun g => (g.id, corrOf sim x g))))
    (hx : ∀ d ∈ pre, d.id ≠ x.id) (hout : ∀ d ∈ pre, Outranks ds d x)
    (hI : LoopInv sim t ds gs pre st) (hst : matchStep cache st x = .ok st') :
    LoopInv sim t ds gs (pre ++ [x]) st' := by
  obtain ⟨row, hr, hcase⟩ := matchStep_ok hst
  rw [hrow] at hr
  simp only [Option.some.injEq] at hr
  subst hr
  set cand := (gs.filter (fun g => decide (t ≤ sim x g))).filter
    (fun g => !st.assigned.has g.id) with hcand
  have hval : (Dict.values ((gs.filter (fun g => decide (t ≤ sim x g))).map
        (fun g => (g.id, corrOf sim x g)))).filter (fun c => !st.assigned.has c.gtId) =
      cand.map (corrOf sim x) := by
    unfold Dict.values
    rw [List.map_map, List.filter_map, hcand]
    rfl
  rw [hval] at hcase
  have hbm := bestOf_map (fun c : Corr ι σ τ => c.similarity) (corrOf sim x) cand
  rw [hbm] at hcase
  have hcm : ∀ g, g ∈ cand ↔ g ∈ gs ∧ t ≤ sim x g ∧ st.assigned.has g.id = false := by
    intro g; simp only [hcand, List.mem_filter, decide_eq_true_eq, Bool.not_eq_true', and_assoc]
  have hnone : st.assoc.get? x.id = none := by
    cases hxx : st.assoc.get? x.id with
    | none => rfl
    | some c =>
      obtain ⟨d, hd, g, _, he, _⟩ := hI.sound _ _ hxx
      exact absurd he.symm (hx d hd)
  rcases hcase with ⟨hb, rfl⟩ | ⟨c, hb, rfl⟩
  · -- no candidate
    rw [Option.map_eq_none_iff, bestOf_none] at hb
    have hall : ∀ g ∈ gs, t ≤ sim x g → st'.assigned.has g.id = true := by
      intro g hg hs
      by_contra hn
      have : g ∈ cand := (hcm g).2 ⟨hg, hs, by simpa using hn⟩
      rw [hb] at this; simp at this
    refine ⟨?_, ?_, ?_⟩
    · intro i c hic
      obtain ⟨d, hd, h⟩ := hI.sound i c hic
      exact ⟨d, List.mem_append_left _ hd, h⟩
    · intro g hg
      rw [hI.asg g hg]
      constructor
      · rintro ⟨d, hd, h⟩; exact ⟨d, List.mem_append_left _ hd, h⟩
      · rintro ⟨d, hd, h⟩
        rcases List.mem_append.1 hd with hd | hd
        · exact ⟨d, hd, h⟩
        · simp at hd; subst hd; rw [hnone] at h; simp at h
    · intro d hd g hg hs
      rcases List.mem_append.1 hd with hd | hd
      · rcases hI.stable d hd g hg hs with h | ⟨d', hd', h⟩
        · exact Or.inl h
        · exact Or.inr ⟨d', List.mem_append_left _ hd', h⟩
      · simp at hd; subst hd
        obtain ⟨d', hd', h⟩ := (hI.asg g hg).1 (hall g hg hs)
        exact Or.inr ⟨d', List.mem_append_left _ hd', h, hout d' hd'⟩
  · -- best candidate
    rw [Option.map_eq_some_iff] at hb
    obtain ⟨g0, hg0, rfl⟩ := hb
    have hg0m := (hcm g0).1 (bestOf_mem hg0)
    have hpw : cand.Pairwise (fun a b => (gs.map Obj.id).idxOf a.id < (gs.map Obj.id).idxOf b.id) :=
      ((pairwise_before hgs).sublist List.filter_sublist).sublist List.filter_sublist
    have hbest := bestOf_spec hpw hg0
    have hkeep : ∀ d ∈ pre, (st.assoc.set x.id (corrOf sim x g0)).get? d.id = st.assoc.get? d.id := by
      intro d hd
      exact Dict.get?_set_ne _ _ (Ne.symm (hx d hd))
    refine ⟨?_, ?_, ?_⟩
    · intro i c hic
      simp only [Dict.get?_set] at hic
      split at hic
      · rename_i e
        simp at hic; subst hic
        exact ⟨x, by simp, g0, hg0m.1, e.symm, rfl, hg0m.2.1⟩
      · obtain ⟨d, hd, h⟩ := hI.sound i c hic
        exact ⟨d, List.mem_append_left _ hd, h⟩
    · intro g hg
      simp only [Dict.has_set]
      constructor
      · intro h
        rw [Bool.or_eq_true, decide_eq_true_eq] at h
        rcases h with h | h
        · have : g0 = g := eq_of_id_eq hgs hg0m.1 hg h
          subst this
          exact ⟨x, by simp, by simp⟩
        · obtain ⟨d, hd, h⟩ := (hI.asg g hg).1 h
          exact ⟨d, List.mem_append_left _ hd, by rw [hkeep d hd]; exact h⟩
      · rintro ⟨d, hd, h⟩
        rw [Bool.or_eq_true, decide_eq_true_eq]
        rcases List.mem_append.1 hd with hd | hd
        · rw [hkeep d hd] at h
          exact Or.inr ((hI.asg g hg).2 ⟨d, hd, h⟩)
        · simp at hd; subst hd
          simp only [Dict.get?_set_self, Option.some.injEq, corrOf, Corr.mk.injEq] at h
          exact Or.inl h.2.1
    · intro d hd g hg hs
      rcases List.mem_append.1 hd with hd | hd
      · rcases hI.stable d hd g hg hs with ⟨g', hg', h1, h2⟩ | ⟨d', hd', h1, h2⟩
        · exact Or.inl ⟨g', hg', by rw [hkeep d hd]; exact h1, h2⟩
        · exact Or.inr ⟨d', List.mem_append_left _ hd', by rw [hkeep d' hd']; exact h1, h2⟩
      · simp at hd; subst hd
        by_cases has : st.assigned.has g.id = true
        · obtain ⟨d', hd', h⟩ := (hI.asg g hg).1 has
          exact Or.inr ⟨d', List.mem_append_left _ hd', by rw [hkeep d' hd']; exact h, hout d' hd'⟩
        · have hgc : g ∈ cand := (hcm g).2 ⟨hg, hs, by simpa using has⟩
          refine Or.inl ⟨g0, hg0m.1, by simp, ?_⟩
          rcases hbest g hgc with h | h | h
          · exact Or.inl h.symm
          · exact Or.inr (Or.inl h)
          · exact Or.inr (Or.inr h)

/-- The detection loop on a well-keyed pair of scenes. -/
theorem matchAll_loopInv {sim : Obj ι σ P → Obj ι σ P → τ} {t : τ} {sub gt : Elements ι σ P}
    (hd : DistinctIds sub.values) (hg : DistinctIds gt.values) {a : Dict ι (Corr ι σ τ)}
    (h : matchAll (pruneCache t (makeSimCache sim sub gt)) sub.values = .ok a) :
    ∃ asg, LoopInv sim t sub.values gt.values
      (pySortedRev (fun e : Obj ι σ P => e.score) sub.values) ⟨a, asg⟩ := by
  obtain ⟨asg, hf⟩ := matchAll_ok h
  refine ⟨asg, foldlM_inv (I := LoopInv sim t sub.values gt.values) ?_ ?_ hf⟩
  · exact ⟨by simp, by simp [Dict.has], by simp⟩
  · intro pre x post st st' hl hI hst
    have hxm : x ∈ sub.values := by
      rw [← mem_pySortedRev (fun e : Obj ι σ P => e.score), hl]; simp
    have hpw := pairwise_outranks hd
    have hnd : (List.map Obj.id (pySortedRev (fun e : Obj ι σ P => e.score) sub.values)).Nodup :=
      ((perm_pySortedRev (fun e : Obj ι σ P => e.score) sub.values).map Obj.id).nodup_iff.2 hd
    rw [hl] at hpw hnd
    refine loopInv_step hg (pruned_get? sim t hd hg hxm) ?_ ?_ hI hst
    · intro d hd' e
      rw [List.map_append, List.nodup_append] at hnd
      exact hnd.2.2 d.id (List.mem_map_of_mem hd') x.id (by simp) e
    · intro d hd'
      rw [List.pairwise_append] at hpw
      exact hpw.2.2 d hd' x (by simp)

/-- No `KeyError` in the detection loop if every detection has a row. -/
theorem matchAll_succeeds {cache : SimCache ι σ τ} {dets : List (Obj ι σ P)}
    (h : ∀ d ∈ dets, d.id ∈ cache.keys) : ∃ a, matchAll cache dets = .ok a := by
  have := foldlM_ok (f := matchStep cache) (I := fun _ _ => True) (b := (⟨[], []⟩ : MatchState ι σ τ))
    (l := pySortedRev (fun e : Obj ι σ P => e.score) dets) trivial (by
      intro pre x post st hl _
      have hxm : x ∈ dets := by
        rw [← mem_pySortedRev (fun e : Obj ι σ P => e.score), hl]; simp
      have hk := h x hxm
      unfold matchStep
      cases hg : cache.get? x.id with
      | none => rw [Dict.get?_eq_none_iff] at hg; exact absurd hk hg
      | some row =>
        have : cache.get x.id = .ok row := by unfold Dict.get; rw [hg]
        rw [this]
        simp only [bind, Except.bind]
        cases (sortCorrsBySimilarity (row.values.filter (fun c => !st.assigned.has c.gtId))).getLast? with
        | none => exact ⟨_, rfl, trivial⟩
        | some c => exact ⟨_, rfl, trivial⟩)
  obtain ⟨st, hst, _⟩ := this
  refine ⟨st.assoc, ?_⟩
  unfold matchAll
  rw [hst]; rfl

theorem keys_pruneCache (t : τ) (cache : SimCache ι σ τ) :
    Dict.keys (pruneCache t cache) = cache.keys := by
  unfold pruneCache Dict.keys
  rw [List.map_map]; rfl

theorem mem_keys_makeSimCache (sim : Obj ι σ P → Obj ι σ P → τ) (sub gt : Elements ι σ P)
    {d : Obj ι σ P} (h : d ∈ sub.values) : d.id ∈ (makeSimCache sim sub gt).keys := by
  unfold makeSimCache
  have : ∀ (l : List (Obj ι σ P)) (c : SimCache ι σ τ) (i : ι),
      (i ∈ c.keys ∨ ∃ d ∈ l, d.id = i) →
      i ∈ (l.foldl (fun cache det => cache.set det.id (simRow sim det gt.values)) c).keys := by
    intro l
    induction l with
    | nil => intro c i hi; simpa using hi
    | cons a l ih =>
      intro c i hi
      apply ih
      rw [Dict.mem_keys_set]
      rcases hi with hi | ⟨d, hd, rfl⟩
      · exact Or.inl (Or.inr hi)
      · rcases List.mem_cons.1 hd with rfl | hd
        · exact Or.inl (Or.inl rfl)
        · exact Or.inr ⟨d, hd, rfl⟩
  exact this sub.values [] d.id (Or.inr ⟨d, h, rfl⟩)

/-- The agnostic association never raises. -/
theorem agnosticAssoc_succeeds {dets : Elements ι σ P} {ts : List τ} {cache : SimCache ι σ τ}
    (h : ∀ d ∈ dets.values, d.id ∈ cache.keys) : ∃ r, agnosticAssoc dets ts cache = .ok r := by
  obtain ⟨r, hr⟩ := threshLoop_ok (dets := dets.values) (ts := ts) (acc := [])
    (fun c => ∀ d ∈ dets.values, d.id ∈ c.keys) h
    (by intro t c hc d hd; rw [keys_pruneCache]; exact hc d hd)
    (fun c hc => matchAll_succeeds hc)
  exact ⟨r.2, by unfold agnosticAssoc; rw [hr]; rfl⟩

theorem distinctIds_of_wellKeyed {els : Elements ι σ P} (h : WellKeyed els) :
    DistinctIds els.values := by
  unfold DistinctIds Dict.values
  rw [List.map_map]
  have : els.map (Obj.id ∘ Prod.snd) = els.keys := by
    unfold Dict.keys
    apply List.map_congr_left
    intro p hp
    exact (h.2 p hp).symm
  rw [this]; exact h.1

end Sumo
