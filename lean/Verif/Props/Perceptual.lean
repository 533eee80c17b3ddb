import Verif.Lemmas.Perceptual
import Verif.Props.Scores
import Verif.Props.PoseError

/-!
# Perceptual score (C22, C23, C24, C29)
-/

set_option linter.unusedSectionVars false

namespace Sumo
open AssocSpec

variable {ι σ τ : Type} [DecidableEq ι] [LinearOrder σ] [LinearOrder τ]
  {sim : Obj ι σ Payload → Obj ι σ Payload → τ} {sub gt : Elements ι σ Payload} {s : AssocSettings τ}
  {ev : Evaluator ι σ τ Payload}

/-- Non-negative weights, a positive one for the room scale, and non-zero standard deviations. -/
structure Sensible (p : PerceptualParams) : Prop where
  room : 0 < p.roomScale.weight
  true' : 0 ≤ p.trueObjScale.weight
  rel : 0 ≤ p.relativeObjScale.weight
  trans : 0 ≤ p.translation.weight
  elev : 0 ≤ p.elevation.weight
  missed : 0 ≤ p.missedWeight
  extra : 0 ≤ p.extraWeight
  std : p.roomScale.stdDev ≠ 0 ∧ p.trueObjScale.stdDev ≠ 0 ∧ p.relativeObjScale.stdDev ≠ 0 ∧
    p.translation.stdDev ≠ 0 ∧ p.elevation.stdDev ≠ 0

theorem Sensible.stdOk {p : PerceptualParams} (h : Sensible p) : StdOk p :=
  ⟨h.std.1, h.std.2.1, h.std.2.2.1, h.std.2.2.2.1, h.std.2.2.2.2⟩

/-- The default settings are sensible. -/
theorem sensible_default : Sensible defaultPerceptual := by
  constructor <;> norm_num [defaultPerceptual]

/-- Boxes of non-negative volume (every box made by the constructor, see C39). -/
def Volumes (els : Elements ι σ Payload) : Prop := ∀ e ∈ els.values, 0 ≤ e.payload.bounds.volume

theorem pairMax_nonneg {p : PerceptualParams} (hp : Sensible p) (rs : ℝ) (g : Obj ι σ Payload) :
    0 ≤ pairMax p rs g := by
  have := pairScore_range hp.true' hp.rel hp.trans hp.elev rs g g
  linarith [this.1, this.2]

theorem maxScore_pos {p : PerceptualParams} (hp : Sensible p) (ev : Evaluator ι σ τ Payload)
    (m : Dict ι (Corr ι σ τ)) : 0 < maxScore p ev m := by
  unfold maxScore
  have := sum_map_nonneg (evalPairs ev.submission ev.groundTruth m.values)
    (fun q => pairMax p (roomScale ev.submission ev.groundTruth) q.2) (fun q _ => pairMax_nonneg hp _ _)
  linarith [hp.room]

theorem penalties_nonneg {p : PerceptualParams} (hp : Sensible p) {ev : Evaluator ι σ τ Payload}
    (h1 : Volumes ev.submission) (h2 : Volumes ev.groundTruth) (missed extra : List ι) :
    0 ≤ p.missedWeight * (((elementsOf ev.groundTruth missed).filter (fun g => g.evaluated)).map
      (fun g => g.payload.bounds.volume)).sum ∧
    0 ≤ p.extraWeight * ((elementsOf ev.submission extra).map (fun g => g.payload.bounds.volume)).sum := by
  constructor
  · refine mul_nonneg hp.missed (sum_map_nonneg _ _ fun e he => h2 e (mem_elementsOf (List.mem_filter.1 he).1))
  · exact mul_nonneg hp.extra (sum_map_nonneg _ _ fun e he => h1 e (mem_elementsOf he))

theorem rawScore_le {p : PerceptualParams} (hp : Sensible p) {ev : Evaluator ι σ τ Payload}
    (h1 : Volumes ev.submission) (h2 : Volumes ev.groundTruth) (m : Dict ι (Corr ι σ τ)) (missed extra : List ι) :
    rawScore p ev m missed extra ≤ gauss p.roomScale (roomScale ev.submission ev.groundTruth) +
      (maxScore p ev m - p.roomScale.weight) := by
  unfold rawScore maxScore
  have a := penalties_nonneg hp h1 h2 missed extra
  have b := sum_map_le (evalPairs ev.submission ev.groundTruth m.values)
    (fun q => pairScore p (roomScale ev.submission ev.groundTruth) q.1 q.2)
    (fun q => pairMax p (roomScale ev.submission ev.groundTruth) q.2)
    (fun q _ => (pairScore_range hp.true' hp.rel hp.trans hp.elev _ q.1 q.2).2)
  linarith [a.1, a.2]

theorem scoreAt_range {p : PerceptualParams} (hp : Sensible p) {ev : Evaluator ι σ τ Payload}
    (h1 : Volumes ev.submission) (h2 : Volumes ev.groundTruth) (t : τ) :
    0 ≤ scoreAt p ev t ∧ scoreAt p ev t ≤ 1 := by
  have hm := maxScore_pos hp ev (assocAt ev.agnostic t)
  have hr := rawScore_le hp h1 h2 (assocAt ev.agnostic t) (missedAt ev t) (extraAt ev t)
  have hg := (gauss_range hp.room.le (roomScale ev.submission ev.groundTruth)).2
  unfold scoreAt
  split_ifs with h
  · norm_num
  · push Not at h
    exact ⟨(div_pos h hm).le, by rw [div_le_one hm]; linarith⟩

/-- **C22** the perceptual score is in `[0, 1]`, for every submission; without thresholds it is NaN. -/
theorem C22_perceptual_range {p : PerceptualParams} (hp : Sensible p)
    (h : Evaluator.build sim sub gt s = .ok ev) (hs : WellKeyed sub) (hg : WellKeyed gt)
    (hv : Volumes sub) (hw : Volumes gt) :
    (s.thresholds ≠ [] → ∃ x, perceptualScore p ev = .ok (some x) ∧ 0 ≤ x ∧ x ≤ 1) ∧
    (s.thresholds = [] → perceptualScore p ev = .ok none) := by
  obtain ⟨_, _, hsub, hgt, _, hset⟩ := build_ok h
  rw [perceptualScore_eq hp.stdOk h hs hg (fun t _ => (maxScore_pos hp _ _).ne')]
  constructor
  · intro hne
    rw [if_neg hne]
    refine ⟨_, rfl, ?_, ?_⟩
    · apply meanR_nonneg
      intro x hx
      obtain ⟨t, -, rfl⟩ := List.mem_map.1 hx
      exact (scoreAt_range hp (by rwa [hsub]) (by rwa [hgt]) t).1
    · apply meanR_le
      · intro he
        rw [List.map_eq_nil_iff] at he
        obtain ⟨t, ht⟩ := List.exists_mem_of_ne_nil _ hne
        have := (mem_settings h).2 ht
        rw [he] at this
        exact absurd this (by simp)
      · intro x hx
        obtain ⟨t, -, rfl⟩ := List.mem_map.1 hx
        exact (scoreAt_range hp (by rwa [hsub]) (by rwa [hgt]) t).2
  · intro he; rw [if_pos he]

/-- A submission that has everything right at every threshold: each element is matched to a ground truth element of
the same category, bounds and position; every evaluated ground truth element is matched; and floors are
evaluated. -/
structure Perfect (sub gt : Elements ι σ Payload) (s : AssocSettings τ) (ev : Evaluator ι σ τ Payload) : Prop where
  matched : ∀ t ∈ s.thresholds, ∀ d ∈ sub.values, ∃ g, MatchedAt sub gt ev t d g
  found : ∀ t ∈ s.thresholds, ∀ g ∈ gt.values, g.evaluated = true → ∃ d, MatchedAt sub gt ev t d g
  same : ∀ t ∈ s.thresholds, ∀ d g, MatchedAt sub gt ev t d g →
    d.category = g.category ∧ d.payload.bounds = g.payload.bounds ∧ d.payload.pose.t = g.payload.pose.t
  floors : ∀ g ∈ gt.values, g.category = "floor" → g.evaluated = true

/-- Some evaluated floor has positive area, and none has negative area. -/
def HasFloor (gt : Elements ι σ Payload) : Prop :=
  (∀ g ∈ gt.values, g.category = "floor" → g.payload.bounds.minCorner.x ≤ g.payload.bounds.maxCorner.x ∧
    g.payload.bounds.minCorner.z ≤ g.payload.bounds.maxCorner.z) ∧
  ∃ g ∈ gt.values, g.category = "floor" ∧ g.evaluated = true ∧
    g.payload.bounds.minCorner.x < g.payload.bounds.maxCorner.x ∧
    g.payload.bounds.minCorner.z < g.payload.bounds.maxCorner.z

theorem sum_pos_of_mem {l : List ℝ} (h : ∀ x ∈ l, 0 ≤ x) {y : ℝ} (hy : y ∈ l) (hp : 0 < y) : 0 < l.sum := by
  have h0 := List.sum_nonneg h
  rcases h0.lt_or_eq with h1 | h1
  · exact h1
  · exact absurd ((sum_eq_zero_list h).1 h1.symm y hy) hp.ne'

theorem roomScale_perfect (h : Evaluator.build sim sub gt s = .ok ev) (hs : WellKeyed sub) (hg : WellKeyed gt)
    (hne : s.thresholds ≠ []) (hP : Perfect sub gt s ev) (hf : HasFloor gt) : roomScale sub gt = 1 := by
  obtain ⟨t, ht⟩ := List.exists_mem_of_ne_nil _ hne
  set P := pairsOf sub gt (assocAt ev.agnostic t).values with hPdef
  have hmem : ∀ d g, (d, g) ∈ P ↔ MatchedAt sub gt ev t d g := by
    intro d g
    rw [hPdef, mem_pairsOf h hs hg ht, matchedAt_iff h ht]
  have hn1 : (P.map Prod.fst).Nodup := pairsOf_fst h hs hg ht
  have hn : P.Nodup := List.Nodup.of_map _ hn1
  have hgr := matched_isGreedy (distinctIds_of_wellKeyed hs) (distinctIds_of_wellKeyed hg) (matchAll_of_assocAt h ht)
  have hn2 : (P.map Prod.snd).Nodup := by
    refine hn.map_on ?_
    rintro ⟨d, g⟩ hq ⟨d', g'⟩ hq' he
    simp only at he
    subst he
    rw [hmem, matchedAt_iff h ht] at hq hq'
    rw [hgr.one_det _ _ _ hq hq']
  have nodupVals : ∀ {els : Elements ι σ Payload}, WellKeyed els → els.values.Nodup := by
    intro els hw
    have := distinctIds_of_wellKeyed hw
    unfold DistinctIds at this
    exact List.Nodup.of_map _ this
  have p1 : sub.values.Perm (P.map Prod.fst) := by
    rw [List.perm_ext_iff_of_nodup (nodupVals hs) hn1]
    intro d
    constructor
    · intro hd
      obtain ⟨g, hm⟩ := hP.matched t ht d hd
      exact List.mem_map.2 ⟨(d, g), (hmem d g).2 hm, rfl⟩
    · intro hd
      obtain ⟨⟨d', g⟩, hq, rfl⟩ := List.mem_map.1 hd
      exact ((matchedAt_iff h ht _ _).1 ((hmem _ _).1 hq)).1
  have p2 : (gt.values.filter (fun e => e.category = "floor" ∧ e.evaluated = true)).Perm
      ((P.map Prod.snd).filter (fun e => e.category = "floor" ∧ e.evaluated = true)) := by
    rw [List.perm_ext_iff_of_nodup ((nodupVals hg).filter _) (hn2.filter _)]
    intro g
    simp only [List.mem_filter, decide_eq_true_eq]
    constructor
    · rintro ⟨hgm, hc, he⟩
      obtain ⟨d, hm⟩ := hP.found t ht g hgm he
      exact ⟨List.mem_map.2 ⟨(d, g), (hmem d g).2 hm, rfl⟩, hc, he⟩
    · rintro ⟨hq, hc, he⟩
      obtain ⟨⟨d', g⟩, hq', rfl⟩ := List.mem_map.1 hq
      exact ⟨((matchedAt_iff h ht _ _).1 ((hmem _ _).1 hq')).2.1, hc, he⟩
  have e1 : ((sub.values.filter (fun e => e.category = "floor")).map (fun e => floorSize e.payload.bounds)).sum =
      ((gt.values.filter (fun e => e.category = "floor" ∧ e.evaluated = true)).map
        (fun e => floorSize e.payload.bounds)).sum := by
    rw [((p1.filter _).map _).sum_eq, ((p2).map _).sum_eq, List.filter_map, List.filter_map, List.map_map,
      List.map_map]
    congr 1
    have hfe : List.filter ((fun e : Obj ι σ Payload => decide (e.category = "floor")) ∘ Prod.fst) P =
        List.filter ((fun e : Obj ι σ Payload => decide (e.category = "floor" ∧ e.evaluated = true)) ∘ Prod.snd) P := by
      apply List.filter_congr
      rintro ⟨d, g⟩ hq
      have hm := (hmem _ _).1 hq
      obtain ⟨hc, -, -⟩ := hP.same t ht d g hm
      have hgm := ((matchedAt_iff h ht _ _).1 hm).2.1
      simp only [Function.comp, hc, decide_eq_decide]
      exact ⟨fun hc => ⟨hc, hP.floors g hgm hc⟩, fun hc => hc.1⟩
    rw [hfe]
    apply List.map_congr_left
    rintro ⟨d, g⟩ hq
    have hm := (hmem _ _).1 (List.mem_filter.1 hq).1
    simp only [Function.comp, (hP.same t ht d g hm).2.1]
  have hpos : 0 < ((gt.values.filter (fun e => e.category = "floor" ∧ e.evaluated = true)).map
        (fun e => floorSize e.payload.bounds)).sum := by
    obtain ⟨hall, g, hgm, hc, he, hx, hz⟩ := hf
    refine sum_pos_of_mem ?_ (List.mem_map.2 ⟨g, List.mem_filter.2 ⟨hgm, by simp [hc, he]⟩, rfl⟩) ?_
    · intro x hx
      obtain ⟨e, he, rfl⟩ := List.mem_map.1 hx
      obtain ⟨he1, he2⟩ := List.mem_filter.1 he
      simp only [decide_eq_true_eq] at he2
      obtain ⟨a, b⟩ := hall e he1 he2.1
      exact mul_nonneg (sub_nonneg.2 a) (sub_nonneg.2 b)
    · exact mul_pos (sub_pos.2 hx) (sub_pos.2 hz)
  rw [roomScale_eq, e1, if_pos hpos, div_self hpos.ne']

theorem pairScore_same {p : PerceptualParams} (h1 : p.trueObjScale.mean = 1)
    (h2 : p.relativeObjScale.mean = 1) (h3 : p.translation.mean = 0) (h4 : p.elevation.mean = 0)
    {d g : Obj ι σ Payload} (hb : d.payload.bounds = g.payload.bounds) (ht : d.payload.pose.t = g.payload.pose.t) :
    pairScore p 1 d g = pairMax p 1 g := by
  unfold pairScore pairMax
  rw [hb, ht, gauss_mean (s := p.translation) (by simp [h3]), gauss_mean (s := p.elevation) (by simp [h4])]
  by_cases hv : g.payload.bounds.volume > 0
  · have hv1 : g.payload.bounds.volume * 1 > 0 := by linarith
    rw [if_pos hv, if_pos hv1, if_pos hv, if_pos hv1,
      gauss_mean (s := p.trueObjScale) (by rw [h1, div_self hv.ne']),
      gauss_mean (s := p.relativeObjScale) (by rw [h2, mul_one, div_self hv.ne'])]
  · have hv1 : ¬ g.payload.bounds.volume * 1 > 0 := by rwa [mul_one]
    rw [if_neg hv, if_neg hv1, if_neg hv, if_neg hv1]

/-- **C23** a perfect submission gets perceptual score exactly 1 (for Gaussians centred at 1, 1, 1, 0, 0, like the
default ones). -/
theorem C23_perfect_submission {p : PerceptualParams} (hp : Sensible p)
    (m0 : p.roomScale.mean = 1) (m1 : p.trueObjScale.mean = 1) (m2 : p.relativeObjScale.mean = 1)
    (m3 : p.translation.mean = 0) (m4 : p.elevation.mean = 0)
    (h : Evaluator.build sim sub gt s = .ok ev) (hs : WellKeyed sub) (hg : WellKeyed gt)
    (hne : s.thresholds ≠ []) (hP : Perfect sub gt s ev) (hf : HasFloor gt) :
    perceptualScore p ev = .ok (some 1) := by
  obtain ⟨_, _, hsub, hgt, _, hset⟩ := build_ok h
  have hrs := roomScale_perfect h hs hg hne hP hf
  rw [perceptualScore_eq hp.stdOk h hs hg (fun t _ => (maxScore_pos hp _ _).ne'), if_neg hne]
  have one : ∀ t ∈ ev.settings.thresholds, scoreAt p ev t = 1 := by
    intro t ht
    have ht := (mem_settings h).1 ht
    have hm := maxScore_pos hp ev (assocAt ev.agnostic t)
    have he : extraAt ev t = [] := by
      unfold extraAt
      rw [List.filter_eq_nil_iff, hsub]
      intro i hi
      obtain ⟨d, hd⟩ := Dict.mem_keys.1 hi
      have hid := hs.2 _ hd
      simp only at hid
      obtain ⟨g, hm⟩ := hP.matched t ht d (Dict.mem_values.2 ⟨i, hd⟩)
      obtain ⟨-, -, c, hc, -⟩ := (matchedAt_iff h ht _ _).1 hm
      obtain ⟨a, ha⟩ := (C05_threshold_independent h h t).1.1 ht
      have e : assocAt ev.agnostic t = a := by unfold assocAt; rw [ha]; rfl
      have hc' := hc
      rw [e] at hc'
      obtain ⟨-, -, -, -, -, -, h4, -⟩ := C02_matches_are_real h hs hg ha hc'
      simp only [Bool.not_eq_true', List.contains_eq_mem, decide_eq_false_iff_not, not_not]
      exact List.mem_map.2 ⟨c, Dict.mem_values.2 ⟨_, Dict.mem_of_get? hc⟩, by rw [h4, hid]⟩
    have hmi : (elementsOf ev.groundTruth (missedAt ev t)).filter (fun g => g.evaluated) = [] := by
      rw [List.filter_eq_nil_iff]
      intro g hgm hev
      unfold elementsOf at hgm
      obtain ⟨i, hi, hgi⟩ := List.mem_filterMap.1 hgm
      rw [hgt] at hgi
      have hmem := Dict.mem_of_get? hgi
      have hid := hg.2 _ hmem
      simp only at hid
      obtain ⟨d, hm⟩ := hP.found t ht g (Dict.mem_values.2 ⟨i, hmem⟩) hev
      obtain ⟨-, -, c, hc, hcg⟩ := (matchedAt_iff h ht _ _).1 hm
      unfold missedAt at hi
      have := (List.mem_filter.1 hi).2
      simp only [Bool.not_eq_true', List.contains_eq_mem, decide_eq_false_iff_not] at this
      exact this (List.mem_map.2 ⟨c, Dict.mem_values.2 ⟨_, Dict.mem_of_get? hc⟩, by rw [hcg, hid]⟩)
    have hr : rawScore p ev (assocAt ev.agnostic t) (missedAt ev t) (extraAt ev t) =
        maxScore p ev (assocAt ev.agnostic t) := by
      unfold rawScore maxScore
      rw [he, hmi, hsub, hgt, hrs, gauss_mean (s := p.roomScale) m0.symm]
      have : (evalPairs sub gt (assocAt ev.agnostic t).values).map (fun q => pairScore p 1 q.1 q.2) =
          (evalPairs sub gt (assocAt ev.agnostic t).values).map (fun q => pairMax p 1 q.2) := by
        apply List.map_congr_left
        rintro ⟨d, g⟩ hq
        have hq' := (List.mem_filter.1 hq).1
        rw [mem_pairsOf h hs hg ht, ← matchedAt_iff h ht] at hq'
        obtain ⟨-, hb, htr⟩ := hP.same t ht d g hq'
        exact pairScore_same m1 m2 m3 m4 hb htr
      rw [this]
      simp [elementsOf]
    unfold scoreAt
    rw [hr, if_neg (not_le.2 hm), div_self hm.ne']
  have : ev.settings.thresholds.map (scoreAt p ev) = ev.settings.thresholds.map (fun _ => (1 : ℝ)) :=
    List.map_congr_left one
  rw [this]
  have hlen : (ev.settings.thresholds.length : ℝ) ≠ 0 := by
    obtain ⟨t, ht⟩ := List.exists_mem_of_ne_nil _ hne
    have := List.length_pos_of_mem ((mem_settings h).2 ht)
    exact_mod_cast this.ne'
  simp [meanR, hlen]

/-- With the default settings. -/
theorem C23_perfect_submission_default
    (h : Evaluator.build sim sub gt s = .ok ev) (hs : WellKeyed sub) (hg : WellKeyed gt)
    (hne : s.thresholds ≠ []) (hP : Perfect sub gt s ev) (hf : HasFloor gt) :
    perceptualScore defaultPerceptual ev = .ok (some 1) :=
  C23_perfect_submission sensible_default rfl rfl rfl rfl rfl h hs hg hne hP hf

/-- **C23**, the other direction for the room: a wrong room scale always costs something. -/
theorem C23_room_scale_matters {p : PerceptualParams} (hp : Sensible p)
    (h : Evaluator.build sim sub gt s = .ok ev) (hs : WellKeyed sub) (hg : WellKeyed gt)
    (hv : Volumes sub) (hw : Volumes gt) (hne : s.thresholds ≠ []) (hr : roomScale sub gt ≠ p.roomScale.mean) :
    ∃ x, perceptualScore p ev = .ok (some x) ∧ x < 1 := by
  obtain ⟨_, _, hsub, hgt, _, hset⟩ := build_ok h
  rw [perceptualScore_eq hp.stdOk h hs hg (fun t _ => (maxScore_pos hp _ _).ne'), if_neg hne]
  refine ⟨_, rfl, ?_⟩
  have hg1 : gauss p.roomScale (roomScale ev.submission ev.groundTruth) < p.roomScale.weight := by
    rw [hsub, hgt]
    unfold gauss
    have : Real.exp (-0.5 * (roomScale sub gt - p.roomScale.mean) ^ 2 / p.roomScale.stdDev ^ 2) < 1 := by
      rw [Real.exp_lt_one_iff, neg_mul, neg_div, neg_lt_zero]
      have h1 := pow_pos (abs_pos.2 (sub_ne_zero.2 hr)) 2
      have h2 := pow_pos (abs_pos.2 hp.std.1) 2
      rw [sq_abs] at h1 h2
      positivity
    nlinarith [hp.room]
  have lt : ∀ t, scoreAt p ev t < 1 := by
    intro t
    have hm := maxScore_pos hp ev (assocAt ev.agnostic t)
    have hr := rawScore_le hp (by rwa [hsub]) (by rwa [hgt]) (assocAt ev.agnostic t) (missedAt ev t) (extraAt ev t)
    unfold scoreAt
    split_ifs
    · norm_num
    · rw [div_lt_one hm]; linarith
  have hlen : (0 : ℝ) < ev.settings.thresholds.length := by
    obtain ⟨t, ht⟩ := List.exists_mem_of_ne_nil _ hne
    have := List.length_pos_of_mem ((mem_settings h).2 ht)
    exact_mod_cast this
  have hsum : ∀ l : List τ, l ≠ [] → (l.map (scoreAt p ev)).sum < l.length := by
    intro l
    induction l with
    | nil => simp
    | cons t l ih =>
      intro _
      rw [List.map_cons, List.sum_cons, List.length_cons]
      push_cast
      by_cases hl : l = []
      · subst hl; simpa using lt t
      · have := ih hl
        have := lt t
        linarith
  unfold meanR
  rw [List.length_map, div_lt_one hlen]
  exact hsum _ (by intro h0; rw [h0] at hlen; simp at hlen)

/-! ### C24 -/

theorem keys_of_get? {els : Elements ι σ Payload} {i : ι} {e : Obj ι σ Payload} (h : els.get? i = some e) :
    i ∈ els.keys := Dict.mem_keys.2 ⟨e, Dict.mem_of_get? h⟩

/-- What makes the score defined: the correspondences and ids point to elements. -/
structure WellFormed (ev : Evaluator ι σ τ Payload) (m : Dict ι (Corr ι σ τ)) (missed extra : List ι) : Prop where
  matched : ∀ c ∈ m.values, (∃ d, ev.submission.get? c.detId = some d) ∧ ∃ g, ev.groundTruth.get? c.gtId = some g
  missed : ∀ i ∈ missed, i ∈ ev.groundTruth.keys
  extra : ∀ i ∈ extra, i ∈ ev.submission.keys

theorem WellFormed.linked {m : Dict ι (Corr ι σ τ)} {missed extra : List ι}
    (h : WellFormed ev m missed extra) : ∀ c ∈ m.values, Linked ev.submission ev.groundTruth c := by
  intro c hc
  obtain ⟨⟨d, hd⟩, g, hg⟩ := h.matched c hc
  exact ⟨d, g, hd, hg⟩

theorem elementsOf_perm (els : Elements ι σ Payload) {l l' : List ι} (h : l.Perm l') :
    (elementsOf els l).Perm (elementsOf els l') := h.filterMap _

theorem rawScore_perm (p : PerceptualParams) (ev : Evaluator ι σ τ Payload) (m : Dict ι (Corr ι σ τ))
    {missed missed' extra extra' : List ι} (h1 : missed.Perm missed') (h2 : extra.Perm extra') :
    rawScore p ev m missed extra = rawScore p ev m missed' extra' := by
  unfold rawScore
  rw [(((elementsOf_perm _ h1).filter _).map _).sum_eq, ((elementsOf_perm _ h2).map _).sum_eq]

/-- **C24** the order in which the sets `missed` and `extra` are iterated does not matter. -/
theorem C24_set_order {p : PerceptualParams} (hp : Sensible p) {m : Dict ι (Corr ι σ τ)}
    {missed missed' extra extra' : List ι} (hw : WellFormed ev m missed extra)
    (h1 : missed.Perm missed') (h2 : extra.Perm extra') (n : Bool) :
    perceptualScore1 p ev m missed extra n = perceptualScore1 p ev m missed' extra' n := by
  rw [perceptualScore1_eq hp.stdOk hw.linked hw.missed hw.extra,
    perceptualScore1_eq hp.stdOk hw.linked (fun i hi => hw.missed i (h1.mem_iff.2 hi))
      (fun i hi => hw.extra i (h2.mem_iff.2 hi)), rawScore_perm p ev m h1 h2]

theorem normalized_le {p : PerceptualParams} (hp : Sensible p) {m : Dict ι (Corr ι σ τ)} {a b : ℝ} (hab : a ≤ b) :
    ∃ x y, (if b ≤ 0 then (.ok 0 : Except PyErr ℝ) else if maxScore p ev m = 0 then .error .zeroDivisionError
        else .ok (b / maxScore p ev m)) = .ok x ∧
      (if a ≤ 0 then (.ok 0 : Except PyErr ℝ) else if maxScore p ev m = 0 then .error .zeroDivisionError
        else .ok (a / maxScore p ev m)) = .ok y ∧ y ≤ x := by
  have hm := maxScore_pos hp ev m
  rw [if_neg hm.ne', if_neg hm.ne']
  by_cases ha : a ≤ 0
  · rw [if_pos ha]
    by_cases hb : b ≤ 0
    · exact ⟨0, 0, by rw [if_pos hb], rfl, le_refl _⟩
    · push Not at hb
      exact ⟨_, 0, by rw [if_neg (not_le.2 hb)], rfl, (div_pos hb hm).le⟩
  · have hb : ¬ b ≤ 0 := fun hb => ha (hab.trans hb)
    rw [if_neg ha, if_neg hb]
    exact ⟨_, _, rfl, rfl, by gcongr⟩

/-- **C24** missing one more ground truth element `e` lowers the raw score by exactly the weight times its
volume (0 if `e` is not evaluated), and never raises the normalised score. -/
theorem C24_missed {p : PerceptualParams} (hp : Sensible p) {m : Dict ι (Corr ι σ τ)}
    {missed missed' extra : List ι} (hw : WellFormed ev m missed extra) {i : ι} {e : Obj ι σ Payload}
    (he : ev.groundTruth.get? i = some e) (hv : 0 ≤ e.payload.bounds.volume) (hi : missed'.Perm (i :: missed)) :
    (∃ x, perceptualScore1 p ev m missed extra false = .ok x ∧
      perceptualScore1 p ev m missed' extra false =
        .ok (x - if e.evaluated then p.missedWeight * e.payload.bounds.volume else 0)) ∧
    (∃ x y, perceptualScore1 p ev m missed extra true = .ok x ∧
      perceptualScore1 p ev m missed' extra true = .ok y ∧ y ≤ x) := by
  have hm' : ∀ j ∈ missed', j ∈ ev.groundTruth.keys := by
    intro j hj
    rcases List.mem_cons.1 (hi.mem_iff.1 hj) with rfl | hj
    · exact keys_of_get? he
    · exact hw.missed j hj
  have hraw : rawScore p ev m missed' extra = rawScore p ev m missed extra -
      if e.evaluated then p.missedWeight * e.payload.bounds.volume else 0 := by
    rw [rawScore_perm p ev m hi (List.Perm.refl _)]
    unfold rawScore elementsOf
    rw [List.filterMap_cons_some he, List.filter_cons]
    by_cases hev : e.evaluated
    · simp only [hev, if_true, List.map_cons, List.sum_cons]; ring
    · simp [hev]
  have hle : rawScore p ev m missed' extra ≤ rawScore p ev m missed extra := by
    rw [hraw]
    have := mul_nonneg hp.missed hv
    split_ifs <;> linarith
  simp only [perceptualScore1_eq hp.stdOk hw.linked hw.missed hw.extra,
    perceptualScore1_eq hp.stdOk hw.linked hm' hw.extra]
  constructor
  · exact ⟨_, rfl, by simp [hraw]⟩
  · simpa using normalized_le hp hle

/-- **C24** one more hallucinated detection `e` lowers the raw score by exactly the weight times its volume, and
never raises the normalised score. -/
theorem C24_extra {p : PerceptualParams} (hp : Sensible p) {m : Dict ι (Corr ι σ τ)}
    {missed extra extra' : List ι} (hw : WellFormed ev m missed extra) {i : ι} {e : Obj ι σ Payload}
    (he : ev.submission.get? i = some e) (hv : 0 ≤ e.payload.bounds.volume) (hi : extra'.Perm (i :: extra)) :
    (∃ x, perceptualScore1 p ev m missed extra false = .ok x ∧
      perceptualScore1 p ev m missed extra' false =
        .ok (x - p.extraWeight * e.payload.bounds.volume)) ∧
    (∃ x y, perceptualScore1 p ev m missed extra true = .ok x ∧
      perceptualScore1 p ev m missed extra' true = .ok y ∧ y ≤ x) := by
  have hm' : ∀ j ∈ extra', j ∈ ev.submission.keys := by
    intro j hj
    rcases List.mem_cons.1 (hi.mem_iff.1 hj) with rfl | hj
    · exact keys_of_get? he
    · exact hw.extra j hj
  have hraw : rawScore p ev m missed extra' = rawScore p ev m missed extra -
      p.extraWeight * e.payload.bounds.volume := by
    rw [rawScore_perm p ev m (List.Perm.refl _) hi]
    unfold rawScore elementsOf
    rw [List.filterMap_cons_some he]
    simp only [List.map_cons, List.sum_cons]; ring
  have hle : rawScore p ev m missed extra' ≤ rawScore p ev m missed extra := by
    rw [hraw]
    have := mul_nonneg hp.extra hv
    linarith
  simp only [perceptualScore1_eq hp.stdOk hw.linked hw.missed hw.extra,
    perceptualScore1_eq hp.stdOk hw.linked hw.missed hm']
  constructor
  · exact ⟨_, rfl, by simp [hraw]⟩
  · simpa using normalized_le hp hle

/-! ### C29 -/

/-- Ground area of a box. -/
def groundArea (e : Obj ι σ Payload) : ℝ :=
  (e.payload.bounds.maxCorner.x - e.payload.bounds.minCorner.x) *
  (e.payload.bounds.maxCorner.z - e.payload.bounds.minCorner.z)

/-- **C29** the room scale is (submitted floor area) / (evaluated ground truth floor area), or 0 if the latter is not
positive; `F` and `G` list the floors in any order. -/
theorem C29_room_scale (sub gt : Elements ι σ Payload) {F G : List (Obj ι σ Payload)}
    (hF : F.Perm (sub.values.filter (fun e => e.category = "floor")))
    (hG : G.Perm (gt.values.filter (fun e => e.category = "floor" ∧ e.evaluated = true))) :
    (0 < (G.map groundArea).sum →
      roomScale sub gt * (G.map groundArea).sum = (F.map groundArea).sum) ∧
    ((G.map groundArea).sum ≤ 0 → roomScale sub gt = 0) := by
  rw [roomScale_eq, (hF.map _).sum_eq, (hG.map _).sum_eq]
  change (0 < (List.map (fun e : Obj ι σ Payload => floorSize e.payload.bounds) _).sum → _) ∧
    ((List.map (fun e : Obj ι σ Payload => floorSize e.payload.bounds) _).sum ≤ 0 → _)
  constructor
  · intro h
    rw [if_pos h]
    exact div_mul_cancel₀ _ h.ne'
  · intro h
    rw [if_neg (not_lt.2 h)]

/-- **C29** scenes with the same floors, in any order and with anything else in them, have the same room scale. -/
theorem C29_only_floors (sub sub' gt gt' : Elements ι σ Payload)
    (hF : (sub.values.filter (fun e => e.category = "floor")).Perm
      (sub'.values.filter (fun e => e.category = "floor")))
    (hG : (gt.values.filter (fun e => e.category = "floor" ∧ e.evaluated = true)).Perm
      (gt'.values.filter (fun e => e.category = "floor" ∧ e.evaluated = true))) :
    roomScale sub gt = roomScale sub' gt' := by
  rw [roomScale_eq, roomScale_eq, (hF.map _).sum_eq, (hG.map _).sum_eq]

/-! ### Non-vacuity -/

namespace PerceptualExample

/-- Element `i` at height `i`, a unit cube. -/
noncomputable def el (i : ℕ) (cat : String) (e : Bool) : Obj ℕ ℕ Payload :=
  ⟨i, cat, 1, e, ⟨⟨0, ⟨1, 1, 1⟩⟩, ⟨Mat3.one, ⟨0, i, 0⟩⟩, ⟨.none, .none, .none⟩⟩⟩

/-- A floor and a lamp; `e`: is the second element evaluated; `c` its category. -/
noncomputable def scene (c : String) (e : Bool) : Elements ℕ ℕ Payload := [(0, el 0 "floor" true), (1, el 1 c e)]

/-- Similar iff same id. -/
def simId (a b : Obj ℕ ℕ Payload) : ℕ := if a.id = b.id then 1 else 0

/-- One threshold. -/
def st : AssocSettings ℕ := ⟨[1], []⟩

/-- The association. -/
def assoc (e : Bool) : Dict ℕ (Corr ℕ ℕ ℕ) := [(0, ⟨0, 0, 1, 1, true⟩), (1, ⟨1, 1, 1, 1, e⟩)]

theorem build (c : String) (e : Bool) : ∃ ev, Evaluator.build simId (scene c e) (scene c e) st = .ok ev ∧
    ev.agnostic = [(1, assoc e)] := ⟨_, rfl, rfl⟩

theorem wk (c : String) (e : Bool) : WellKeyed (scene c e) := by
  unfold WellKeyed Dict.NodupKeys
  constructor
  · simp [scene, Dict.keys]
  · intro p hp
    simp [scene] at hp
    rcases hp with rfl | rfl <;> rfl

theorem vol (c : String) (e : Bool) : Volumes (scene c e) := by
  intro x hx
  simp [scene, Dict.values] at hx
  rcases hx with rfl | rfl <;> simp [el, Box3d.volume]

theorem matchedAt {c : String} {e : Bool} {ev : Evaluator ℕ ℕ ℕ Payload} (h : ev.agnostic = [(1, assoc e)])
    (d g : Obj ℕ ℕ Payload) : MatchedAt (scene c e) (scene c e) ev 1 d g ↔ d ∈ (scene c e).values ∧ d = g := by
  unfold MatchedAt Matched
  rw [h]
  constructor
  · rintro ⟨a, ha, hd, hg, k, hk, hkg⟩
    refine ⟨hd, ?_⟩
    simp [Dict.get?] at ha
    subst ha
    simp [scene, Dict.values] at hd hg
    rcases hd with rfl | rfl <;> rcases hg with rfl | rfl
    · rfl
    · simp [assoc, Dict.get?, el] at hk; subst hk; simp [el] at hkg
    · simp [assoc, Dict.get?, el] at hk; subst hk; simp [el] at hkg
    · rfl
  · rintro ⟨hd, rfl⟩
    refine ⟨assoc e, by simp [Dict.get?], hd, hd, ?_⟩
    simp [scene, Dict.values] at hd
    rcases hd with rfl | rfl <;> simp [assoc, Dict.get?, el]

theorem hasFloor (c : String) (e : Bool) : HasFloor (scene c e) := by
  refine ⟨?_, el 0 "floor" true, by simp [scene, Dict.values], rfl, rfl, by simp [el], by simp [el]⟩
  intro g hg _
  simp [scene, Dict.values] at hg
  rcases hg with rfl | rfl <;> simp [el]

end PerceptualExample

open PerceptualExample in
/-- The hypotheses of C22 and C23 are met, by a copy of a scene with a floor and a lamp. -/
example : ∃ ev, Evaluator.build simId (scene "lamp" true) (scene "lamp" true) st = .ok ev ∧
    perceptualScore defaultPerceptual ev = .ok (some 1) := by
  obtain ⟨ev, h, ha⟩ := build "lamp" true
  refine ⟨ev, h, C23_perfect_submission_default h (wk _ _) (wk _ _) (by simp [st]) ⟨?_, ?_, ?_, ?_⟩ (hasFloor _ _)⟩
  · intro t ht d hd
    simp [st] at ht; subst ht
    exact ⟨d, (matchedAt ha d d).2 ⟨hd, rfl⟩⟩
  · intro t ht d hd _
    simp [st] at ht; subst ht
    exact ⟨d, (matchedAt ha d d).2 ⟨hd, rfl⟩⟩
  · intro t ht d g hm
    simp [st] at ht; subst ht
    obtain ⟨-, rfl⟩ := (matchedAt ha d g).1 hm
    exact ⟨rfl, rfl, rfl⟩
  · intro g hg hc
    simp [scene, Dict.values] at hg
    rcases hg with rfl | rfl <;> rfl

open PerceptualExample in
/-- **C23** needs its condition on floors: an exact copy of a scene with an unevaluated floor scores less than 1,
because the room scale counts unevaluated floors in the submission only. -/
theorem C23_unevaluated_floor : ∃ (A : Elements ℕ ℕ Payload) (E : Evaluator ℕ ℕ ℕ Payload) (x : ℝ),
    Evaluator.build simId A A st = .ok E ∧ WellKeyed A ∧ HasFloor A ∧
    (∀ d ∈ A.values, MatchedAt A A E 1 d d) ∧
    perceptualScore defaultPerceptual E = .ok (some x) ∧ x < 1 := by
  obtain ⟨ev, h, ha⟩ := build "floor" false
  obtain ⟨x, h1, h2⟩ := C23_room_scale_matters sensible_default h (wk _ _) (wk _ _) (vol _ _) (vol _ _)
    (by simp [st]) (by
      rw [roomScale_eq]
      norm_num [scene, Dict.values, el, floorSize, defaultPerceptual])
  exact ⟨_, ev, x, h, wk _ _, hasFloor _ _, fun d hd => (matchedAt ha d d).2 ⟨hd, rfl⟩, h1, h2⟩

open PerceptualExample in
/-- The hypotheses of C24 are met. -/
example : ∃ (ev : Evaluator ℕ ℕ ℕ Payload) (m : Dict ℕ (Corr ℕ ℕ ℕ)),
    WellFormed ev m [1] [0] ∧ m ≠ [] ∧ ev.groundTruth.get? 0 = some (el 0 "floor" true) := by
  obtain ⟨ev, h, ha⟩ := build "lamp" true
  obtain ⟨_, _, hsub, hgt, _, hset⟩ := build_ok h
  refine ⟨ev, [(0, ⟨0, 0, 1, 1, true⟩)], ⟨?_, ?_, ?_⟩, by simp, by rw [hgt]; simp [scene, Dict.get?]⟩
  · intro c hc
    simp [Dict.values] at hc; subst hc
    rw [hsub, hgt]
    simp [scene, Dict.get?]
  · intro i hi; rw [hgt]; simp at hi; subst hi; simp [scene, Dict.keys]
  · intro i hi; rw [hsub]; simp at hi; subst hi; simp [scene, Dict.keys]

open PerceptualExample in
/-- A room scale that is neither 0 nor 1 (C29). -/
example : roomScale (scene "floor" false) (scene "lamp" true) = 2 := by
  rw [roomScale_eq]
  have : ("lamp" = "floor") = False := by decide
  norm_num [scene, Dict.values, el, floorSize, List.filter_cons, this]

end Sumo
