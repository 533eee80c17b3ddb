import Verif.Lemmas.FloatPerceptual

/-!
# Perceptual score in machine precision (C143, C144)
-/

set_option linter.unusedSectionVars false

namespace Sumo
open AssocSpec

variable {ι σ τ : Type} [DecidableEq ι] [LinearOrder σ] [LinearOrder τ]
  {sim : Obj ι σ Fl.PerceptualPayload → Obj ι σ Fl.PerceptualPayload → τ} {sub gt : Elements ι σ Fl.PerceptualPayload}
  {s : AssocSettings τ} {ev : Evaluator ι σ τ Fl.PerceptualPayload}

namespace Fl

/-- The default settings are sensible. -/
theorem sensible_default : Sensible defaultPerceptual := by
  have h : ∀ n : ℕ, n ≤ 100 → IsDouble (n : ℚ) := fun n hn => isDouble_nat (by omega)
  have h100 := h 100 (by norm_num)
  have h5 := h 5 (by norm_num)
  push_cast at h100 h5
  constructor
  · exact ⟨by norm_num [defaultPerceptual], h100, by decide +kernel⟩
  · exact ⟨by norm_num [defaultPerceptual], h5, by decide +kernel⟩
  · exact ⟨by norm_num [defaultPerceptual], h5, by decide +kernel⟩
  · exact ⟨by norm_num [defaultPerceptual], h5, by decide +kernel⟩
  · exact ⟨by norm_num [defaultPerceptual], h5, by decide +kernel⟩
  · norm_num [defaultPerceptual]
  · norm_num [defaultPerceptual]

/-- The ids that are missed at a threshold. -/
def missedAt (ev : Evaluator ι σ τ PerceptualPayload) (t : τ) : List ι :=
  ev.groundTruth.keys.filter (fun i => !((assocAt ev.agnostic t).values.map Corr.gtId).contains i)

/-- The ids that are extra at a threshold. -/
def extraAt (ev : Evaluator ι σ τ PerceptualPayload) (t : τ) : List ι :=
  ev.submission.keys.filter (fun i => !((assocAt ev.agnostic t).values.map Corr.detId).contains i)

theorem perceptualScore_of {L : PerceptualLib} {sum : List ℚ → ℚ} {iter : List ι → List ι} {p : PerceptualParams}
    (h : Evaluator.build sim sub gt s = .ok ev) {f : τ → ℚ}
    (hf : ∀ t ∈ s.thresholds, perceptualScore1 L p ev (assocAt ev.agnostic t) (iter (missedAt ev t)) (iter (extraAt ev t)) true = .ok (f t)) :
    perceptualScore L sum iter p ev = .ok (npMean sum (ev.settings.thresholds.map f)) := by
  unfold perceptualScore
  rw [foldlM_append_ok (g := fun t => [f t]) _ (by
    intro t ht acc
    have ht' := (mem_settings h).1 ht
    rw [agnostic_get h ht']
    have := hf t ht'
    unfold missedAt extraAt at this
    simp only [bind, Except.bind, this, pure, Except.pure])]
  have e : ∀ l : List τ, l.flatMap (fun t => [f t]) = l.map f := by
    intro l
    induction l with
    | nil => rfl
    | cons t l ih => rw [List.flatMap_cons, ih]; rfl
  simp only [bind, Except.bind, pure, Except.pure, List.nil_append, e]

theorem missedAt_keys (t : τ) : ∀ i ∈ missedAt ev t, i ∈ ev.groundTruth.keys := fun _ hi => (List.mem_filter.1 hi).1

theorem extraAt_keys (t : τ) : ∀ i ∈ extraAt ev t, i ∈ ev.submission.keys := fun _ hi => (List.mem_filter.1 hi).1

theorem thresholds_length (h : Evaluator.build sim sub gt s = .ok ev) : ev.settings.thresholds.length = s.thresholds.length := by
  rw [(build_ok h).2.2.2.2.2]
  exact List.length_insertionSort _ _

/-- All boxes have their corners in order. -/
def Boxes (els : Elements ι σ PerceptualPayload) : Prop := ∀ e ∈ els.values, Ordered e.payload

theorem missedPens_nonneg {p : PerceptualParams} (hp : Sensible p) {gt : Elements ι σ PerceptualPayload} (hb : Boxes gt)
    (ids : List ι) : ∀ x ∈ missedPens p gt ids, 0 ≤ x := by
  intro x hx
  obtain ⟨g, hg, rfl⟩ := List.mem_map.1 hx
  obtain ⟨i, -, hi⟩ := List.mem_filterMap.1 (List.mem_filter.1 hg).1
  exact double_nonneg (mul_nonneg hp.missed (volume_nonneg (hb g (Dict.mem_values.2 ⟨i, Dict.mem_of_get? hi⟩))))

theorem extraPens_nonneg {p : PerceptualParams} (hp : Sensible p) {sub : Elements ι σ PerceptualPayload} (hb : Boxes sub)
    (ids : List ι) : ∀ x ∈ extraPens p sub ids, 0 ≤ x := by
  intro x hx
  obtain ⟨g, hg, rfl⟩ := List.mem_map.1 hx
  obtain ⟨i, -, hi⟩ := List.mem_filterMap.1 hg
  exact double_nonneg (mul_nonneg hp.extra (volume_nonneg (hb g (Dict.mem_values.2 ⟨i, Dict.mem_of_get? hi⟩))))

theorem pens_nonneg {p : PerceptualParams} (hp : Sensible p) (hs : Boxes sub) (hg : Boxes gt) (missed extra : List ι) :
    ∀ x ∈ missedPens p gt missed ++ extraPens p sub extra, 0 ≤ x := by
  intro x hx
  rcases List.mem_append.1 hx with h | h
  · exact missedPens_nonneg hp hg _ x h
  · exact extraPens_nonneg hp hs _ x h

end Fl

open Fl

/-- **C143** in machine precision the perceptual score is a number in `[0, 1]`, whatever the order of the sets and of the sum. -/
theorem C143_range {L : PerceptualLib} (hL : L.Lawful) {sum : List ℚ → ℚ} (hsum : ∀ l, FlSum l (sum l)) {iter : List ι → List ι}
    (hi : ∀ l, (iter l).Perm l) {p : PerceptualParams} (hp : Fl.Sensible p) (h : Evaluator.build sim sub gt s = .ok ev)
    (hs : WellKeyed sub) (hg : WellKeyed gt) (bs : Boxes sub) (bg : Boxes gt) (hne : s.thresholds ≠ [])
    (hlen : s.thresholds.length ≤ 2 ^ 53) :
    ∃ x, Fl.perceptualScore L sum iter p ev = .ok (some x) ∧ 0 ≤ x ∧ x ≤ 1 := by
  obtain ⟨_, _, hsub, hgt, _, -⟩ := build_ok h
  have key : ∀ t, ∃ y : ℚ, t ∈ s.thresholds → (Fl.perceptualScore1 L p ev (assocAt ev.agnostic t) (iter (Fl.missedAt ev t))
      (iter (Fl.extraAt ev t)) true = .ok y ∧ 0 ≤ y ∧ y ≤ 1) := by
    intro t
    by_cases ht : t ∈ s.thresholds
    · obtain ⟨st, h1, h2, h3, h4, h5⟩ := matched_state hL hp (ev := ev) (m := assocAt ev.agnostic t)
        (by rw [hsub, hgt]; exact linked_values h hs hg ht)
      refine ⟨_, fun _ => ⟨h5 _ _ (fun i hi' => missedAt_keys t i ((hi _).mem_iff.1 hi'))
        (fun i hi' => extraAt_keys t i ((hi _).mem_iff.1 hi')) true, ?_⟩⟩
      rw [if_pos rfl]
      refine normalised_range (subtractAll_le ?_ h1 h4) h2
      rw [hsub, hgt]
      exact pens_nonneg hp bs bg _ _
    · exact ⟨0, fun h => absurd h ht⟩
  choose f hf using key
  rw [perceptualScore_of h (f := f) (fun t ht => (hf t ht).1)]
  have hl := thresholds_length h
  have hn : s.thresholds.length ≠ 0 := by simpa using hne
  refine ⟨_, by rw [Fl.npMean, List.length_map, hl, if_neg hn], ?_⟩
  obtain ⟨a, b⟩ := flSum_range (hsum (ev.settings.thresholds.map f)) (by
    intro x hx
    obtain ⟨t, ht, rfl⟩ := List.mem_map.1 hx
    exact (hf t ((mem_settings h).1 ht)).2) (by rw [List.length_map, hl]; exact hlen)
  rw [List.length_map, hl] at b
  rw [double_nat hlen]
  have hpos : (0 : ℚ) < s.thresholds.length := by exact_mod_cast Nat.pos_of_ne_zero hn
  exact ⟨double_nonneg (div_nonneg a hpos.le), double_le_one ((div_le_one hpos).2 b)⟩

/-- A perfect submission: everything matched, evaluated elements found, matched pairs with the same box and place, the floors (all
evaluated) the same in the same order. -/
structure PerfectD (sub gt : Elements ι σ PerceptualPayload) (s : AssocSettings τ) (ev : Evaluator ι σ τ PerceptualPayload) : Prop where
  matched : ∀ t ∈ s.thresholds, ∀ d ∈ sub.values, ∃ g, MatchedAt sub gt ev t d g
  found : ∀ t ∈ s.thresholds, ∀ g ∈ gt.values, g.evaluated = true → ∃ d, MatchedAt sub gt ev t d g
  same : ∀ t ∈ s.thresholds, ∀ d g, MatchedAt sub gt ev t d g → g.evaluated = true → d.payload = g.payload
  floors : (sub.values.filter (fun e => e.category = "floor")).map Obj.payload =
    (gt.values.filter (fun e => e.category = "floor")).map Obj.payload
  evaluated : ∀ g ∈ gt.values, g.category = "floor" → g.evaluated = true

/-- Some floor has positive area, and none has negative area. -/
def HasFloorD (gt : Elements ι σ PerceptualPayload) : Prop :=
  (∀ g ∈ gt.values, g.category = "floor" → g.payload.bounds.minCorner.x ≤ g.payload.bounds.maxCorner.x ∧
    g.payload.bounds.minCorner.z ≤ g.payload.bounds.maxCorner.z) ∧
  ∃ g ∈ gt.values, g.category = "floor" ∧ g.payload.bounds.minCorner.x < g.payload.bounds.maxCorner.x ∧
    g.payload.bounds.minCorner.z < g.payload.bounds.maxCorner.z

theorem foldl_filterMap_payload {α : Type} (l : List α) (P : α → Prop) [DecidablePred P] (f : α → ℚ) (a : ℚ) :
    l.foldl (fun a e => if P e then double (a + f e) else a) a =
      ((l.filter (fun e => P e)).map f).foldl (fun a x => double (a + x)) a := by
  induction l generalizing a with
  | nil => rfl
  | cons e l ih =>
    rw [List.foldl_cons, ih, List.filter_cons]
    by_cases h : P e <;> simp [h]

theorem foldl_double_pos (l : List ℚ) (hl : ∀ x ∈ l, 0 ≤ x) (a : ℚ) (ha : 0 ≤ a) (h : 0 < a ∨ ∃ x ∈ l, 0 < x) :
    0 < l.foldl (fun a x => double (a + x)) a := by
  induction l generalizing a with
  | nil => simpa using h
  | cons x l ih =>
    have hx := hl x (by simp)
    refine ih (fun y hy => hl y (by simp [hy])) _ (double_nonneg (by linarith)) ?_
    rcases h with h | ⟨y, hy, hy0⟩
    · exact .inl (double_pos (by linarith))
    · rcases List.mem_cons.1 hy with rfl | hy
      · exact .inl (double_pos (by linarith))
      · exact .inr ⟨y, hy, hy0⟩

theorem roomScaleD_perfect (hF : (sub.values.filter (fun e => e.category = "floor")).map Obj.payload =
    (gt.values.filter (fun e => e.category = "floor")).map Obj.payload)
    (hE : ∀ g ∈ gt.values, g.category = "floor" → g.evaluated = true) (hf : HasFloorD gt) : Fl.roomScale sub gt = 1 := by
  unfold Fl.roomScale
  have e1 := foldl_filterMap_payload gt.values (fun e => e.category = "floor" ∧ e.evaluated = true) (fun e => Fl.floorSize e.payload) 0
  have e2 := foldl_filterMap_payload sub.values (fun e => e.category = "floor") (fun e => Fl.floorSize e.payload) 0
  have e3 : gt.values.filter (fun e => decide (e.category = "floor" ∧ e.evaluated = true)) =
      gt.values.filter (fun e => decide (e.category = "floor")) := by
    apply List.filter_congr
    intro g hg
    by_cases hc : g.category = "floor"
    · simp [hc, hE g hg hc]
    · simp [hc]
  have e4 : ∀ l : List (Obj ι σ PerceptualPayload), l.map (fun e => Fl.floorSize e.payload) = (l.map Obj.payload).map Fl.floorSize := by
    intro l; rw [List.map_map]; rfl
  rw [e3, e4] at e1
  rw [e4, hF] at e2
  simp only [e1, e2]
  have hpos := foldl_double_pos (((gt.values.filter (fun e => decide (e.category = "floor"))).map Obj.payload).map Fl.floorSize) (by
    intro x hx
    rw [← e4] at hx
    obtain ⟨g, hg, rfl⟩ := List.mem_map.1 hx
    obtain ⟨hg, hc⟩ := List.mem_filter.1 hg
    exact floorSize_nonneg (hf.1 g hg (by simpa using hc))) 0 le_rfl (by
    obtain ⟨g, hg, hc, hlt⟩ := hf.2
    refine .inr ⟨_, ?_, floorSize_pos hlt⟩
    rw [← e4]
    exact List.mem_map.2 ⟨g, List.mem_filter.2 ⟨hg, by simpa using hc⟩, rfl⟩)
  rw [if_pos hpos, div_self hpos.ne', double_one]

theorem flSum_ones {l : List ℚ} {x : ℚ} (h : FlSum l x) (h1 : ∀ y ∈ l, y = 1) (hl : l.length ≤ 2 ^ 53) : x = l.length := by
  induction h with
  | nil => simp
  | one y => simpa using h1 y (by simp)
  | @add l k a b _ _ _ _ ih1 ih2 =>
    rw [List.length_append] at hl
    rw [ih1 (fun y hy => h1 y (by simp [hy])) (by omega), ih2 (fun y hy => h1 y (by simp [hy])) (by omega), ← Nat.cast_add,
      double_nat hl, List.length_append]
  | @perm l k a _ hp ih =>
    rw [← hp.length_eq] at hl ⊢
    exact ih (fun y hy => h1 y (hp.mem_iff.1 hy)) hl

/-- **C143** in machine precision a perfect submission scores exactly 1. -/
theorem C143_perfect {L : PerceptualLib} (hL : L.Lawful) {sum : List ℚ → ℚ} (hsum : ∀ l, FlSum l (sum l)) {iter : List ι → List ι}
    (hi : ∀ l, (iter l).Perm l) {p : PerceptualParams} (hp : Fl.Sensible p)
    (m0 : p.roomScale.mean = 1) (m1 : p.trueObjScale.mean = 1) (m2 : p.relativeObjScale.mean = 1) (m3 : p.translation.mean = 0)
    (m4 : p.elevation.mean = 0) (h : Evaluator.build sim sub gt s = .ok ev) (hs : WellKeyed sub) (hg : WellKeyed gt)
    (hne : s.thresholds ≠ []) (hlen : s.thresholds.length ≤ 2 ^ 53) (hP : PerfectD sub gt s ev) (hf : HasFloorD gt) :
    Fl.perceptualScore L sum iter p ev = .ok (some 1) := by
  obtain ⟨_, _, hsub, hgt, _, -⟩ := build_ok h
  have hrs := roomScaleD_perfect hP.floors hP.evaluated hf
  have key : ∀ t ∈ s.thresholds, Fl.perceptualScore1 L p ev (assocAt ev.agnostic t) (iter (Fl.missedAt ev t))
      (iter (Fl.extraAt ev t)) true = .ok ((fun _ => 1) t) := by
    intro t ht
    have hlk := linked_values h hs hg ht
    have hx : gaussian L p.roomScale (Fl.roomScale ev.submission ev.groundTruth) = .ok p.roomScale.weight := by
      rw [hsub, hgt, hrs, ← m0]
      exact gaussian_mean hL hp.room.2.1 hp.room.2.2
    obtain ⟨st, h1, h2, h3⟩ := foldlM_invariant (fun st : ℚ × ℚ => st.1 = st.2 ∧ 0 < st.2) (assocAt ev.agnostic t).values
      (f := Fl.perceptualStep L p ev.submission ev.groundTruth (Fl.roomScale ev.submission ev.groundTruth))
      (fun c hc st hst => by
        obtain ⟨d, g, hd, hg'⟩ := hlk c hc
        rw [hsub, hgt, hrs, step_perfect_eq hL hp m1 m2 m3 m4 hd hg' (by
          intro hev
          have hm : MatchedAt sub gt ev t d g := by
            rw [matchedAt_iff h ht, ← mem_pairsOf h hs hg ht]
            unfold pairsOf
            rw [List.mem_filterMap]
            exact ⟨c, hc, by simp [hd, hg']⟩
          rw [hP.same t ht d g hm hev]
          exact ⟨rfl, rfl⟩) st]
        refine ⟨_, rfl, ?_⟩
        split_ifs
        · exact ⟨by simp only [hst.1], addPerfect_pos hp g hst.2⟩
        · exact hst) (p.roomScale.weight, p.roomScale.weight) ⟨rfl, hp.room.1⟩
    rw [score1_of_state hx h1 h3.ne' (fun i hi' => missedAt_keys t i ((hi _).mem_iff.1 hi'))
        (fun i hi' => extraAt_keys t i ((hi _).mem_iff.1 hi')) true, if_pos rfl]
    have he : extraPens p ev.submission (iter (Fl.extraAt ev t)) = [] := by
      have : Fl.extraAt ev t = [] := by
        unfold Fl.extraAt
        rw [List.filter_eq_nil_iff, hsub]
        intro i hi
        obtain ⟨d, hd⟩ := Dict.mem_keys.1 hi
        have hid := hs.2 _ hd
        simp only at hid
        obtain ⟨g, hm⟩ := hP.matched t ht d (Dict.mem_values.2 ⟨i, hd⟩)
        obtain ⟨-, -, c, hc, -⟩ := (matchedAt_iff h ht _ _).1 hm
        obtain ⟨a, ha⟩ := (C05_threshold_independent h h t).1.1 ht
        have e : assocAt ev.agnostic t = a := by unfold assocAt; rw [ha]; rfl
        have hc' := hc
        rw [e] at hc'
        obtain ⟨-, -, -, -, -, -, h4, -⟩ := C02_matches_are_real h hs hg ha hc'
        simp only [Bool.not_eq_true', List.contains_eq_mem, decide_eq_false_iff_not, not_not]
        exact List.mem_map.2 ⟨c, Dict.mem_values.2 ⟨_, Dict.mem_of_get? hc⟩, by rw [h4, hid]⟩
      rw [this, List.perm_nil.1 (hi [])]
      rfl
    have hmi : missedPens p ev.groundTruth (iter (Fl.missedAt ev t)) = [] := by
      unfold missedPens
      rw [List.map_eq_nil_iff, List.filter_eq_nil_iff]
      intro g hgm hev
      obtain ⟨i, hi', hgi⟩ := List.mem_filterMap.1 hgm
      replace hi' := (hi _).mem_iff.1 hi'
      rw [hgt] at hgi
      have hmem := Dict.mem_of_get? hgi
      have hid := hg.2 _ hmem
      simp only at hid
      obtain ⟨d, hm⟩ := hP.found t ht g (Dict.mem_values.2 ⟨i, hmem⟩) hev
      obtain ⟨-, -, c, hc, hcg⟩ := (matchedAt_iff h ht _ _).1 hm
      have := (List.mem_filter.1 hi').2
      simp only [Bool.not_eq_true', List.contains_eq_mem, decide_eq_false_iff_not] at this
      exact this (List.mem_map.2 ⟨c, Dict.mem_values.2 ⟨_, Dict.mem_of_get? hc⟩, by rw [hcg, hid]⟩)
    rw [he, hmi]
    show Except.ok (normalised st.1 st.2) = _
    rw [h2, normalised, if_neg (not_le.2 h3), div_self h3.ne', double_one]
  rw [perceptualScore_of h key]
  have hl := thresholds_length h
  have hn : s.thresholds.length ≠ 0 := by simpa using hne
  rw [Fl.npMean, List.length_map, hl, if_neg hn, flSum_ones (hsum _) (by simp) (by rw [List.length_map, hl]; exact hlen),
    List.length_map, hl, double_nat hlen, div_self (by exact_mod_cast hn), double_one]

/-- **C143** in machine precision an additional missed element never increases the score at a threshold, normalised or not. -/
theorem C143_missed {L : PerceptualLib} (hL : L.Lawful) {p : PerceptualParams} (hp : Fl.Sensible p) {m : Dict ι (Corr ι σ τ)}
    {l k extra : List ι} {i : ι}
    (hm : ∀ c ∈ m.values, (∃ d, ev.submission.get? c.detId = some d) ∧ ∃ g, ev.groundTruth.get? c.gtId = some g)
    (hk : ∀ j ∈ l ++ i :: k, j ∈ ev.groundTruth.keys) (he : ∀ j ∈ extra, j ∈ ev.submission.keys) (hb : Boxes ev.groundTruth)
    (n : Bool) :
    ∃ x y, Fl.perceptualScore1 L p ev m (l ++ k) extra n = .ok x ∧ Fl.perceptualScore1 L p ev m (l ++ i :: k) extra n = .ok y ∧ y ≤ x := by
  obtain ⟨st, h1, h2, h3, h4, h5⟩ := matched_state hL hp (ev := ev) (m := m) (fun c hc => by
    obtain ⟨⟨d, hd⟩, g, hg⟩ := hm c hc
    exact ⟨d, g, hd, hg⟩)
  refine ⟨_, _, h5 (l ++ k) extra (fun j hj => hk j (by simp only [List.mem_append, List.mem_cons] at hj ⊢; tauto)) he n, h5 _ _ hk he n, ?_⟩
  have key : subtractAll st.1 (missedPens p ev.groundTruth (l ++ i :: k) ++ extraPens p ev.submission extra) ≤
      subtractAll st.1 (missedPens p ev.groundTruth (l ++ k) ++ extraPens p ev.submission extra) := by
    rw [subtractAll_append, subtractAll_append]
    apply subtractAll_mono
    obtain ⟨g, hg⟩ : ∃ e, ev.groundTruth.get? i = some e :=
      (Dict.has_iff _ _).1 ((Dict.has_iff_mem_keys _ _).2 (hk i (by simp)))
    have hn := missedPens_nonneg hp hb [i]
    unfold missedPens at hn ⊢
    rw [List.filterMap_append, List.filterMap_append, List.filterMap_cons_some hg, List.filter_append, List.filter_append,
      List.filter_cons, List.map_append, List.map_append]
    rw [List.filterMap_cons_some hg, List.filter_cons] at hn
    split_ifs at hn ⊢
    · rw [List.map_cons]
      exact subtractAll_insert (hn _ (by simp)) _ _ h3
    · exact le_rfl
  cases n
  · exact key
  · exact normalised_mono key h2

/-- **C143** in machine precision an additional hallucinated element never increases the score at a threshold, normalised or not. -/
theorem C143_extra {L : PerceptualLib} (hL : L.Lawful) {p : PerceptualParams} (hp : Fl.Sensible p) {m : Dict ι (Corr ι σ τ)}
    {l k missed : List ι} {i : ι}
    (hm : ∀ c ∈ m.values, (∃ d, ev.submission.get? c.detId = some d) ∧ ∃ g, ev.groundTruth.get? c.gtId = some g)
    (hk : ∀ j ∈ l ++ i :: k, j ∈ ev.submission.keys) (he : ∀ j ∈ missed, j ∈ ev.groundTruth.keys) (hb : Boxes ev.submission)
    (n : Bool) :
    ∃ x y, Fl.perceptualScore1 L p ev m missed (l ++ k) n = .ok x ∧ Fl.perceptualScore1 L p ev m missed (l ++ i :: k) n = .ok y ∧ y ≤ x := by
  obtain ⟨st, h1, h2, h3, h4, h5⟩ := matched_state hL hp (ev := ev) (m := m) (fun c hc => by
    obtain ⟨⟨d, hd⟩, g, hg⟩ := hm c hc
    exact ⟨d, g, hd, hg⟩)
  refine ⟨_, _, h5 missed (l ++ k) he (fun j hj => hk j (by simp only [List.mem_append, List.mem_cons] at hj ⊢; tauto)) n, h5 _ _ he hk n, ?_⟩
  have key : subtractAll st.1 (missedPens p ev.groundTruth missed ++ extraPens p ev.submission (l ++ i :: k)) ≤
      subtractAll st.1 (missedPens p ev.groundTruth missed ++ extraPens p ev.submission (l ++ k)) := by
    obtain ⟨g, hg⟩ : ∃ e, ev.submission.get? i = some e :=
      (Dict.has_iff _ _).1 ((Dict.has_iff_mem_keys _ _).2 (hk i (by simp)))
    have hn := extraPens_nonneg hp hb [i]
    unfold extraPens at hn ⊢
    rw [List.filterMap_append, List.filterMap_append, List.filterMap_cons_some hg, List.map_append, List.map_append, List.map_cons,
      ← List.append_assoc, ← List.append_assoc]
    rw [List.filterMap_cons_some hg] at hn
    exact subtractAll_insert (hn _ (by simp)) _ _ h3
  cases n
  · exact key
  · exact normalised_mono key h2

/-! ### The order of sets -/

/-- The positive part of two results of subtracting the same numbers. -/
theorem normalised_perm {l k : List ℚ} (hlk : l.Perm k) (hl : ∀ x ∈ l, 0 ≤ x) {a m : ℚ} (hm0 : 0 < m) (h : a ≤ m) (hm : IsDouble m) :
    |normalised (subtractAll a l) m - normalised (subtractAll a k) m| ≤ (l.length + 1) / 2 ^ 52 := by
  obtain ⟨p1, p2⟩ := subtractAll_err hl hm0 h hm
  obtain ⟨q1, q2⟩ := subtractAll_err (fun x hx => hl x (hlk.mem_iff.2 hx)) hm0 h hm
  have u := subtractAll_le hl h hm
  have v := subtractAll_le (fun x hx => hl x (hlk.mem_iff.2 hx)) h hm
  rw [← hlk.sum_eq, ← hlk.length_eq] at q1 q2
  set F := subtractAll a l
  set G := subtractAll a k
  set n : ℚ := ((l.length : ℕ) : ℚ) with hn
  have hn0 : 0 ≤ n := Nat.cast_nonneg _
  have near : ∀ {X : ℚ}, X ≤ m → 0 < X → |double (X / m) - X / m| ≤ 1 / 2 ^ 53 := by
    intro X hX h0
    refine (double_err _).trans ?_
    rw [abs_of_pos (div_pos h0 hm0)]
    exact div_le_div_of_nonneg_right ((div_le_one hm0).2 hX) (by norm_num)
  have e52 : (n + 1) / 2 ^ 52 = 2 * n / 2 ^ 53 + 2 / 2 ^ 53 := by ring
  have quot : ∀ {X : ℚ}, X ≤ 2 * n * (m / 2 ^ 53) → X / m ≤ 2 * n / 2 ^ 53 := by
    intro X hX
    rw [div_le_iff₀ hm0]
    calc X ≤ _ := hX
      _ = _ := by ring
  unfold normalised
  rw [e52]
  split_ifs with h1 h2 h2
  · rw [sub_self, abs_zero]; positivity
  · have h2' := not_le.1 h2
    have a1 := p2 h1
    have a2 := (abs_le.1 (q1 h2')).2
    have a3 := abs_le.1 (near v h2')
    have a4 : G / m ≤ 2 * n / 2 ^ 53 := quot (by linarith)
    rw [zero_sub, abs_neg, abs_of_nonneg (double_nonneg (div_pos h2' hm0).le)]
    linarith [a3.2, show (1 : ℚ) / 2 ^ 53 ≤ 2 / 2 ^ 53 by norm_num]
  · have h1' := not_le.1 h1
    have a1 := q2 h2
    have a2 := (abs_le.1 (p1 h1')).2
    have a3 := abs_le.1 (near u h1')
    have a4 : F / m ≤ 2 * n / 2 ^ 53 := quot (by linarith)
    rw [sub_zero, abs_of_nonneg (double_nonneg (div_pos h1' hm0).le)]
    linarith [a3.2, show (1 : ℚ) / 2 ^ 53 ≤ 2 / 2 ^ 53 by norm_num]
  · have a1 := abs_le.1 (p1 (not_le.1 h1))
    have a2 := abs_le.1 (q1 (not_le.1 h2))
    have a3 := abs_le.1 (near u (not_le.1 h1))
    have a4 := abs_le.1 (near v (not_le.1 h2))
    have b1 : (F - G) / m ≤ 2 * n / 2 ^ 53 := quot (by linarith [a1.2, a2.1])
    have b2 : (G - F) / m ≤ 2 * n / 2 ^ 53 := quot (by linarith [a1.1, a2.2])
    rw [sub_div] at b1 b2
    have e : (2 : ℚ) / 2 ^ 53 = 1 / 2 ^ 53 + 1 / 2 ^ 53 := by norm_num
    rw [e, abs_le]
    constructor <;> linarith [a3.1, a3.2, a4.1, a4.2]

theorem pens_perm {p : PerceptualParams} {missed missed' extra extra' : List ι} (h1 : missed.Perm missed') (h2 : extra.Perm extra') :
    (missedPens p gt missed ++ extraPens p sub extra).Perm (missedPens p gt missed' ++ extraPens p sub extra') := by
  refine List.Perm.append ?_ ?_
  · exact (((h1.filterMap _).filter _).map _)
  · exact ((h2.filterMap _).map _)

/-- **C144** (partial) two runs on the same data, in which Python iterates over the sets in different orders, give perceptual scores
that differ by at most `(elements + 1) / 2^52 + (thresholds + 1) / 2^50`.  Missing: equal scores, which is false, see `C144_false`. -/
theorem C144_reproducible_partial {L : PerceptualLib} (hL : L.Lawful) {sum : List ℚ → ℚ} (hsum : ∀ l, FlSum l (sum l))
    {iter iter' : List ι → List ι} (hi : ∀ l, (iter l).Perm l) (hi' : ∀ l, (iter' l).Perm l) {p : PerceptualParams}
    (hp : Fl.Sensible p) (h : Evaluator.build sim sub gt s = .ok ev) (hs : WellKeyed sub) (hg : WellKeyed gt) (bs : Boxes sub)
    (bg : Boxes gt) (hne : s.thresholds ≠ []) (hlen : s.thresholds.length ≤ 2 ^ 51) (hsize : gt.length + sub.length < 2 ^ 52) :
    ∃ x y, Fl.perceptualScore L sum iter p ev = .ok (some x) ∧ Fl.perceptualScore L sum iter' p ev = .ok (some y) ∧
      |x - y| ≤ (gt.length + sub.length + 1) / 2 ^ 52 + (s.thresholds.length + 1) / 2 ^ 50 := by
  obtain ⟨_, _, hsub, hgt, _, -⟩ := build_ok h
  have key : ∀ t, ∃ y z : ℚ, t ∈ s.thresholds → (Fl.perceptualScore1 L p ev (assocAt ev.agnostic t) (iter (Fl.missedAt ev t))
      (iter (Fl.extraAt ev t)) true = .ok y ∧ Fl.perceptualScore1 L p ev (assocAt ev.agnostic t) (iter' (Fl.missedAt ev t))
      (iter' (Fl.extraAt ev t)) true = .ok z ∧ (0 ≤ y ∧ y ≤ 1) ∧ |z - y| ≤ (gt.length + sub.length + 1) / 2 ^ 52) := by
    intro t
    by_cases ht : t ∈ s.thresholds
    · obtain ⟨st, h1, h2, h3, h4, h5⟩ := matched_state hL hp (ev := ev) (m := assocAt ev.agnostic t)
        (by rw [hsub, hgt]; exact linked_values h hs hg ht)
      refine ⟨_, _, fun _ => ⟨h5 _ _ (fun i hj => missedAt_keys t i ((hi _).mem_iff.1 hj))
        (fun i hj => extraAt_keys t i ((hi _).mem_iff.1 hj)) true, h5 _ _ (fun i hj => missedAt_keys t i ((hi' _).mem_iff.1 hj))
        (fun i hj => extraAt_keys t i ((hi' _).mem_iff.1 hj)) true, ?_⟩⟩
      rw [if_pos rfl, if_pos rfl, hsub, hgt]
      have hnn := pens_nonneg hp bs bg (iter (Fl.missedAt ev t)) (iter (Fl.extraAt ev t))
      have hnn' := pens_nonneg hp bs bg (iter' (Fl.missedAt ev t)) (iter' (Fl.extraAt ev t))
      refine ⟨normalised_range (subtractAll_le hnn h1 h4) h2, ?_⟩
      refine (normalised_perm (pens_perm ((hi' _).trans (hi _).symm) ((hi' _).trans (hi _).symm)) hnn' h2 h1 h4).trans ?_
      apply div_le_div_of_nonneg_right _ (by norm_num)
      have hl1 : (missedPens p gt (iter' (Fl.missedAt ev t))).length ≤ gt.length := by
        unfold missedPens
        rw [List.length_map]
        refine (List.length_filter_le _ _).trans ((List.length_filterMap_le _ _).trans ?_)
        rw [(hi' _).length_eq]
        unfold Fl.missedAt
        refine (List.length_filter_le _ _).trans ?_
        rw [hgt, Dict.keys, List.length_map]
      have hl2 : (extraPens p sub (iter' (Fl.extraAt ev t))).length ≤ sub.length := by
        unfold extraPens
        rw [List.length_map]
        refine (List.length_filterMap_le _ _).trans ?_
        rw [(hi' _).length_eq]
        unfold Fl.extraAt
        refine (List.length_filter_le _ _).trans ?_
        rw [hsub, Dict.keys, List.length_map]
      rw [List.length_append]
      have : ((missedPens p gt (iter' (Fl.missedAt ev t))).length + (extraPens p sub (iter' (Fl.extraAt ev t))).length : ℕ) ≤
        ((gt.length + sub.length : ℕ) : ℚ) := by exact_mod_cast Nat.add_le_add hl1 hl2
      push_cast at this ⊢
      linarith
    · exact ⟨0, 0, fun h => absurd h ht⟩
  choose f g hfg using key
  rw [perceptualScore_of h (f := f) (fun t ht => (hfg t ht).1), perceptualScore_of h (f := g) (fun t ht => (hfg t ht).2.1)]
  have hl := thresholds_length h
  have hne' : ev.settings.thresholds ≠ [] := by
    intro e; rw [e] at hl; exact hne (List.length_eq_zero_iff.1 hl.symm)
  have hc : ((gt.length + sub.length + 1 : ℚ)) / 2 ^ 52 ≤ 1 := by
    rw [div_le_one (by norm_num)]
    exact_mod_cast hsize
  obtain ⟨x, e, hx, he, hxe⟩ := npMeanD_near hsum (l := ev.settings.thresholds) (f := f) (g := f) (c := 0) (by norm_num)
    (fun t _ => by simp) (fun t ht => (hfg t ((mem_settings h).1 ht)).2.2.1) hne' (by rw [hl]; exact hlen)
  obtain ⟨y, e', hy, he', hye⟩ := npMeanD_near hsum (l := ev.settings.thresholds) (f := g) (g := f) hc
    (fun t ht => (hfg t ((mem_settings h).1 ht)).2.2.2) (fun t ht => (hfg t ((mem_settings h).1 ht)).2.2.1) hne' (by rw [hl]; exact hlen)
  rw [he] at he'
  cases he'
  refine ⟨x, y, by rw [hx], by rw [hy], ?_⟩
  rw [hl] at hxe hye
  have hxe' := abs_le.1 hxe
  have hye' := abs_le.1 hye
  have e50 : ((s.thresholds.length : ℚ) + 1) / 2 ^ 50 = (s.thresholds.length + 1) / 2 ^ 51 + (s.thresholds.length + 1) / 2 ^ 51 := by ring
  rw [abs_le, e50]
  constructor <;> linarith [hxe'.1, hxe'.2, hye'.1, hye'.2]

/-! ### Examples -/

namespace FloatPerceptualExample

/-- A library that meets the assumptions. -/
def lib : PerceptualLib := ⟨fun x => if 0 ≤ x then 1 else 1 / (1 - x), fun x => x * x, fun a b => |a| + |b|⟩

theorem lib_lawful : lib.Lawful := by
  refine ⟨fun x hx => ?_, by simp [lib], fun x => mul_self_nonneg x, fun x => mul_self_eq_zero, by simp [lib]⟩
  unfold lib
  simp only
  split_ifs
  · norm_num
  · refine ⟨div_nonneg (by norm_num) (by linarith), ?_⟩
    rw [div_le_one (by linarith)]
    linarith

/-- A box of one by one by `c`. -/
def el (i : ℕ) (cat : String) (c : ℚ) : Obj ℕ ℕ PerceptualPayload :=
  ⟨i, cat, 1, true, ⟨⟨⟨0, 0, 0⟩, ⟨1, c, 1⟩⟩, false, ⟨0, 0, 0⟩⟩⟩

/-- A floor. -/
def room : Elements ℕ ℕ PerceptualPayload := [(0, el 0 "floor" 1)]

/-- A floor and two boxes that do not exist, with volumes 0.05 and 2.2. -/
def guess : Elements ℕ ℕ PerceptualPayload := [(0, el 0 "floor" 1), (1, el 1 "box" (double 0.05)), (2, el 2 "box" (double 2.2))]

/-- Similar iff same id. -/
def simId (a b : Obj ℕ ℕ PerceptualPayload) : ℕ := if a.id = b.id then 1 else 0

/-- One threshold. -/
def st : AssocSettings ℕ := ⟨[1], []⟩

/-- The evaluator. -/
def evOf (A : Elements ℕ ℕ PerceptualPayload) : Evaluator ℕ ℕ ℕ PerceptualPayload :=
  ⟨st, A, room, makeSimCache simId A room, [(1, [(0, ⟨0, 0, 1, 1, true⟩)])], []⟩

theorem build_guess : Evaluator.build simId guess room st = .ok (evOf guess) := rfl

theorem build_room : Evaluator.build simId room room st = .ok (evOf room) := rfl

theorem wk_room : WellKeyed room := by
  refine ⟨by simp [Dict.NodupKeys, room, Dict.keys], ?_⟩
  intro p hp
  simp [room] at hp
  subst hp; rfl

theorem wk_guess : WellKeyed guess := by
  refine ⟨by simp [Dict.NodupKeys, guess, Dict.keys], ?_⟩
  intro p hp
  simp [guess] at hp
  rcases hp with rfl | rfl | rfl <;> rfl

theorem boxes_room : Boxes room := by
  intro e he
  simp [room, Dict.values] at he
  subst he
  simp [Ordered, el]

theorem boxes_guess : Boxes guess := by
  intro e he
  simp [guess, Dict.values] at he
  rcases he with rfl | rfl | rfl
  · simp [Ordered, el]
  · refine ⟨by simp [el], double_nonneg (by norm_num), by simp [el]⟩
  · refine ⟨by simp [el], double_nonneg (by norm_num), by simp [el]⟩

theorem hasFloor_room : HasFloorD room := by
  refine ⟨?_, el 0 "floor" 1, by simp [room, Dict.values], rfl, by simp [el], by simp [el]⟩
  intro g hg _
  simp [room, Dict.values] at hg
  subst hg
  simp [el]

theorem scale : Fl.roomScale guess room = 1 := by decide +kernel

end FloatPerceptualExample

open FloatPerceptualExample

/-- The hypotheses of the range and of C144 are met, with sets iterated forwards and backwards. -/
example : (∃ x, Fl.perceptualScore lib leftSum List.reverse Fl.defaultPerceptual (evOf guess) = .ok (some x) ∧ 0 ≤ x ∧ x ≤ 1) ∧
    ∃ x y, Fl.perceptualScore lib leftSum id Fl.defaultPerceptual (evOf guess) = .ok (some x) ∧
      Fl.perceptualScore lib leftSum List.reverse Fl.defaultPerceptual (evOf guess) = .ok (some y) ∧
      |x - y| ≤ (1 + 3 + 1) / 2 ^ 52 + (1 + 1) / 2 ^ 50 := by
  refine ⟨C143_range lib_lawful leftSum_flSum List.reverse_perm Fl.sensible_default build_guess wk_guess wk_room boxes_guess boxes_room
    (by simp [st]) (by simp [st]), ?_⟩
  simpa [room, guess, st] using C144_reproducible_partial lib_lawful leftSum_flSum (iter := id) (fun l => List.Perm.refl l)
    List.reverse_perm Fl.sensible_default build_guess wk_guess wk_room boxes_guess boxes_room (by simp [st]) (by simp [st]) (by simp [room, guess])

/-- The hypotheses of the perfect score are met. -/
example : Fl.perceptualScore lib leftSum id Fl.defaultPerceptual (evOf room) = .ok (some 1) := by
  have hm : MatchedAt room room (evOf room) 1 (el 0 "floor" 1) (el 0 "floor" 1) :=
    ⟨_, rfl, by simp [room, Dict.values], by simp [room, Dict.values], ⟨0, 0, 1, 1, true⟩, rfl, rfl⟩
  refine C143_perfect lib_lawful leftSum_flSum (fun l => List.Perm.refl l) Fl.sensible_default rfl rfl rfl rfl rfl build_room wk_room wk_room
    (by simp [st]) (by simp [st]) ⟨?_, ?_, ?_, rfl, ?_⟩ hasFloor_room
  · intro t ht d hd
    simp [st] at ht; subst ht
    simp [room, Dict.values] at hd; subst hd
    exact ⟨_, hm⟩
  · intro t ht d hd _
    simp [st] at ht; subst ht
    simp [room, Dict.values] at hd; subst hd
    exact ⟨_, hm⟩
  · rintro t ht d g ⟨-, -, hd, hg, -⟩ _
    simp [room, Dict.values] at hd hg
    rw [hd, hg]
  · intro g hg _
    simp [room, Dict.values] at hg
    subst hg; rfl

/-- An additional hallucinated element, between nothing and another. -/
example : ∃ x y, Fl.perceptualScore1 lib Fl.defaultPerceptual (evOf guess) [(0, ⟨0, 0, 1, 1, true⟩)] [] [2] true = .ok x ∧
    Fl.perceptualScore1 lib Fl.defaultPerceptual (evOf guess) [(0, ⟨0, 0, 1, 1, true⟩)] [] [1, 2] true = .ok y ∧ y ≤ x :=
  C143_extra lib_lawful Fl.sensible_default (l := []) (k := [2]) (i := 1) (by
    intro c hc
    simp [Dict.values] at hc
    subst hc
    exact ⟨⟨_, rfl⟩, _, rfl⟩) (by simp [evOf, guess, Dict.keys]) (by simp) boxes_guess true

/-- An additional missed element. -/
example : ∃ x y, Fl.perceptualScore1 lib Fl.defaultPerceptual (evOf guess) [] [] [1] true = .ok x ∧
    Fl.perceptualScore1 lib Fl.defaultPerceptual (evOf guess) [] [0] [1] true = .ok y ∧ y ≤ x :=
  C143_missed lib_lawful Fl.sensible_default (l := []) (k := []) (i := 0) (by simp [Dict.values]) (by simp [evOf, room, Dict.keys])
    (by simp [evOf, guess, Dict.keys]) boxes_room true

/-- **C144** is false: with the default settings, for the same submission and ground truth, iterating over the extra elements forwards
and backwards gives two different scores, whatever the library functions return and however numpy adds. -/
theorem C144_false {L : PerceptualLib} (hL : L.Lawful) {sum : List ℚ → ℚ} (hsum : ∀ l, FlSum l (sum l)) :
    ∃ (A B : Elements ℕ ℕ PerceptualPayload) (E : Evaluator ℕ ℕ ℕ PerceptualPayload) (x y : ℚ),
      Evaluator.build simId A B st = .ok E ∧ WellKeyed A ∧ WellKeyed B ∧ Boxes A ∧ Boxes B ∧
      Fl.perceptualScore L sum id Fl.defaultPerceptual E = .ok (some x) ∧
      Fl.perceptualScore L sum List.reverse Fl.defaultPerceptual E = .ok (some y) ∧ x ≠ y := by
  have hx : gaussian L Fl.defaultPerceptual.roomScale (Fl.roomScale (evOf guess).submission (evOf guess).groundTruth) = .ok 100 := by
    have e : Fl.roomScale (evOf guess).submission (evOf guess).groundTruth = Fl.defaultPerceptual.roomScale.mean := scale
    rw [e, gaussian_mean hL Fl.sensible_default.room.2.1 Fl.sensible_default.room.2.2]
    rfl
  have hst : (Dict.values [(0, (⟨0, 0, 1, 1, true⟩ : Corr ℕ ℕ ℕ))]).foldlM (Fl.perceptualStep L Fl.defaultPerceptual (evOf guess).submission
      (evOf guess).groundTruth (Fl.roomScale (evOf guess).submission (evOf guess).groundTruth)) (100, Fl.defaultPerceptual.roomScale.weight) =
      .ok (120, 120) := by
    have e : Fl.roomScale (evOf guess).submission (evOf guess).groundTruth = 1 := scale
    rw [e]
    simp only [Dict.values, List.map_cons, List.map_nil, List.foldlM_cons, List.foldlM_nil]
    rw [step_perfect_eq hL Fl.sensible_default rfl rfl rfl rfl (d := el 0 "floor" 1) (g := el 0 "floor" 1) rfl rfl (fun _ => ⟨rfl, rfl⟩)]
    simp only [bind, Except.bind, pure, Except.pure]
    congr 1
    decide +kernel
  have score : ∀ it : List ℕ → List ℕ, (∀ l, (it l).Perm l) → Fl.perceptualScore L sum it Fl.defaultPerceptual (evOf guess) =
      .ok (some (normalised (subtractAll 120 (missedPens Fl.defaultPerceptual room (it []) ++ extraPens Fl.defaultPerceptual guess (it [1, 2]))) 120)) := by
    intro it hit
    rw [perceptualScore_of build_guess (f := fun _ => normalised (subtractAll 120 (missedPens Fl.defaultPerceptual room (it []) ++
        extraPens Fl.defaultPerceptual guess (it [1, 2]))) 120) (by
      intro t ht
      simp [st] at ht; subst ht
      have e1 : Fl.missedAt (evOf guess) 1 = [] := by decide +kernel
      have e2 : Fl.extraAt (evOf guess) 1 = [1, 2] := by decide +kernel
      have := score1_of_state (m := assocAt (evOf guess).agnostic 1) hx hst (by norm_num)
        (fun i hj => missedAt_keys 1 i ((hit _).mem_iff.1 hj)) (fun i hj => extraAt_keys 1 i ((hit _).mem_iff.1 hj)) true
      rw [e1, e2] at this ⊢
      exact this)]
    change Except.ok (Fl.npMean sum [_]) = _
    rw [Fl.npMean, flSum_singleton (hsum _) rfl, List.length_singleton, if_neg (by norm_num), Nat.cast_one, double_one, div_one]
    congr 2
    apply double_of_isDouble
    unfold normalised
    split_ifs
    · exact isDouble_zero
    · exact double_isDouble _
  refine ⟨guess, room, evOf guess, _, _, build_guess, wk_guess, wk_room, boxes_guess, boxes_room, score _ (fun l => List.Perm.refl l),
    score _ List.reverse_perm, ?_⟩
  decide +kernel

end Sumo
