import Verif.Model.Points
import Verif.Spec.Points
import Verif.Lemmas.PoseError

/-! # Helper lemmas: point metrics -/

set_option linter.unusedSectionVars false

namespace Sumo
open AssocSpec PointSpec

theorem pdist_eq (p q : Vec3 ℝ) : pdist p q = PointSpec.dist p q := by
  unfold pdist PointSpec.dist Vec3.norm Vec3.normSq Vec3.dot
  congr 1
  simp; ring

theorem dist_comm' (p q : Vec3 ℝ) : PointSpec.dist p q = PointSpec.dist q p := by
  unfold PointSpec.dist; congr 1; ring

theorem dist_self' (p : Vec3 ℝ) : PointSpec.dist p p = 0 := by
  unfold PointSpec.dist; simp

theorem dist_nonneg' (p q : Vec3 ℝ) : 0 ≤ PointSpec.dist p q := Real.sqrt_nonneg _

theorem coord_le_dist (p q : Vec3 ℝ) : |p.x - q.x| ≤ PointSpec.dist p q ∧ |p.y - q.y| ≤ PointSpec.dist p q ∧
    |p.z - q.z| ≤ PointSpec.dist p q := by
  unfold PointSpec.dist
  refine ⟨Real.abs_le_sqrt ?_, Real.abs_le_sqrt ?_, Real.abs_le_sqrt ?_⟩ <;>
  nlinarith [sq_nonneg (p.x - q.x), sq_nonneg (p.y - q.y), sq_nonneg (p.z - q.z)]

variable {nn : List (Vec3 ℝ) → Vec3 ℝ → ℕ}

/-- The point found by the query. -/
def nearestPoint (nn : List (Vec3 ℝ) → Vec3 ℝ → ℕ) (B : List (Vec3 ℝ)) (p : Vec3 ℝ) : Vec3 ℝ := B[nn B p]?.getD 0

theorem nearestPoint_spec (h : IsNearest nn) {B : List (Vec3 ℝ)} (hB : B ≠ []) (p : Vec3 ℝ) :
    nearestPoint nn B p ∈ B ∧ ∀ r ∈ B, PointSpec.dist p (nearestPoint nn B p) ≤ PointSpec.dist p r := by
  obtain ⟨q, hq, hm⟩ := h B p hB
  unfold nearestPoint
  rw [hq]
  refine ⟨List.mem_of_getElem? hq, fun r hr => ?_⟩
  rw [← pdist_eq, ← pdist_eq]
  exact hm r hr

theorem nearest_le_iff (h : IsNearest nn) {B : List (Vec3 ℝ)} (hB : B ≠ []) (p : Vec3 ℝ) (t : ℝ) :
    PointSpec.dist p (nearestPoint nn B p) ≤ t ↔ ∃ q ∈ B, PointSpec.dist p q ≤ t := by
  obtain ⟨h1, h2⟩ := nearestPoint_spec h hB p
  exact ⟨fun h => ⟨_, h1, h⟩, fun ⟨q, hq, hd⟩ => (h2 q hq).trans hd⟩

theorem distTo_eq (h : IsNearest nn) {B : List (Vec3 ℝ)} (hB : B ≠ []) (p : Vec3 ℝ) :
    distTo p B = PointSpec.dist p (nearestPoint nn B p) := by
  obtain ⟨h1, h2⟩ := nearestPoint_spec h hB p
  have : IsLeast {d | ∃ q ∈ B, d = PointSpec.dist p q} (PointSpec.dist p (nearestPoint nn B p)) := by
    refine ⟨⟨_, h1, rfl⟩, ?_⟩
    rintro d ⟨q, hq, rfl⟩
    exact h2 q hq
  exact this.csInf_eq

theorem nearestNeighbors_of_ne {A B : List (Vec3 ℝ)} (hA : A ≠ []) (hB : B ≠ []) :
    nearestNeighbors nn A B = ⟨A.map (nn B), B.map (nn A),
      A.map (fun p => PointSpec.dist p (nearestPoint nn B p)),
      B.map (fun p => PointSpec.dist p (nearestPoint nn A p))⟩ := by
  unfold nearestNeighbors
  rw [if_neg (by simp [hA, hB])]
  simp only [pdist_eq]
  rfl

theorem near_nil_right (A : List (Vec3 ℝ)) (t : ℝ) : near A [] t = 0 := by
  unfold near; simp

theorem near_le (A B : List (Vec3 ℝ)) (t : ℝ) : near A B t ≤ A.length := by
  unfold near; exact List.countP_le_length

/-- Without rejection the function computes the specification. -/
theorem pointsIou_eq (h : IsNearest nn) {A B : List (Vec3 ℝ)} {b1 b2 : Box3d ℝ} {t : ℝ}
    (hr : ¬ quickReject b1 b2 t) : pointsIou nn A b1 B b2 t = iou A B t := by
  unfold pointsIou
  rw [if_neg hr]
  unfold iou
  by_cases hA : A = []
  · subst hA
    simp [nearestNeighbors, near]
  by_cases hB : B = []
  · subst hB
    simp [nearestNeighbors, near]
  rw [nearestNeighbors_of_ne hA hB]
  have hu : A.length + B.length ≠ 0 := by
    have := List.length_pos_iff.2 hA
    omega
  simp only [hu, if_false]
  congr 2
  unfold near
  congr 1
  · rw [List.filter_map, List.length_map, List.countP_eq_length_filter]
    congr 1
    apply List.filter_congr
    intro p _
    simp only [Function.comp, nearest_le_iff h hB]
  · rw [List.filter_map, List.length_map, List.countP_eq_length_filter]
    congr 1
    apply List.filter_congr
    intro p _
    simp only [Function.comp, nearest_le_iff h hA]

theorem pointsIou_cases (h : IsNearest nn) (A B : List (Vec3 ℝ)) (b1 b2 : Box3d ℝ) (t : ℝ) :
    pointsIou nn A b1 B b2 t = 0 ∧ quickReject b1 b2 t ∨
    pointsIou nn A b1 B b2 t = iou A B t ∧ ¬ quickReject b1 b2 t := by
  by_cases hr : quickReject b1 b2 t
  · left; refine ⟨?_, hr⟩; unfold pointsIou; rw [if_pos hr]
  · right; exact ⟨pointsIou_eq h hr, hr⟩

theorem quickReject_comm (b1 b2 : Box3d ℝ) (t : ℝ) : quickReject b1 b2 t ↔ quickReject b2 b1 t := by
  unfold quickReject axisReject
  tauto

theorem quickReject_far {A B : List (Vec3 ℝ)} {b1 b2 : Box3d ℝ} {t : ℝ} (hA : Inside A b1) (hB : Inside B b2)
    (hr : quickReject b1 b2 t) : ∀ p ∈ A, ∀ q ∈ B, t < PointSpec.dist p q := by
  intro p hp q hq
  obtain ⟨hx, hy, hz⟩ := coord_le_dist p q
  obtain ⟨⟨a1, a2⟩, ⟨a3, a4⟩, a5, a6⟩ := hA p hp
  obtain ⟨⟨c1, c2⟩, ⟨c3, c4⟩, c5, c6⟩ := hB q hq
  have lx := abs_le.1 hx
  have ly := abs_le.1 hy
  have lz := abs_le.1 hz
  rcases hr with (h | h) | (h | h) | (h | h) <;> linarith [lx.1, lx.2, ly.1, ly.2, lz.1, lz.2]

theorem iou_eq_zero_of_far {A B : List (Vec3 ℝ)} {t : ℝ} (h : ∀ p ∈ A, ∀ q ∈ B, t < PointSpec.dist p q) :
    iou A B t = 0 := by
  have h1 : near A B t = 0 := by
    unfold near
    rw [List.countP_eq_zero]
    intro p hp
    simp only [decide_eq_true_eq, not_exists, not_and, not_le]
    exact fun q hq => h p hp q hq
  have h2 : near B A t = 0 := by
    unfold near
    rw [List.countP_eq_zero]
    intro p hp
    simp only [decide_eq_true_eq, not_exists, not_and, not_le]
    intro q hq
    rw [dist_comm']
    exact h q hq p hp
  unfold iou
  rw [h1, h2]; simp

/-! ### RMS loops -/

variable {ι σ τ P K : Type} [DecidableEq ι] [LinearOrder σ] [LinearOrder τ]

/-- All cached values are right. -/
def CacheOk (compute : ι → ι → Except PyErr K) (cache : Dict ι (Dict ι K)) : Prop :=
  ∀ d row, cache.get? d = some row → ∀ g v, row.get? g = some v → compute d g = .ok v

theorem rmsStep_ok {compute : ι → ι → Except PyErr K} {a : Dict ι (Corr ι σ τ)}
    {st : Dict ι (Dict ι K) × List K} (hc : CacheOk compute st.1) {d : ι} {c : Corr ι σ τ}
    (ha : a.get? d = some c) {v : K} (hv : compute d c.gtId = .ok v) :
    ∃ cache, CacheOk compute cache ∧ rmsStep compute a st d = .ok (cache, st.2 ++ [v]) := by
  unfold rmsStep
  rw [Dict.get_eq_ok.2 ha]
  set cache := (if st.1.has d then st.1 else st.1.set d []) with hcache
  have hok : CacheOk compute cache := by
    rw [hcache]
    split_ifs
    · exact hc
    · intro d' row hrow g v hg
      rw [Dict.get?_set] at hrow
      split_ifs at hrow
      · injection hrow with hrow
        subst hrow
        simp [Dict.get?] at hg
      · exact hc d' row hrow g v hg
  obtain ⟨row, hrow⟩ : ∃ row, cache.get? d = some row := by
    rw [hcache]
    split_ifs with hh
    · exact (Dict.has_iff _ _).1 hh
    · exact ⟨[], by rw [Dict.get?_set]; simp⟩
  simp only [Dict.get_eq_ok.2 hrow, bind, Except.bind, pure, Except.pure]
  rcases hg : row.get? c.gtId with _ | v'
  · rw [hv]
    refine ⟨_, ?_, rfl⟩
    intro d' row' hrow' g w hw
    rw [Dict.get?_set] at hrow'
    split_ifs at hrow' with e
    · injection hrow' with hrow'
      subst hrow'
      rw [Dict.get?_set] at hw
      split_ifs at hw with e'
      · injection hw with hw
        subst hw
        rw [← e, ← e']; exact hv
      · rw [← e]; exact hok d row hrow g w hw
    · exact hok d' row' hrow' g w hw
  · have := hok d row hrow _ _ hg
    rw [hv] at this
    injection this with this
    subst this
    exact ⟨_, hok, rfl⟩

theorem foldlM_rmsStep {compute : ι → ι → Except PyErr K} {a : Dict ι (Corr ι σ τ)} (f : ι → K) (ds : List ι)
    (ha : ∀ d ∈ ds, ∃ c, a.get? d = some c ∧ compute d c.gtId = .ok (f d))
    (st : Dict ι (Dict ι K) × List K) (hc : CacheOk compute st.1) :
    ∃ cache, CacheOk compute cache ∧ ds.foldlM (rmsStep compute a) st = .ok (cache, st.2 ++ ds.map f) := by
  induction ds generalizing st with
  | nil => exact ⟨st.1, hc, by simp [pure, Except.pure]⟩
  | cons d ds ih =>
    obtain ⟨c, h1, h2⟩ := ha d List.mem_cons_self
    obtain ⟨cache, h3, h4⟩ := rmsStep_ok hc h1 h2
    obtain ⟨cache', h5, h6⟩ := ih (fun d hd => ha d (List.mem_cons_of_mem _ hd)) (cache, st.2 ++ [f d]) h3
    refine ⟨cache', h5, ?_⟩
    rw [List.foldlM_cons, h4]
    simp only [bind, Except.bind]
    rw [h6]
    simp

variable {sim : Obj ι σ P → Obj ι σ P → τ} {sub gt : Elements ι σ P} {s : AssocSettings τ} {ev : Evaluator ι σ τ P}

/-- Per-detection value at a threshold. -/
def valAt [Inhabited K] (ev : Evaluator ι σ τ P) (F : Obj ι σ P → Obj ι σ P → K) (t : τ) (i : ι) : K :=
  ((do
    let c ← (assocAt ev.agnostic t).get? i
    let d ← ev.submission.get? c.detId
    let g ← ev.groundTruth.get? c.gtId
    return F d g) : Option K).getD default

theorem key_eq_detId (h : Evaluator.build sim sub gt s = .ok ev) (hs : WellKeyed sub) (hg : WellKeyed gt)
    {t : τ} (ht : t ∈ s.thresholds) {i : ι} {c : Corr ι σ τ} (hc : (assocAt ev.agnostic t).get? i = some c) :
    c.detId = i := by
  obtain ⟨a, ha⟩ := (C05_threshold_independent h h t).1.1 ht
  have e : assocAt ev.agnostic t = a := by unfold assocAt; rw [ha]; rfl
  rw [e] at hc
  obtain ⟨-, -, -, -, -, -, h4, -⟩ := C02_matches_are_real h hs hg ha hc
  exact h4

theorem rmsFold_eq [Inhabited K] (h : Evaluator.build sim sub gt s = .ok ev) (hs : WellKeyed sub) (hg : WellKeyed gt)
    {compute : ι → ι → Except PyErr K} {F : Obj ι σ P → Obj ι σ P → K}
    (hF : ∀ t ∈ s.thresholds, ∀ d g, Matched sub.values gt.values (assocAt ev.agnostic t) d g →
      compute d.id g.id = .ok (F d g)) :
    ∃ cache, ev.settings.thresholds.foldlM (fun st t => do
        let a ← ev.agnostic.get t
        a.keys.foldlM (rmsStep compute a) st) (([], []) : Dict ι (Dict ι K) × List K) =
      .ok (cache, ev.settings.thresholds.flatMap (fun t =>
        (pairsOf sub gt (assocAt ev.agnostic t).values).map (fun q => F q.1 q.2))) := by
  obtain ⟨_, _, hsub, hgt, _, hset⟩ := build_ok h
  have hval : ∀ t ∈ s.thresholds, (assocAt ev.agnostic t).keys.map (valAt ev F t) =
      (pairsOf sub gt (assocAt ev.agnostic t).values).map (fun q => F q.1 q.2) := by
    intro t ht
    have hcorr : ∀ i c, (i, c) ∈ assocAt ev.agnostic t → (assocAt ev.agnostic t).get? i = some c :=
      fun i c hm => Dict.get?_of_mem (nodupKeys_agnostic h ht) hm
    have : ∀ l : Dict ι (Corr ι σ τ), (∀ p ∈ l, p ∈ assocAt ev.agnostic t) →
        l.keys.map (valAt ev F t) = (pairsOf sub gt l.values).map (fun q => F q.1 q.2) := by
      intro l
      induction l with
      | nil => intro _; rfl
      | cons p l ih =>
        intro hl
        have hp := hcorr p.1 p.2 (hl p List.mem_cons_self)
        have hv : p.2 ∈ (assocAt ev.agnostic t).values := Dict.mem_values.2 ⟨_, Dict.mem_of_get? hp⟩
        obtain ⟨d, g, h1, h2, -⟩ := agnostic_values h hs hg ht hv
        have e := ih (fun q hq => hl q (List.mem_cons_of_mem _ hq))
        have ev1 : valAt ev F t p.1 = F d g := by
          unfold valAt
          rw [hp, hsub, hgt]
          simp [h1, h2]
        change valAt ev F t p.1 :: (Dict.keys l).map (valAt ev F t) = (pairsOf sub gt (p.2 :: Dict.values l)).map _
        rw [e, pairsOf_cons _ _ _ h1 h2, ev1]
        rfl
    exact this _ (fun p hp => hp)
  have hcomp : ∀ t ∈ s.thresholds, ∀ i ∈ (assocAt ev.agnostic t).keys,
      ∃ c, (assocAt ev.agnostic t).get? i = some c ∧ compute i c.gtId = .ok (valAt ev F t i) := by
    intro t ht i hi
    obtain ⟨c, hc⟩ := (Dict.has_iff _ _).1 ((Dict.has_iff_mem_keys _ _).2 hi)
    refine ⟨c, hc, ?_⟩
    have hv : c ∈ (assocAt ev.agnostic t).values := Dict.mem_values.2 ⟨_, Dict.mem_of_get? hc⟩
    obtain ⟨d, g, h1, h2, -, -, h6, h7, h8⟩ := agnostic_values h hs hg ht hv
    have hk := key_eq_detId h hs hg ht hc
    have := hF t ht d g h8
    rw [h6, h7, hk] at this
    rw [this]
    unfold valAt
    rw [hc, hsub, hgt]
    simp [h1, h2]
  have hfold : ∀ ts : List τ, (∀ t ∈ ts, t ∈ s.thresholds) → ∀ st : Dict ι (Dict ι K) × List K,
      CacheOk compute st.1 → ∃ cache, CacheOk compute cache ∧
      ts.foldlM (fun st t => do
        let a ← ev.agnostic.get t
        a.keys.foldlM (rmsStep compute a) st) st = .ok (cache, st.2 ++ ts.flatMap (fun t =>
          (pairsOf sub gt (assocAt ev.agnostic t).values).map (fun q => F q.1 q.2))) := by
    intro ts
    induction ts with
    | nil => intro _ st hc; exact ⟨st.1, hc, by simp [pure, Except.pure]⟩
    | cons t ts ih =>
      intro hts st hc
      have ht := hts t List.mem_cons_self
      obtain ⟨cache, h1, h2⟩ := foldlM_rmsStep (valAt ev F t) _ (hcomp t ht) st hc
      obtain ⟨cache', h3, h4⟩ := ih (fun t ht => hts t (List.mem_cons_of_mem _ ht))
        (cache, st.2 ++ (assocAt ev.agnostic t).keys.map (valAt ev F t)) h1
      refine ⟨cache', h3, ?_⟩
      rw [List.foldlM_cons, agnostic_get h ht]
      simp only [bind, Except.bind] at h4 ⊢
      rw [h2]
      simp only
      rw [h4, hval t ht]
      simp
  obtain ⟨cache, -, h2⟩ := hfold ev.settings.thresholds (fun t ht => (mem_settings h).1 ht) ([], [])
    (by intro d row hrow; simp [Dict.get?] at hrow)
  exact ⟨cache, by rw [h2]; simp⟩

theorem rmsLoop_eq (h : Evaluator.build sim sub gt s = .ok ev) (hs : WellKeyed sub) (hg : WellKeyed gt)
    {compute : ι → ι → Except PyErr ℝ} {F : Obj ι σ P → Obj ι σ P → ℝ}
    (hF : ∀ t ∈ s.thresholds, ∀ d g, Matched sub.values gt.values (assocAt ev.agnostic t) d g →
      compute d.id g.id = .ok (F d g)) :
    rmsLoop compute ev = .ok (let L := ev.settings.thresholds.flatMap (fun t =>
        (pairsOf sub gt (assocAt ev.agnostic t).values).map (fun q => F q.1 q.2))
      if L.length > 0 then some (meanR L) else none) := by
  obtain ⟨cache, h2⟩ := rmsFold_eq h hs hg hF
  unfold rmsLoop
  rw [h2]
  simp [bind, Except.bind, pure, Except.pure]

end Sumo
