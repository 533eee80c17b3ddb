import Verif.Lemmas.Points

/-!
# Point IoU and RMS surface errors (C30, C31, C34, C77)

Everywhere `nn` is any exact nearest-neighbour query (`IsNearest`), so ties may be broken in any way.
-/

set_option linter.unusedSectionVars false

namespace Sumo
open AssocSpec PointSpec

theorem exists_min (f : Vec3 ℝ → ℝ) : ∀ l : List (Vec3 ℝ), l ≠ [] → ∃ q ∈ l, ∀ r ∈ l, f q ≤ f r := by
  intro l
  induction l with
  | nil => intro h; exact absurd rfl h
  | cons a l ih =>
    intro _
    by_cases hl : l = []
    · subst hl; exact ⟨a, by simp, by simp⟩
    · obtain ⟨q, hq, hm⟩ := ih hl
      rcases le_total (f a) (f q) with h | h
      · refine ⟨a, by simp, fun r hr => ?_⟩
        rcases List.mem_cons.1 hr with rfl | hr
        · exact le_refl _
        · exact h.trans (hm r hr)
      · refine ⟨q, by simp [hq], fun r hr => ?_⟩
        rcases List.mem_cons.1 hr with rfl | hr
        · exact h
        · exact hm r hr

/-- The contract of the nearest-neighbour query can be met (non-vacuity for this whole file). -/
theorem exists_isNearest : ∃ nn, IsNearest nn := by
  have : ∀ (pts : List (Vec3 ℝ)) (p : Vec3 ℝ), ∃ i : ℕ, pts ≠ [] →
      ∃ q, pts[i]? = some q ∧ ∀ r ∈ pts, pdist p q ≤ pdist p r := by
    intro pts p
    by_cases h : pts = []
    · exact ⟨0, fun h' => absurd h h'⟩
    · obtain ⟨q, hq, hm⟩ := exists_min (pdist p) pts h
      obtain ⟨i, hi⟩ := List.mem_iff_getElem?.1 hq
      exact ⟨i, fun _ => ⟨q, hi, hm⟩⟩
  choose nn hnn using this
  exact ⟨nn, fun pts p h => hnn pts p h⟩

variable {nn : List (Vec3 ℝ) → Vec3 ℝ → ℕ}

theorem iou_range (A B : List (Vec3 ℝ)) (t : ℝ) : 0 ≤ iou A B t ∧ iou A B t ≤ 1 := by
  unfold iou
  refine ⟨by positivity, ?_⟩
  apply div_le_one_of_le₀
  · exact_mod_cast Nat.add_le_add (near_le A B t) (near_le B A t)
  · positivity

/-- **C30** point IoU lies in `[0, 1]`. -/
theorem C30_range (h : IsNearest nn) (A B : List (Vec3 ℝ)) (b1 b2 : Box3d ℝ) (t : ℝ) :
    0 ≤ pointsIou nn A b1 B b2 t ∧ pointsIou nn A b1 B b2 t ≤ 1 := by
  rcases pointsIou_cases h A B b1 b2 t with ⟨e, -⟩ | ⟨e, -⟩ <;> rw [e]
  · norm_num
  · exact iou_range A B t

/-- **C30** point IoU is symmetric. -/
theorem C30_symmetric (h : IsNearest nn) (A B : List (Vec3 ℝ)) (b1 b2 : Box3d ℝ) (t : ℝ) :
    pointsIou nn A b1 B b2 t = pointsIou nn B b2 A b1 t := by
  rcases pointsIou_cases h A B b1 b2 t with ⟨e, hr⟩ | ⟨e, hr⟩ <;>
  rcases pointsIou_cases h B A b2 b1 t with ⟨e', hr'⟩ | ⟨e', hr'⟩ <;> rw [e, e']
  · exact absurd ((quickReject_comm _ _ _).1 hr) hr'
  · exact absurd ((quickReject_comm _ _ _).2 hr') hr
  · unfold iou
    rw [Nat.add_comm (near A B t), Nat.add_comm A.length]

/-- **C30** a non-empty set has IoU 1 with itself (threshold and box sizes non-negative). -/
theorem C30_self (h : IsNearest nn) {A : List (Vec3 ℝ)} (hA : A ≠ []) {b : Box3d ℝ} {t : ℝ} (ht : 0 ≤ t)
    (hb : b.minCorner.x ≤ b.maxCorner.x ∧ b.minCorner.y ≤ b.maxCorner.y ∧ b.minCorner.z ≤ b.maxCorner.z) :
    pointsIou nn A b A b t = 1 := by
  have hr : ¬ quickReject b b t := by
    unfold quickReject axisReject
    push Not
    refine ⟨⟨?_, ?_⟩, ⟨?_, ?_⟩, ?_, ?_⟩ <;> linarith [hb.1, hb.2.1, hb.2.2]
  rw [pointsIou_eq h hr]
  have : near A A t = A.length := by
    unfold near
    rw [List.countP_eq_length]
    intro p hp
    simp only [decide_eq_true_eq]
    exact ⟨p, hp, by rw [dist_self']; exact ht⟩
  unfold iou
  rw [this]
  have h0 := List.length_pos_iff.2 hA
  apply div_self
  have : A.length + A.length ≠ 0 := by omega
  exact_mod_cast this

/-- **C30** point IoU with an empty set is 0. -/
theorem C30_empty (h : IsNearest nn) (A : List (Vec3 ℝ)) (b1 b2 : Box3d ℝ) (t : ℝ) :
    pointsIou nn A b1 [] b2 t = 0 ∧ pointsIou nn [] b1 A b2 t = 0 := by
  have h1 : iou A [] t = 0 := iou_eq_zero_of_far (by simp)
  have h2 : iou [] A t = 0 := iou_eq_zero_of_far (by simp)
  constructor
  · rcases pointsIou_cases h A [] b1 b2 t with ⟨e, -⟩ | ⟨e, -⟩ <;> rw [e]
    exact h1
  · rcases pointsIou_cases h [] A b1 b2 t with ⟨e, -⟩ | ⟨e, -⟩ <;> rw [e]
    exact h2

/-- **C30** and **C31**: with boxes that contain the points, the value is the fraction of points with a point of the
other set within the threshold, whatever the boxes: the early exit never changes it. -/
theorem C31_value (h : IsNearest nn) {A B : List (Vec3 ℝ)} {b1 b2 : Box3d ℝ} (hA : Inside A b1) (hB : Inside B b2)
    (t : ℝ) : pointsIou nn A b1 B b2 t = iou A B t := by
  rcases pointsIou_cases h A B b1 b2 t with ⟨e, hr⟩ | ⟨e, hr⟩ <;> rw [e]
  rw [iou_eq_zero_of_far (quickReject_far hA hB hr)]

/-- **C31** when the boxes are rejected, no two points are within the threshold. -/
theorem C31_quick_reject_sound {A B : List (Vec3 ℝ)} {b1 b2 : Box3d ℝ} {t : ℝ} (hA : Inside A b1)
    (hB : Inside B b2) (hr : quickReject b1 b2 t) : ∀ p ∈ A, ∀ q ∈ B, t < PointSpec.dist p q :=
  quickReject_far hA hB hr

/-- Two points at distance 1, threshold 1/2: rejected; threshold 1: not rejected and IoU 1. -/
example (h : IsNearest nn) :
    let A : List (Vec3 ℝ) := [0]
    let B : List (Vec3 ℝ) := [⟨1, 0, 0⟩]
    let b1 : Box3d ℝ := ⟨0, 0⟩
    let b2 : Box3d ℝ := ⟨⟨1, 0, 0⟩, ⟨1, 0, 0⟩⟩
    Inside A b1 ∧ Inside B b2 ∧ quickReject b1 b2 (1 / 2) ∧ pointsIou nn A b1 B b2 1 = 1 := by
  intro A B b1 b2
  have hA : Inside A b1 := by intro p hp; simp [A] at hp; subst hp; simp [b1]
  have hB : Inside B b2 := by intro p hp; simp [B] at hp; subst hp; simp [b2]
  refine ⟨hA, hB, ?_, ?_⟩
  · left; right; norm_num [b1, b2]
  · rw [C31_value h hA hB]
    have h1 : near A B 1 = 1 := by simp [near, A, B, PointSpec.dist]
    have h2 : near B A 1 = 1 := by simp [near, A, B, PointSpec.dist]
    unfold iou
    rw [h1, h2]; norm_num [A, B]

/-! ### RMS surface distance -/

/-- RMS distance of a pair, 0 if one of the sets is empty. -/
noncomputable def pairRms (A B : List (Vec3 ℝ)) : ℝ :=
  open Classical in if A = [] ∨ B = [] then 0 else rms A B

theorem pairPointsRms_eq (h : IsNearest nn) (A B : List ColorPoint) :
    pairPointsRms nn A B = .ok (pairRms (positions A) (positions B)) := by
  unfold pairPointsRms pairRms
  by_cases hA : positions A = []
  · simp [nearestNeighbors, hA]
  by_cases hB : positions B = []
  · simp [nearestNeighbors, hB]
  rw [nearestNeighbors_of_ne hA hB]
  have hl : 0 < (positions A).length := List.length_pos_iff.2 hA
  simp only [hA, hB, or_self, if_false, List.length_map]
  rw [if_pos (by omega)]
  unfold rms
  simp only [List.map_map, distTo_eq h hA, distTo_eq h hB, Nat.cast_add]
  rfl

theorem distTo_eq_zero (h : IsNearest nn) {B : List (Vec3 ℝ)} (hB : B ≠ []) (p : Vec3 ℝ) :
    distTo p B = 0 ↔ p ∈ B := by
  rw [distTo_eq h hB]
  constructor
  · intro h0
    obtain ⟨h1, -⟩ := nearestPoint_spec h hB p
    have : p = nearestPoint nn B p := by
      rw [← pdist_eq] at h0
      unfold pdist at h0
      rw [norm_eq_zero3] at h0
      have hx := congrArg Vec3.x h0
      have hy := congrArg Vec3.y h0
      have hz := congrArg Vec3.z h0
      simp at hx hy hz
      ext <;> linarith
    rw [this]; exact h1
  · intro hp
    obtain ⟨-, h2⟩ := nearestPoint_spec h hB p
    have := h2 p hp
    rw [dist_self'] at this
    exact le_antisymm this (dist_nonneg' _ _)

/-- The RMS distance of two non-empty sets is 0 exactly when they have the same points. -/
theorem rms_eq_zero {A B : List (Vec3 ℝ)} (hA : A ≠ []) (hB : B ≠ []) :
    rms A B = 0 ↔ ∀ p, p ∈ A ↔ p ∈ B := by
  obtain ⟨nn, h⟩ := exists_isNearest
  have n1 : ∀ x ∈ A.map (fun p => distTo p B ^ 2), 0 ≤ x := by
    intro x hx; obtain ⟨p, -, rfl⟩ := List.mem_map.1 hx; positivity
  have n2 : ∀ x ∈ B.map (fun p => distTo p A ^ 2), 0 ≤ x := by
    intro x hx; obtain ⟨p, -, rfl⟩ := List.mem_map.1 hx; positivity
  have s1 := List.sum_nonneg n1
  have s2 := List.sum_nonneg n2
  have hp : (0 : ℝ) < A.length + B.length := by
    have : 0 < A.length := List.length_pos_iff.2 hA
    have : (0 : ℝ) < A.length := by exact_mod_cast this
    positivity
  unfold rms
  rw [Real.sqrt_eq_zero (by positivity), div_eq_zero_iff, or_iff_left hp.ne']
  constructor
  · intro h0 p
    have e1 := (sum_eq_zero_list n1).1 (by linarith)
    have e2 := (sum_eq_zero_list n2).1 (by linarith)
    constructor
    · intro hp
      have := e1 _ (List.mem_map.2 ⟨p, hp, rfl⟩)
      exact (distTo_eq_zero h hB p).1 (by simpa using this)
    · intro hp
      have := e2 _ (List.mem_map.2 ⟨p, hp, rfl⟩)
      exact (distTo_eq_zero h hA p).1 (by simpa using this)
  · intro he
    have e1 : (A.map (fun p => distTo p B ^ 2)).sum = 0 := by
      rw [sum_eq_zero_list n1]
      intro x hx
      obtain ⟨p, hp, rfl⟩ := List.mem_map.1 hx
      simp [(distTo_eq_zero h hB p).2 ((he p).1 hp)]
    have e2 : (B.map (fun p => distTo p A ^ 2)).sum = 0 := by
      rw [sum_eq_zero_list n2]
      intro x hx
      obtain ⟨p, hp, rfl⟩ := List.mem_map.1 hx
      simp [(distTo_eq_zero h hA p).2 ((he p).2 hp)]
    rw [e1, e2, add_zero]

theorem rms_nonneg (A B : List (Vec3 ℝ)) : 0 ≤ rms A B := Real.sqrt_nonneg _

theorem pairRms_nonneg (A B : List (Vec3 ℝ)) : 0 ≤ pairRms A B := by
  unfold pairRms; split_ifs
  · exact le_refl _
  · exact rms_nonneg A B

section Loop

variable {ι σ τ P K : Type} [DecidableEq ι] [LinearOrder σ] [LinearOrder τ]
  {sim : Obj ι σ P → Obj ι σ P → τ} {sub gt : Elements ι σ P}
  {s : AssocSettings τ} {ev : Evaluator ι σ τ P}

/-- `Q t` lists the pairs matched at `t`, each once. -/
def Lists (sub gt : Elements ι σ P) (s : AssocSettings τ) (ev : Evaluator ι σ τ P)
    (Q : τ → List (Obj ι σ P × Obj ι σ P)) : Prop :=
  ∀ t ∈ s.thresholds, (Q t).Nodup ∧ ∀ d g, (d, g) ∈ Q t ↔ MatchedAt sub gt ev t d g

/-- The errors of all (threshold, matched pair) combinations. -/
def errors (s : AssocSettings τ) (Q : τ → List (Obj ι σ P × Obj ι σ P))
    (F : Obj ι σ P → Obj ι σ P → K) : List K :=
  s.thresholds.flatMap (fun t => (Q t).map (fun q => F q.1 q.2))

theorem pairs_perm (h : Evaluator.build sim sub gt s = .ok ev) (hs : WellKeyed sub) (hg : WellKeyed gt)
    (F : Obj ι σ P → Obj ι σ P → K) {Q : τ → List (Obj ι σ P × Obj ι σ P)} (hQ : Lists sub gt s ev Q) :
    (ev.settings.thresholds.flatMap (fun t =>
        (pairsOf sub gt (assocAt ev.agnostic t).values).map (fun q => F q.1 q.2))).Perm (errors s Q F) := by
  obtain ⟨_, _, hsub, hgt, _, hset⟩ := build_ok h
  have hth : ev.settings.thresholds.Perm s.thresholds := by
    rw [hset]; exact List.perm_insertionSort _ _
  unfold errors
  refine (List.Perm.flatMap_right _ hth).trans ?_
  apply List.Perm.flatMap_left
  intro t ht
  apply List.Perm.map
  obtain ⟨h1, h2⟩ := hQ t ht
  rw [List.perm_ext_iff_of_nodup (List.Nodup.of_map _ (pairsOf_fst h hs hg ht)) h1]
  rintro ⟨d, g⟩
  rw [mem_pairsOf h hs hg ht, h2, matchedAt_iff h ht]

theorem loop_value (h : Evaluator.build sim sub gt s = .ok ev) (hs : WellKeyed sub) (hg : WellKeyed gt)
    {compute : ι → ι → Except PyErr ℝ} {F : Obj ι σ P → Obj ι σ P → ℝ}
    (hF : ∀ t ∈ s.thresholds, ∀ d g, Matched sub.values gt.values (assocAt ev.agnostic t) d g →
      compute d.id g.id = .ok (F d g))
    {Q : τ → List (Obj ι σ P × Obj ι σ P)} (hQ : Lists sub gt s ev Q) :
    (errors s Q F = [] → rmsLoop compute ev = .ok none) ∧
    (errors s Q F ≠ [] → rmsLoop compute ev = .ok (some ((errors s Q F).sum / (errors s Q F).length))) := by
  have hp := pairs_perm h hs hg F hQ
  rw [rmsLoop_eq h hs hg hF]
  simp only [hp.length_eq]
  constructor
  · intro he; rw [he]; simp
  · intro he
    rw [if_pos (List.length_pos_iff.2 he)]
    unfold meanR
    rw [hp.sum_eq, hp.length_eq]

theorem errors_eq_nil {Q : τ → List (Obj ι σ P × Obj ι σ P)}
    (hQ : Lists sub gt s ev Q) (F : Obj ι σ P → Obj ι σ P → K) :
    errors s Q F = [] ↔ ∀ t ∈ s.thresholds, ∀ d g, ¬ MatchedAt sub gt ev t d g := by
  unfold errors
  simp only [List.flatMap_eq_nil_iff, List.map_eq_nil_iff]
  constructor
  · intro h t ht d g hm
    have := ((hQ t ht).2 d g).2 hm
    rw [h t ht] at this
    exact absurd this (by simp)
  · intro h t ht
    rw [List.eq_nil_iff_forall_not_mem]
    rintro ⟨d, g⟩ hm
    exact h t ht d g (((hQ t ht).2 d g).1 hm)

theorem mem_errors {Q : τ → List (Obj ι σ P × Obj ι σ P)}
    (hQ : Lists sub gt s ev Q) {F : Obj ι σ P → Obj ι σ P → K} {x : K} :
    x ∈ errors s Q F ↔ ∃ t ∈ s.thresholds, ∃ d g, MatchedAt sub gt ev t d g ∧ x = F d g := by
  unfold errors
  simp only [List.mem_flatMap, List.mem_map]
  constructor
  · rintro ⟨t, ht, ⟨d, g⟩, hq, rfl⟩
    exact ⟨t, ht, d, g, ((hQ t ht).2 d g).1 hq, rfl⟩
  · rintro ⟨t, ht, d, g, hm, rfl⟩
    exact ⟨t, ht, (d, g), ((hQ t ht).2 d g).2 hm, rfl⟩

/-- The matched pairs can be listed. -/
theorem exists_lists (h : Evaluator.build sim sub gt s = .ok ev) (hs : WellKeyed sub) (hg : WellKeyed gt) :
    ∃ Q, Lists sub gt s ev Q :=
  ⟨fun t => pairsOf sub gt (assocAt ev.agnostic t).values, fun t ht =>
    ⟨List.Nodup.of_map _ (pairsOf_fst h hs hg ht), fun d g => by
      rw [mem_pairsOf h hs hg ht, matchedAt_iff h ht]⟩⟩

theorem wk_get {els : Elements ι σ P} (hw : WellKeyed els) {e : Obj ι σ P}
    (he : e ∈ els.values) : els.get? e.id = some e := by
  obtain ⟨k, hk⟩ := Dict.mem_values.1 he
  have := hw.2 _ hk
  simp only at this
  rw [← this]
  exact Dict.get?_of_mem hw.1 hk

variable {sim : Obj ι σ PointPayload → Obj ι σ PointPayload → τ} {sub gt : Elements ι σ PointPayload}
  {ev : Evaluator ι σ τ PointPayload}

/-- RMS distance between the points of two elements. -/
noncomputable def surfaceError (d g : Obj ι σ PointPayload) : ℝ :=
  pairRms (positions d.payload.posedPoints) (positions g.payload.posedPoints)

/-- **C34** `points_rmsssd` never raises: it is infinite when nothing is matched, else the mean, over all pairs of a
threshold and a correspondence at it, of the RMS distance of the two point sets; the cache is unobservable. -/
theorem C34_points_rms (hnn : IsNearest nn) (h : Evaluator.build sim sub gt s = .ok ev) (hs : WellKeyed sub)
    (hg : WellKeyed gt) {Q : τ → List (Obj ι σ PointPayload × Obj ι σ PointPayload)} (hQ : Lists sub gt s ev Q) :
    (errors s Q surfaceError = [] → pointsRmsssd nn ev = .ok none) ∧
    (errors s Q surfaceError ≠ [] → pointsRmsssd nn ev =
      .ok (some ((errors s Q surfaceError).sum / (errors s Q surfaceError).length))) := by
  obtain ⟨_, _, hsub, hgt, _, hset⟩ := build_ok h
  refine loop_value h hs hg ?_ hQ
  rintro t ht d g ⟨hd, hgm, -⟩
  rw [hsub, hgt, Dict.get_eq_ok.2 (wk_get hs hd), Dict.get_eq_ok.2 (wk_get hg hgm)]
  simp only [bind, Except.bind]
  exact pairPointsRms_eq hnn _ _

/-- **C34** infinite iff there is no correspondence, non-negative otherwise, and 0 iff all matched pairs have the
same points (or an empty side). -/
theorem C34_points_rms_values (hnn : IsNearest nn) (h : Evaluator.build sim sub gt s = .ok ev) (hs : WellKeyed sub)
    (hg : WellKeyed gt) :
    (pointsRmsssd nn ev = .ok none ↔ ∀ t ∈ s.thresholds, ∀ d g, ¬ MatchedAt sub gt ev t d g) ∧
    ((∃ t ∈ s.thresholds, ∃ d g, MatchedAt sub gt ev t d g) → ∃ x, pointsRmsssd nn ev = .ok (some x) ∧ 0 ≤ x ∧
      (x = 0 ↔ ∀ t ∈ s.thresholds, ∀ d g, MatchedAt sub gt ev t d g →
        d.payload.posedPoints = [] ∨ g.payload.posedPoints = [] ∨
        ∀ p, (∃ a ∈ d.payload.posedPoints, a.pos = p) ↔ ∃ b ∈ g.payload.posedPoints, b.pos = p)) := by
  obtain ⟨Q, hQ⟩ := exists_lists h hs hg
  obtain ⟨h1, h2⟩ := C34_points_rms hnn h hs hg hQ
  constructor
  · rw [← errors_eq_nil hQ surfaceError]
    by_cases he : errors s Q surfaceError = []
    · simp [he, h1 he]
    · simp [he, h2 he]
  · rintro ⟨t, ht, d, g, hm⟩
    have hne : errors s Q surfaceError ≠ [] := fun h0 => (errors_eq_nil hQ surfaceError).1 h0 t ht d g hm
    have hnn' : ∀ x ∈ errors s Q surfaceError, 0 ≤ x := by
      intro x hx
      obtain ⟨-, -, d, g, -, rfl⟩ := (mem_errors hQ).1 hx
      exact pairRms_nonneg _ _
    refine ⟨_, h2 hne, meanR_nonneg hnn', ?_⟩
    change meanR (errors s Q surfaceError) = 0 ↔ _
    rw [meanR_eq_zero hne hnn']
    have key : ∀ d g : Obj ι σ PointPayload, surfaceError d g = 0 ↔ (d.payload.posedPoints = [] ∨
        g.payload.posedPoints = [] ∨
        ∀ p, (∃ a ∈ d.payload.posedPoints, a.pos = p) ↔ ∃ b ∈ g.payload.posedPoints, b.pos = p) := by
      intro d g
      unfold surfaceError pairRms
      by_cases hd : d.payload.posedPoints = []
      · simp [hd, positions]
      by_cases hg : g.payload.posedPoints = []
      · simp [hg, positions]
      rw [if_neg (by simp [positions, hd, hg]), rms_eq_zero (by simp [positions, hd]) (by simp [positions, hg])]
      simp [hd, hg, positions]
    constructor
    · intro h0 t ht d g hm
      rw [← key]
      exact h0 _ ((mem_errors hQ).2 ⟨t, ht, d, g, hm, rfl⟩)
    · intro h0 x hx
      obtain ⟨t, ht, d, g, hm, rfl⟩ := (mem_errors hQ).1 hx
      exact (key d g).2 (h0 t ht d g hm)

/-! ### Colours -/

/-- Colour of the point of `B` the query returns for `p`. -/
def nearestColor (nn : List (Vec3 ℝ) → Vec3 ℝ → ℕ) (B : List ColorPoint) (p : ColorPoint) : Vec3 ℝ :=
  (B[nn (positions B) p.pos]?.map ColorPoint.color).getD 0

/-- RMS colour difference to the nearest points. -/
noncomputable def colorRms (nn : List (Vec3 ℝ) → Vec3 ℝ → ℕ) (A B : List ColorPoint) : ℝ :=
  Real.sqrt (((A.map (fun p => (p.color - nearestColor nn B p).normSq)).sum +
    (B.map (fun q => (q.color - nearestColor nn A q).normSq)).sum) / (A.length + B.length))

theorem zipWith_map_self {α β γ : Type} (l : List α) (f g : α → β) (k : β → β → γ) :
    List.zipWith k (l.map f) (l.map g) = l.map (fun a => k (f a) (g a)) := by
  induction l with
  | nil => rfl
  | cons a l ih => simp [ih]

theorem pairColorRms_eq {A B : List ColorPoint} (hA : A ≠ []) (hB : B ≠ []) :
    pairColorRms nn A B = .ok (colorRms nn A B) := by
  unfold pairColorRms
  have hA' : positions A ≠ [] := by simp [positions, hA]
  have hB' : positions B ≠ [] := by simp [positions, hB]
  have e1 : rowDiff (A.map ColorPoint.color) (colorsAt B ((positions A).map (nn (positions B)))) =
      .ok (A.map (fun p => p.color - nearestColor nn B p)) := by
    unfold rowDiff colorsAt positions
    rw [if_pos (by simp), List.map_map, List.map_map, zipWith_map_self]
    rfl
  have e2 : rowDiff (B.map ColorPoint.color) (colorsAt A ((positions B).map (nn (positions A)))) =
      .ok (B.map (fun p => p.color - nearestColor nn A p)) := by
    unfold rowDiff colorsAt positions
    rw [if_pos (by simp), List.map_map, List.map_map, zipWith_map_self]
    rfl
  rw [nearestNeighbors_of_ne hA' hB']
  simp only [e1, e2, bind, Except.bind, List.length_map]
  have hl : 0 < A.length := List.length_pos_iff.2 hA
  rw [if_pos (by omega)]
  unfold colorRms
  simp only [List.map_map, Nat.cast_add]
  rfl

/-- **C34** the colour error is the mean of the per-pair colour errors, provided matched elements have points; infinite
iff nothing is matched, and never negative. -/
theorem C34_color_rms (h : Evaluator.build sim sub gt s = .ok ev) (hs : WellKeyed sub)
    (hg : WellKeyed gt) (hne : ∀ t ∈ s.thresholds, ∀ d g, MatchedAt sub gt ev t d g →
      d.payload.posedPoints ≠ [] ∧ g.payload.posedPoints ≠ [])
    {Q : τ → List (Obj ι σ PointPayload × Obj ι σ PointPayload)} (hQ : Lists sub gt s ev Q) :
    let E := errors s Q (fun d g => colorRms nn d.payload.posedPoints g.payload.posedPoints)
    (E = [] → colorRmsssd nn ev = .ok none) ∧ (E ≠ [] → colorRmsssd nn ev = .ok (some (E.sum / E.length)) ∧
      0 ≤ E.sum / E.length) ∧
    (E = [] ↔ ∀ t ∈ s.thresholds, ∀ d g, ¬ MatchedAt sub gt ev t d g) := by
  obtain ⟨_, _, hsub, hgt, _, hset⟩ := build_ok h
  intro E
  have hv := loop_value h hs hg (compute := fun detId gtId => do
    let d ← ev.submission.get detId
    let g ← ev.groundTruth.get gtId
    pairColorRms nn d.payload.posedPoints g.payload.posedPoints)
    (F := fun d g => colorRms nn d.payload.posedPoints g.payload.posedPoints) (by
      intro t ht d g hm
      obtain ⟨n1, n2⟩ := hne t ht d g ((matchedAt_iff h ht d g).2 hm)
      rw [hsub, hgt, Dict.get_eq_ok.2 (wk_get hs hm.1), Dict.get_eq_ok.2 (wk_get hg hm.2.1)]
      simp only [bind, Except.bind]
      exact pairColorRms_eq n1 n2) hQ
  refine ⟨hv.1, fun he => ⟨hv.2 he, ?_⟩, errors_eq_nil hQ _⟩
  apply meanR_nonneg
  intro x hx
  obtain ⟨-, -, d, g, -, rfl⟩ := (mem_errors hQ).1 hx
  exact Real.sqrt_nonneg _

/-- **C34** coinciding coloured point sets have colour error 0 (if a position determines a colour). -/
theorem C34_color_zero (hnn : IsNearest nn) {A B : List ColorPoint} (hA : A ≠ []) (hB : B ≠ [])
    (hs : ∀ p, p ∈ A ↔ p ∈ B) (hc : ∀ p ∈ A, ∀ q ∈ A, p.pos = q.pos → p.color = q.color) :
    pairColorRms nn A B = .ok 0 := by
  have key : ∀ {A B : List ColorPoint}, A ≠ [] → B ≠ [] → (∀ p, p ∈ A ↔ p ∈ B) →
      (∀ p ∈ A, ∀ q ∈ A, p.pos = q.pos → p.color = q.color) →
      ∀ p ∈ A, p.color - nearestColor nn B p = 0 := by
    intro A B hA hB hs hc p hp
    have hB' : positions B ≠ [] := by simp [positions, hB]
    obtain ⟨q, hq, hm⟩ := hnn (positions B) p.pos hB'
    have hpB : p.pos ∈ positions B := List.mem_map.2 ⟨p, (hs p).1 hp, rfl⟩
    have h0 := hm _ hpB
    have : pdist p.pos p.pos = 0 := by rw [pdist_eq, dist_self']
    rw [this] at h0
    have hpq : p.pos = q := by
      have h0' := le_antisymm h0 (by rw [pdist_eq]; exact dist_nonneg' _ _)
      unfold pdist at h0'
      rw [norm_eq_zero3] at h0'
      have hx := congrArg Vec3.x h0'
      have hy := congrArg Vec3.y h0'
      have hz := congrArg Vec3.z h0'
      simp at hx hy hz
      ext <;> linarith
    unfold positions at hq
    rw [List.getElem?_map] at hq
    unfold nearestColor
    rcases hb : B[nn (List.map ColorPoint.pos B) p.pos]? with _ | b
    · rw [hb] at hq; simp at hq
    · rw [hb] at hq
      simp at hq
      have hbm := (hs b).2 (List.mem_of_getElem? hb)
      change p.color - ((B[nn (List.map ColorPoint.pos B) p.pos]?.map ColorPoint.color).getD 0) = 0
      rw [hb]
      simp only [Option.map_some, Option.getD_some]
      rw [hc p hp b hbm (by rw [hpq, hq])]
      ext <;> simp
  rw [pairColorRms_eq hA hB]
  congr 1
  unfold colorRms
  have e1 : A.map (fun p => (p.color - nearestColor nn B p).normSq) = A.map (fun _ => (0 : ℝ)) := by
    apply List.map_congr_left
    intro p hp
    rw [key hA hB hs hc p hp]; simp [Vec3.normSq, Vec3.dot]
  have e2 : B.map (fun p => (p.color - nearestColor nn A p).normSq) = B.map (fun _ => (0 : ℝ)) := by
    apply List.map_congr_left
    intro p hp
    rw [key hB hA (fun p => (hs p).symm) (fun p hp q hq => hc p ((hs p).2 hp) q ((hs q).2 hq)) p hp]
    simp [Vec3.normSq, Vec3.dot]
  rw [e1, e2]; simp

/-- A finding about **C34**: if one of the matched clouds is empty and the other has two or more points, the colour
error is not 0 or infinite but a `ValueError` (numpy broadcasting). Only possible at thresholds `≤ 0`, since IoU with an
empty cloud is 0 (C30). -/
theorem C34_color_empty_raises (nn : List (Vec3 ℝ) → Vec3 ℝ → ℕ) (p q : ColorPoint) (A : List ColorPoint) :
    pairColorRms nn (p :: q :: A) [] = .error .valueError ∧
    pairColorRms nn [] (p :: q :: A) = .error .valueError := by
  constructor <;> simp [pairColorRms, nearestNeighbors, positions, rowDiff, colorsAt, bind, Except.bind]

/-! ### C77 -/

/-- **C77** (partial) if all matched ground truth elements are evaluated, the surface error is the mean over the
evaluated matched pairs.  Missing: the case of matched unevaluated elements, see `C77_false`. -/
theorem C77_all_evaluated_partial (hnn : IsNearest nn) (h : Evaluator.build sim sub gt s = .ok ev) (hs : WellKeyed sub)
    (hg : WellKeyed gt) (hev : ∀ t ∈ s.thresholds, ∀ d g, MatchedAt sub gt ev t d g → g.evaluated = true)
    {Q : τ → List (Obj ι σ PointPayload × Obj ι σ PointPayload)}
    (hQ : ∀ t ∈ s.thresholds, (Q t).Nodup ∧ ∀ d g, (d, g) ∈ Q t ↔ (MatchedAt sub gt ev t d g ∧ g.evaluated = true)) :
    (errors s Q surfaceError = [] → pointsRmsssd nn ev = .ok none) ∧
    (errors s Q surfaceError ≠ [] → pointsRmsssd nn ev =
      .ok (some ((errors s Q surfaceError).sum / (errors s Q surfaceError).length))) := by
  refine C34_points_rms hnn h hs hg (Q := Q) (fun t ht => ⟨(hQ t ht).1, fun d g => ?_⟩)
  rw [(hQ t ht).2 d g]
  exact ⟨fun h => h.1, fun hm => ⟨hm, hev t ht d g hm⟩⟩

end Loop

namespace PointsExample

/-- One element with one point, maybe unevaluated. -/
def el (e : Bool) (x : ℝ) : Obj ℕ ℕ PointPayload :=
  ⟨0, "lamp", 1, e, ⟨[⟨⟨x, 0, 0⟩, 0⟩], ⟨⟨x, 0, 0⟩, ⟨x, 0, 0⟩⟩⟩⟩

/-- A scene with one element. -/
def scene (e : Bool) (x : ℝ) : Elements ℕ ℕ PointPayload := [(0, el e x)]

/-- All elements are similar. -/
def simAll (_ _ : Obj ℕ ℕ PointPayload) : ℕ := 1

/-- One threshold. -/
def st : AssocSettings ℕ := ⟨[1], []⟩

/-- The evaluator. -/
def evOf (e : Bool) : Evaluator ℕ ℕ ℕ PointPayload :=
  ⟨st, scene true 0, scene e 1, [(0, [(0, ⟨0, 0, 1, 1, e⟩)])], [(1, [(0, ⟨0, 0, 1, 1, e⟩)])], []⟩

theorem build (e : Bool) : Evaluator.build simAll (scene true 0) (scene e 1) st = .ok (evOf e) := rfl

theorem wk (e : Bool) (x : ℝ) : WellKeyed (scene e x) := by
  unfold WellKeyed Dict.NodupKeys
  constructor
  · simp [scene, Dict.keys]
  · intro p hp
    simp [scene] at hp
    rw [hp]; rfl

theorem matched (e : Bool) : MatchedAt (scene true 0) (scene e 1) (evOf e) 1 (el true 0) (el e 1) :=
  ⟨_, rfl, by simp [scene, Dict.values], by simp [scene, Dict.values], _, rfl, rfl⟩

end PointsExample

open PointsExample in
/-- **C77 is false**: with no evaluated ground truth element at all (so pose error is infinite), the surface error
is still a positive number. -/
theorem C77_false (hnn : IsNearest nn) : ∃ (A B : Elements ℕ ℕ PointPayload) (E : Evaluator ℕ ℕ ℕ PointPayload) (x : ℝ),
    Evaluator.build simAll A B st = .ok E ∧ WellKeyed A ∧ WellKeyed B ∧ (∀ g ∈ B.values, g.evaluated = false) ∧
    pointsRmsssd nn E = .ok (some x) ∧ 0 < x := by
  obtain ⟨x, h1, h2, h3⟩ := (C34_points_rms_values hnn (build false) (wk _ _) (wk _ _)).2
    ⟨1, by simp [st], _, _, matched false⟩
  refine ⟨_, _, _, x, build false, wk _ _, wk _ _, by simp [scene, Dict.values, el], h1, lt_of_le_of_ne h2 ?_⟩
  intro h0
  rcases h3.1 h0.symm 1 (by simp [st]) _ _ (matched false) with h | h | h
  · simp [el] at h
  · simp [el] at h
  · have := (h ⟨0, 0, 0⟩).1 ⟨⟨⟨0, 0, 0⟩, 0⟩, by simp [el], rfl⟩
    obtain ⟨b, hb, hp⟩ := this
    simp [el] at hb
    subst hb
    have := congrArg Vec3.x hp
    simp at this

open PointsExample in
/-- The hypotheses of C34 are met: a matched pair with different points. -/
example (hnn : IsNearest nn) : ∃ x, pointsRmsssd nn (evOf true) = .ok (some x) ∧ 0 ≤ x := by
  obtain ⟨x, h1, h2, -⟩ := (C34_points_rms_values hnn (build true) (wk _ _) (wk _ _)).2
    ⟨1, by simp [st], _, _, matched true⟩
  exact ⟨x, h1, h2⟩

end Sumo
