import Verif.Lemmas.TrackWitness

/-!
# Mesh evaluators are not repeatable (C108, C111)
-/

namespace Sumo
namespace Track
open AssocSpec PointSpec RotSpec

variable {nn : List (Vec3 ℝ) → Vec3 ℝ → ℕ}

/-- Random numbers of which all but those for the first element are 0. -/
noncomputable def firstDraw (x : ℝ) : ℕ → ℕ → ℝ × ℝ := fun k _ => if k = 0 then (x, 0) else (0, 0)

theorem firstDraw_bounds {x : ℝ} (h : 0 ≤ x ∧ x < 1) (k i : ℕ) :
    (0 ≤ (firstDraw x k i).1 ∧ (firstDraw x k i).1 < 1) ∧ 0 ≤ (firstDraw x k i).2 ∧ (firstDraw x k i).2 < 1 := by
  unfold firstDraw
  split_ifs
  · exact ⟨h, by norm_num⟩
  · norm_num

theorem thin_copy : IsCopy thinWorld thinSub thinGt := by
  refine ⟨?_, fun k r r' _ _ => ⟨rfl, rfl, rfl, rfl, rfl, rfl⟩⟩
  intro k
  simp only [thinSub, thinGt, Dict.get?]
  by_cases h : (7 : ℕ) = k <;> simp [h]

theorem thin_fit : FitScene thinWorld thinGt := by
  refine ⟨fun r _ => ⟨?_, ?_, Or.inl ?_⟩, fun r _ _ => ⟨rfl, ?_, ?_⟩, 1, by simp [thinGt, Dict.values], rfl, ?_, ?_⟩
  · exact isRotation_one
  · show ObjectSymmetry.mk? _ _ _ = _
    rfl
  · intro axis
    fin_cases axis <;> simp [thinWorld, thinElement, symAbout]
  all_goals simp [thinWorld, thinElement]

theorem thinSub_values : Dict.values thinSub = [0] := rfl

theorem thinGt_values : Dict.values thinGt = [1] := rfl

theorem bbox_single (p : Vec3 ℝ) : bboxOfPoints [p] = ⟨p, p⟩ := by
  rw [bboxOfPoints_cons]
  rfl

theorem defaultSettings_sorted : defaultSettings.sorted = defaultSettings := by
  have : npSort defaultThresholds = defaultThresholds := by
    unfold npSort
    apply List.Pairwise.insertionSort_eq
    unfold defaultThresholds linspace
    rw [List.pairwise_map]
    refine List.pairwise_lt_range.imp ?_
    intro a b hab
    have : (a : ℝ) ≤ b := by exact_mod_cast hab.le
    norm_num
    linarith
  unfold Settings.sorted
  show ({ defaultSettings with thresholds := some (npSort defaultThresholds) } : Settings) = _
  rw [this]
  rfl

/-- The evaluator on the thin triangles, when the two points drawn are the same. -/
theorem thin_same (hnn : IsNearest nn) (interVol : InterVol) {w1 : World ℕ ℕ} {p : ColorPoint}
    (h0 : (w1.elem 0).payload.points = ⟨[p], bboxOfPoints [p.pos]⟩)
    (h1 : (w1.elem 1).payload.points = ⟨[p], bboxOfPoints [p.pos]⟩) :
    shapeSimilarity .mesh interVol nn 0.15 (w1.elem 0) (w1.elem 1) = 1 := by
  show pointSimilarity nn 0.15 (mapObj Fields.points (w1.elem 0)) (mapObj Fields.points (w1.elem 1)) = 1
  unfold pointSimilarity
  simp only [mapObj_payload, h0, h1]
  refine C30_self hnn (by simp [positions]) (by norm_num) ?_
  rw [bbox_single]
  exact ⟨le_refl _, le_refl _, le_refl _⟩

/-- And when they are far from each other. -/
theorem thin_apart (interVol : InterVol) {w1 : World ℕ ℕ} {p q : ColorPoint}
    (h0 : (w1.elem 0).payload.points = ⟨[p], bboxOfPoints [p.pos]⟩)
    (h1 : (w1.elem 1).payload.points = ⟨[q], bboxOfPoints [q.pos]⟩) (hx : q.pos.x + 0.15 < p.pos.x) :
    shapeSimilarity .mesh interVol nn 0.15 (w1.elem 0) (w1.elem 1) = 0 := by
  show pointSimilarity nn 0.15 (mapObj Fields.points (w1.elem 0)) (mapObj Fields.points (w1.elem 1)) = 0
  unfold pointSimilarity
  simp only [mapObj_payload, h0, h1, bbox_single]
  unfold pointsIou
  rw [if_pos]
  left; left
  exact hx

theorem thin_overlap {w : World ℕ ℕ} (hd : given w (some 0) = defaultSettings) {thresh : ℝ} {e : Ev ℕ ℕ}
    (hsub : e.submission = thinSub) (hgt : e.groundTruth = thinGt)
    (h : overlap .mesh (given w (some 0)) (!e.submission.isEmpty && !e.groundTruth.isEmpty) = .ok thresh) :
    thresh = 0.15 := by
  rw [hsub, hgt, hd] at h
  simp only [overlap, thinSub, thinGt, key, defaultSettings, List.isEmpty_cons, Bool.not_false, Bool.and_self, if_true,
    Except.ok.injEq] at h
  exact h.symm

/-- **C108** is false of mesh evaluators: an evaluator whose surface error is 0 reports another one after a second evaluator has
been constructed for the same two scenes with the same settings, although nothing was changed by the caller.  (The second
constructor overwrites the points of the elements with points it draws anew; the associations of the first stay.) -/
theorem C108_false (hnn : IsNearest nn) (interVol : InterVol) :
    ∃ (draws draws' : ℕ → ℕ → ℝ × ℝ) (w w1 : World ℕ ℕ) (sub gt : SceneObj ℕ) (e : Ev ℕ ℕ) (x : ℝ),
      (∀ k i, (0 ≤ (draws k i).1 ∧ (draws k i).1 < 1) ∧ 0 ≤ (draws k i).2 ∧ (draws k i).2 < 1) ∧
      (∀ k i, (0 ≤ (draws' k i).1 ∧ (draws' k i).1 < 1) ∧ 0 ≤ (draws' k i).2 ∧ (draws' k i).2 < 1) ∧
      construct interVol nn draws .mesh w sub gt (some 0) = (w1, .ok e) ∧
      (∃ w2 e2, construct interVol nn draws' .mesh w1 sub gt (some 0) = (w2, .ok e2)) ∧
      e.rmsPoints nn w1 = .ok (some 0) ∧
      e.rmsPoints nn (afterCalls interVol nn w1 [⟨.mesh, draws', sub, gt, some 0⟩]) = .ok (some x) ∧ x ≠ 0 := by
  obtain ⟨w1, e, hc, hst1, hsub, hgt, h0, h1⟩ := thin_construct interVol nn (firstDraw 0) thinWorld (SameStatic.refl _) rfl
  have hsorted : given w1 (some 0) = defaultSettings := by
    have := construct_dict interVol nn (firstDraw 0) .mesh thinWorld thinSub thinGt (some 0) 0
    rw [hc] at this
    rcases this with h | h
    · exact h
    · exact h.trans defaultSettings_sorted
  obtain ⟨w2, e2, hc2, hst2, -, -, h20, h21⟩ := thin_construct interVol nn (firstDraw 0.81) w1 hst1 hsorted
  obtain ⟨hk1, hk2⟩ := thin_wellKeyed w1 hst1
  obtain ⟨hk3, hk4⟩ := thin_wellKeyed w2 hst2
  obtain ⟨ts, cats, thresh, b1, b2, b3, b4, -, -, -, hbuild⟩ := construct_build hc
  have hth := thin_overlap rfl hsub hgt b3
  subst hth
  have hsim : ∀ d ∈ e.submission.values, ∀ g ∈ e.groundTruth.values,
      (1 : ℝ) = shapeSimilarity .mesh interVol nn 0.15 (w1.elem d) (w1.elem g) := by
    rw [hsub, hgt]
    intro d hd g hg
    simp only [thinSub, thinGt, Dict.values, List.map_cons, List.map_nil, List.mem_singleton] at hd hg
    subst hd hg
    exact (thin_same hnn interVol h0 h1).symm
  have hts : ts = defaultThresholds := by
    have : some ts = some defaultThresholds := b1.symm.trans rfl
    injection this
  subst hts
  have hset1 : (e.settingsIn w1).thresholds = some (npSort defaultThresholds) := by rw [b4]; rfl
  -- any world that differs only in the points
  have main : ∀ w', SameStatic thinWorld w' → e.settingsIn w' = e.settingsIn w1 → ∃ x, e.rmsPoints nn w' = .ok (some x) ∧
      (x = 0 ↔ (w'.elem 0).payload.points.posedPoints = [] ∨ (w'.elem 1).payload.points.posedPoints = [] ∨
        ∀ p, (∃ a ∈ (w'.elem 0).payload.points.posedPoints, a.pos = p) ↔
          ∃ b ∈ (w'.elem 1).payload.points.posedPoints, b.pos = p) := by
    intro w' hst' hset'
    obtain ⟨hw1, hw2⟩ := thin_wellKeyed w' hst'
    have hws := wellKeyed_view hw1 Fields.points
    have hwg := wellKeyed_view hw2 Fields.points
    -- the same associations with the points of `w'`
    obtain ⟨ev1, hev1, hnow1⟩ := hbuild (fun _ => ()) (fun _ _ => 1) hsim
    obtain ⟨ev, hev⟩ := build_succeeds (fun _ _ => (1 : ℝ)) hws hwg ⟨defaultThresholds, cats⟩
    have hev' := build_map (fun _ => ()) (sim' := fun _ _ => (1 : ℝ)) ⟨defaultThresholds, cats⟩ (fun _ _ _ _ => rfl) hev
    have hview : ∀ sc, mapEls (fun _ => ()) (w'.view Fields.points sc) = w1.view (fun _ => ()) sc := by
      intro sc
      unfold mapEls World.view
      rw [List.map_map]
      refine List.map_congr_left fun q _ => ?_
      have a := (hst' q.2).trans (hst1 q.2).symm
      have b := congrArg (mapObj fun _ => ()) a
      exact congrArg (Prod.mk q.1) b
    rw [hview, hview, ← hsub, ← hgt, hev1, Except.ok.injEq] at hev'
    have hag : e.agnostic = ev.agnostic := by
      have h1 := congrArg Evaluator.agnostic (hnow1 ev1.settings)
      have h2 := congrArg Evaluator.agnostic hev'
      exact h1.trans h2
    obtain ⟨-, -, b3', b4', -, b6'⟩ := build_ok hev
    have hrms : e.rmsPoints nn w' = pointsRmsssd nn ev := by
      unfold Ev.rmsPoints
      rw [hset', hset1]
      simp only [key, bind, Except.bind]
      unfold pointsRmsssd rmsLoop Ev.now
      rw [b3', b4', b6', hag, hsub, hgt]
    have hm : ∀ t ∈ defaultThresholds, ∀ d g, MatchedAt (w'.view Fields.points thinSub) (w'.view Fields.points thinGt) ev t d g ↔
        d = mapObj Fields.points (w'.elem 0) ∧ g = mapObj Fields.points (w'.elem 1) := by
      intro t ht d g
      rw [matchedAt_iff hev ht, identity_matched hev hws hwg ?_ ht]
      · constructor
        · rintro ⟨hd, hg, -⟩
          obtain ⟨r, hr, rfl⟩ := mem_values_view.1 hd
          obtain ⟨r', hr', rfl⟩ := mem_values_view.1 hg
          rw [thinSub_values] at hr
          rw [thinGt_values] at hr'
          rw [List.mem_singleton] at hr hr'
          rw [hr, hr']
          exact ⟨rfl, rfl⟩
        · rintro ⟨rfl, rfl⟩
          exact ⟨mem_values_view.2 ⟨0, by simp [thinSub_values], rfl⟩, mem_values_view.2 ⟨1, by simp [thinGt_values], rfl⟩,
            ((hst'.obj 0).1).trans ((hst'.obj 1).1).symm⟩
      · have hid : ∀ r, (w'.elem r).id = 7 := fun r => (hst'.obj r).1
        refine ⟨fun i => ?_, fun d _ g _ _ t ht => ?_, fun d hd g hg g' hg' he hne => ?_⟩
        · simp only [values_view, thinSub_values, thinGt_values, List.map_cons, List.map_nil, List.mem_singleton,
            exists_eq_left, mapObj_id, hid]
        · linarith [(mem_defaultThresholds ht).2]
        · obtain ⟨r, hr, rfl⟩ := mem_values_view.1 hd
          obtain ⟨r', hr', rfl⟩ := mem_values_view.1 hg'
          exact absurd ((hid r).trans (hid r').symm) hne
    obtain ⟨t0, ht0⟩ := List.exists_mem_of_ne_nil _ defaultThresholds_ne
    obtain ⟨x, hx, -, hx0⟩ := (C34_points_rms_values hnn hev hws hwg).2 ⟨t0, ht0, _, _, (hm t0 ht0 _ _).2 ⟨rfl, rfl⟩⟩
    refine ⟨x, hrms.trans hx, hx0.trans ⟨fun h => h t0 ht0 _ _ ((hm t0 ht0 _ _).2 ⟨rfl, rfl⟩), ?_⟩⟩
    intro h t ht d g hdg
    obtain ⟨rfl, rfl⟩ := (hm t ht d g).1 hdg
    exact h
  have hset2 : e.settingsIn w2 = e.settingsIn w1 := by
    have := settingsIn_step (interVol := interVol) (nn := nn) (construct_settings hc)
      ⟨.mesh, firstDraw 0.81, thinSub, thinGt, some 0⟩
    dsimp only at this
    rw [hc2] at this
    exact this
  obtain ⟨x1, hx1, hz1⟩ := main w1 hst1 rfl
  obtain ⟨x2, hx2, hz2⟩ := main w2 hst2 hset2
  refine ⟨firstDraw 0, firstDraw 0.81, thinWorld, w1, thinSub, thinGt, e, x2, firstDraw_bounds (by norm_num),
    firstDraw_bounds (by norm_num), hc, ⟨w2, e2, hc2⟩, ?_, ?_, ?_⟩
  · rw [hx1, hz1.2]
    right; right
    rw [h0, h1]
    intro p
    rfl
  · show e.rmsPoints nn (construct interVol nn (firstDraw 0.81) .mesh w1 thinSub thinGt (some 0)).1 = _
    rw [hc2]
    exact hx2
  · intro hx
    have := hz2.1 hx
    rw [h20, h21] at this
    have e0 : firstDraw 0.81 0 0 = (0.81, 0) := rfl
    have e1 : firstDraw 0.81 1 0 = (0, 0) := rfl
    simp only [e0, e1, List.cons_ne_nil, false_or, List.mem_singleton, exists_eq_left, thinPoint_far, thinPoint_start] at this
    have := congrArg Vec3.x ((this ⟨9, 0, 0⟩).1 rfl)
    norm_num at this

/-- **C111** is false of the mesh track: the submission is an exact copy of the ground truth scene (in which the floor has an area
and everything the metrics expect holds), the settings are the default ones, and yet, with some random numbers, nothing is
matched: the pose errors and the surface errors are infinite. -/
theorem C111_false (interVol : InterVol) :
    ∃ (draws : ℕ → ℕ → ℝ × ℝ) (w w1 : World ℕ ℕ) (sub gt : SceneObj ℕ) (e : Ev ℕ ℕ),
      (∀ k i, (0 ≤ (draws k i).1 ∧ (draws k i).1 < 1) ∧ 0 ≤ (draws k i).2 ∧ (draws k i).2 < 1) ∧
      WellKeyed (w.view id sub) ∧ WellKeyed (w.view id gt) ∧ IsCopy w sub gt ∧ FitScene w gt ∧
      given w (some 0) = defaultSettings ∧ construct interVol nn draws .mesh w sub gt (some 0) = (w1, .ok e) ∧
      e.poseError w1 = .ok none ∧ ∀ hnn : IsNearest nn, e.rmsPoints nn w1 = .ok none := by
  obtain ⟨w1, e, hc, hst1, hsub, hgt, h0, h1⟩ := thin_construct interVol nn (firstDraw 0.81) thinWorld (SameStatic.refl _) rfl
  obtain ⟨hk1, hk2⟩ := thin_wellKeyed w1 hst1
  obtain ⟨hk3, hk4⟩ := thin_wellKeyed thinWorld (SameStatic.refl _)
  obtain ⟨ts, cats, thresh, b1, b2, b3, b4, -, -, -, hbuild⟩ := construct_build hc
  have hth := thin_overlap rfl hsub hgt b3
  subst hth
  have hts : ts = defaultThresholds := by
    have : some ts = some defaultThresholds := b1.symm.trans rfl
    injection this
  subst hts
  have hsim : ∀ d ∈ e.submission.values, ∀ g ∈ e.groundTruth.values,
      (0 : ℝ) = shapeSimilarity .mesh interVol nn 0.15 (w1.elem d) (w1.elem g) := by
    rw [hsub, hgt]
    intro d hd g hg
    rw [thinSub_values, List.mem_singleton] at hd
    rw [thinGt_values, List.mem_singleton] at hg
    subst hd hg
    refine (thin_apart interVol h0 h1 ?_).symm
    have e0 : firstDraw 0.81 0 0 = (0.81, 0) := rfl
    have e1 : firstDraw 0.81 1 0 = (0, 0) := rfl
    rw [e0, e1, thinPoint_far, thinPoint_start]
    norm_num
  have hset1 : (e.settingsIn w1).thresholds = some (npSort defaultThresholds) := by rw [b4]; rfl
  have hno : ∀ {P : Type} (f : Fields → P) ev, Evaluator.build (fun _ _ => (0 : ℝ)) (w1.view f e.submission)
      (w1.view f e.groundTruth) ⟨defaultThresholds, cats⟩ = .ok ev → ∀ t ∈ defaultThresholds, ∀ d g,
      ¬ MatchedAt (w1.view f e.submission) (w1.view f e.groundTruth) ev t d g := by
    rintro P f ev hev t ht d g ⟨a, ha, -, -, c, hcc, -⟩
    obtain ⟨-, d', g', -, -, hle, -⟩ := C02_matches_are_real hev
      (wellKeyed_view (by rw [hsub]; exact hk1) f) (wellKeyed_view (by rw [hgt]; exact hk2) f) ha hcc
    linarith [(mem_defaultThresholds ht).1]
  refine ⟨firstDraw 0.81, thinWorld, w1, thinSub, thinGt, e, firstDraw_bounds (by norm_num), hk3, hk4, thin_copy, thin_fit, rfl,
    hc, ?_, fun hnn => ?_⟩
  · obtain ⟨ev, hev, hnow⟩ := hbuild Fields.pay (fun _ _ => 0) hsim
    obtain ⟨-, -, -, -, -, hset'⟩ := build_ok hev
    unfold Ev.poseError
    have hpe : Sumo.poseError { ev with settings := ⟨npSort defaultThresholds, []⟩ } = Sumo.poseError ev := by
      unfold Sumo.poseError
      rw [hset']
      rfl
    simp only [hset1, key, bind, Except.bind, hnow, hpe]
    rw [(C25_pose_error hev (wellKeyed_view (by rw [hsub]; exact hk1) _) (wellKeyed_view (by rw [hgt]; exact hk2) _)).1]
    rintro t ht d g ⟨hm, -⟩
    exact hno _ ev hev t ht d g hm
  · obtain ⟨ev, hev, hnow⟩ := hbuild Fields.points (fun _ _ => 0) hsim
    obtain ⟨-, -, -, -, -, hset'⟩ := build_ok hev
    unfold Ev.rmsPoints
    have hpe : pointsRmsssd nn { ev with settings := ⟨npSort defaultThresholds, []⟩ } = pointsRmsssd nn ev := by
      unfold pointsRmsssd rmsLoop
      rw [hset']
    simp only [hset1, key, bind, Except.bind, hnow, hpe]
    rw [(C34_points_rms_values hnn hev (wellKeyed_view (by rw [hsub]; exact hk1) _)
      (wellKeyed_view (by rw [hgt]; exact hk2) _)).1]
    exact hno _ ev hev

/-! ### Non-vacuity -/

/-- The hypotheses of `C108_scores_stable_partial` and `C108_rms_partial` can be met, with a later call on the same elements. -/
example (interVol : InterVol) : ∃ w1 e, construct interVol nn (firstDraw 0) .mesh thinWorld thinSub thinGt (some 0) = (w1, .ok e) ∧
    ∀ c ∈ [(⟨.voxel, firstDraw 0, thinSub, thinGt, none⟩ : Call ℕ)], c.kind = .mesh → ∀ r, e.uses r → ¬ c.touches r := by
  obtain ⟨w1, e, hc, -⟩ := thin_construct interVol nn (firstDraw 0) thinWorld (SameStatic.refl _) rfl
  refine ⟨w1, e, hc, ?_⟩
  intro c hc hk
  rw [List.mem_singleton] at hc
  subst hc
  cases hk

/-- Those of `C111_mesh_partial`: the same points are drawn for the element and its copy. -/
example (hnn : IsNearest nn) (interVol : InterVol) :
    ∃ w1 e, construct interVol nn (firstDraw 0) .mesh thinWorld thinSub thinGt (some 0) = (w1, .ok e) ∧
    ∀ r ∈ thinSub.values, ∀ r' ∈ thinGt.values, 0.75 ≤ iou (drawn w1 r) (drawn w1 r') 0.15 := by
  obtain ⟨w1, e, hc, -, -, -, h0, h1⟩ := thin_construct interVol nn (firstDraw 0) thinWorld (SameStatic.refl _) rfl
  refine ⟨w1, e, hc, ?_⟩
  intro r hr r' hr'
  rw [thinSub_values, List.mem_singleton] at hr
  rw [thinGt_values, List.mem_singleton] at hr'
  subst hr hr'
  have h := thin_same hnn interVol h0 h1
  have h' : pointsIou nn (drawn w1 0) (w1.elem 0).payload.points.posedBbox (drawn w1 1) (w1.elem 1).payload.points.posedBbox
      0.15 = 1 := h
  rw [C31_value hnn] at h'
  · rw [h']; norm_num
  · unfold drawn; rw [h0]; exact inside_bbox _
  · unfold drawn; rw [h1]; exact inside_bbox _

/-- A floor and a chair 20 m away, both with a box and a voxel: elements 0, 2 and 1, 3. -/
noncomputable def roomElement (r : Ref) : Obj ℕ ℕ Fields where
  id := 7 + r % 2
  category := if r % 2 = 0 then "floor" else "chair"
  score := 0
  evaluated := true
  payload := ⟨⟨⟨20 * (r % 2 : ℕ), 0, 0⟩, ⟨20 * (r % 2 : ℕ) + 1, 1, 1⟩⟩, Pose3.identity, ⟨.none, .none, .none⟩,
    .voxels ⟨1, ⟨20 * (r % 2 : ℕ), 0, 0⟩, [⟨0, 0, 0⟩], 1, 1⟩, none, none⟩

/-- The world with these elements. -/
noncomputable def roomWorld : World ℕ ℕ := ⟨roomElement, fun _ => defaultSettings⟩

theorem room_wellKeyed : WellKeyed (roomWorld.view id [(7, 0), (8, 1)]) ∧ WellKeyed (roomWorld.view id [(7, 2), (8, 3)]) := by
  constructor <;>
  · refine ⟨?_, ?_⟩
    · simp [World.view, Dict.NodupKeys, Dict.keys]
    · intro p hp
      simp only [World.view, List.map_cons, List.map_nil, List.mem_cons, List.not_mem_nil, or_false] at hp
      rcases hp with rfl | rfl <;> rfl

theorem room_copy : IsCopy roomWorld [(7, 0), (8, 1)] [(7, 2), (8, 3)] := by
  refine ⟨fun k => ?_, fun k r r' hr hr' => ?_⟩
  · simp only [Dict.get?]
    by_cases h : (7 : ℕ) = k
    · simp [h]
    · by_cases h' : (8 : ℕ) = k <;> simp [h, h']
  · have hmod : r % 2 = r' % 2 := by
      simp only [Dict.get?] at hr hr'
      by_cases h : (7 : ℕ) = k
      · simp only [h, if_true, Option.some.injEq] at hr hr'
        subst hr hr'; rfl
      · by_cases h' : (8 : ℕ) = k
        · simp only [h, h', if_true, if_false, Option.some.injEq] at hr hr'
          subst hr hr'; rfl
        · simp [h, h'] at hr
    simp only [roomWorld, roomElement, hmod, and_self]

theorem room_fit : FitScene roomWorld [(7, 2), (8, 3)] := by
  refine ⟨fun r _ => ⟨isRotation_one, ?_, Or.inl ?_⟩, fun r _ _ => ⟨rfl, ?_, ?_⟩, 2, by simp [Dict.values], rfl, ?_, ?_⟩
  · show ObjectSymmetry.mk? _ _ _ = _
    rfl
  · intro axis
    fin_cases axis <;> simp [roomWorld, roomElement, symAbout]
  all_goals simp [roomWorld, roomElement]

/-- The hypotheses of `C111_bb_partial` are met by this scene (`interVol` any function that measures solids). -/
theorem room_boxes (interVol : InterVol) : (∀ r ∈ Dict.values [(7, 2), (8, 3)], (roomWorld.elem r).payload.bounds.volume ≠ 0) ∧
    ∀ r ∈ Dict.values [(7, 2), (8, 3)], ∀ r' ∈ Dict.values [(7, 2), (8, 3)], (roomWorld.elem r).id ≠ (roomWorld.elem r').id →
      ∃ x < 1, bbSimilarity interVol (roomWorld.elem r).payload.boxed (roomWorld.elem r').payload.boxed = some x := by
  have key : ∀ r, posedBbox (roomWorld.elem r).payload.boxed =
      ⟨⟨20 * (r % 2 : ℕ), 0, 0⟩, ⟨20 * (r % 2 : ℕ) + 1, 1, 1⟩⟩ := by
    intro r
    have h1 : ∀ v : Vec3 ℝ, Mat3.mulVec (Pose3.identity (K := ℝ)).R v + (Pose3.identity (K := ℝ)).t = v := by
      intro v
      ext <;> simp [Pose3.identity, Rot3.identity, Mat3.one, Mat3.mulVec]
    have h2 : ∀ l : List (Vec3 ℝ), Pose3.identity.transformAllFrom l = l := by
      intro l
      unfold Pose3.transformAllFrom Rot3.applyAll
      rw [List.map_map]
      exact (List.map_congr_left (g := id) fun v _ => h1 v).trans (List.map_id _)
    show bboxOfPoints (Pose3.identity.transformAllFrom (roomWorld.elem r).payload.bounds.corners) = _
    rw [h2]
    simp only [roomWorld, roomElement, Box3d.corners, bboxOfPoints_cons, Box3d.amin, Box3d.amax, List.foldl_cons, List.foldl_nil]
    simp [Vec3.vmin, Vec3.vmax]
  constructor
  · intro r _
    simp [roomWorld, roomElement, Box3d.volume]
  · intro r hr r' hr' hne
    refine ⟨0, by norm_num, ?_⟩
    unfold bbSimilarity
    rw [key, key, if_pos]
    simp only [Dict.values, List.map_cons, List.map_nil, List.mem_cons, List.not_mem_nil, or_false] at hr hr'
    rcases hr with rfl | rfl <;> rcases hr' with rfl | rfl
    · exact absurd rfl hne
    · simp [bbReject]
    · simp [bbReject]
    · exact absurd rfl hne

/-- Those of `C111_voxel_partial` too. -/
example : (∀ r ∈ Dict.values [(7, 2), (8, 3)], ∃ g, (roomWorld.elem r).payload.shape = .voxels g ∧ g.voxels ≠ []) ∧
    ∀ r ∈ Dict.values [(7, 2), (8, 3)], ∀ r' ∈ Dict.values [(7, 2), (8, 3)], (roomWorld.elem r).id ≠ (roomWorld.elem r').id →
      iou (voxelCentres (roomWorld.elem r).payload) (voxelCentres (roomWorld.elem r').payload) 0.15 < 1 := by
  have key : ∀ r, voxelCentres (roomWorld.elem r).payload = [⟨20 * (r % 2 : ℕ) + 0.5, 0.5, 0.5⟩] := by
    intro r
    show Pose3.identity.transformAllFrom (VoxelGrid.voxelCenters (K := ℝ) ⟨1, ⟨20 * (r % 2 : ℕ), 0, 0⟩, [⟨0, 0, 0⟩], 1, 1⟩) = _
    simp [VoxelGrid.voxelCenters, VoxelGrid.voxelSize, Pose3.transformAllFrom, Rot3.applyAll, Pose3.identity, Rot3.identity,
      Mat3.one, Mat3.mulVec]
    ext <;> simp
  have far : ∀ a b : ℕ, a ≠ b → ¬ PointSpec.dist (⟨20 * a + 0.5, 0.5, 0.5⟩ : Vec3 ℝ) ⟨20 * b + 0.5, 0.5, 0.5⟩ ≤ 0.15 := by
    intro a b hab hle
    unfold PointSpec.dist at hle
    simp only [sub_self, ne_eq, OfNat.ofNat_ne_zero, not_false_eq_true, zero_pow, add_zero] at hle
    rw [Real.sqrt_sq_eq_abs] at hle
    have h1 : (1 : ℝ) ≤ |(a : ℝ) - b| := by
      have : (1 : ℤ) ≤ |(a : ℤ) - b| := Int.one_le_abs (by omega)
      exact_mod_cast this
    have h2 : (20 * (a : ℝ) + 0.5 - (20 * b + 0.5)) = 20 * ((a : ℝ) - b) := by ring
    rw [h2, abs_mul] at hle
    norm_num at hle
    linarith
  constructor
  · intro r _
    exact ⟨_, rfl, by simp⟩
  · intro r hr r' hr' hne
    have hmod : r % 2 ≠ r' % 2 := by
      intro h
      apply hne
      simp only [roomWorld, roomElement, h]
    rw [key, key]
    unfold iou near
    have f1 := far _ _ hmod
    have f2 := far _ _ (Ne.symm hmod)
    simp [f1, f2]

end Track
end Sumo
