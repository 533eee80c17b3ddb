import Verif.Spec.Track
import Verif.Lemmas.TrackBuild
import Verif.Props.Perceptual
import Verif.Props.Points

/-!
# Scores of a copy of the ground truth
-/

set_option linter.unusedSectionVars false

namespace Sumo
namespace Track
open AssocSpec ApSpec RotSpec

variable {ι σ τ P Q : Type} [DecidableEq ι] [LinearOrder σ] [LinearOrder τ]

theorem BestIsSame.map {sim : Obj ι σ P → Obj ι σ P → τ} {sim' : Obj ι σ Q → Obj ι σ Q → τ} {ts : List τ}
    {ds gs : List (Obj ι σ P)} (f : P → Q) (hb : BestIsSame sim ts ds gs)
    (hsim : ∀ d ∈ ds, ∀ g ∈ gs, sim' (mapObj f d) (mapObj f g) = sim d g) :
    BestIsSame sim' ts (ds.map (mapObj f)) (gs.map (mapObj f)) := by
  refine ⟨fun i => ?_, ?_, ?_⟩
  · have := hb.ids i
    simpa using this
  · intro d hd g hg he t ht
    obtain ⟨d, hd', rfl⟩ := List.mem_map.1 hd
    obtain ⟨g, hg', rfl⟩ := List.mem_map.1 hg
    rw [hsim d hd' g hg']
    exact hb.enough d hd' g hg' he t ht
  · intro d hd g hg g' hg' he hne
    obtain ⟨d, hd1, rfl⟩ := List.mem_map.1 hd
    obtain ⟨g, hg1, rfl⟩ := List.mem_map.1 hg
    obtain ⟨g', hg2, rfl⟩ := List.mem_map.1 hg'
    rw [hsim d hd1 g hg1, hsim d hd1 g' hg2]
    exact hb.best d hd1 g hg1 g' hg2 he hne

theorem wk_get?_view {w : World ι σ} {sc : SceneObj ι} (h : WellKeyed (w.view id sc)) {r : Ref} (hr : r ∈ sc.values) :
    sc.get? (w.elem r).id = some r := by
  obtain ⟨k, hk⟩ := Dict.mem_values.1 hr
  have h2 := h.2 (k, mapObj id (w.elem r)) (List.mem_map.2 ⟨_, hk, rfl⟩)
  have hk' : k = (w.elem r).id := h2
  rw [← hk']
  refine Dict.get?_of_mem ?_ hk
  have := h.1
  unfold World.view at this
  unfold Dict.NodupKeys Dict.keys at this ⊢
  rw [List.map_map] at this
  exact this

/-- Copied elements with the same id. -/
theorem IsCopy.elements {w : World ι σ} {sub gt : SceneObj ι} (hc : IsCopy w sub gt) (hs : WellKeyed (w.view id sub))
    (hg : WellKeyed (w.view id gt)) {r r' : Ref} (hr : r ∈ sub.values) (hr' : r' ∈ gt.values)
    (he : (w.elem r).id = (w.elem r').id) :
    (w.elem r).category = (w.elem r').category ∧ (w.elem r).evaluated = (w.elem r').evaluated ∧
    (w.elem r).payload.bounds = (w.elem r').payload.bounds ∧ (w.elem r).payload.pose = (w.elem r').payload.pose ∧
    (w.elem r).payload.symmetry = (w.elem r').payload.symmetry ∧ (w.elem r).payload.shape = (w.elem r').payload.shape :=
  hc.same _ r r' (wk_get?_view hs hr) (by rw [he]; exact wk_get?_view hg hr')

theorem IsCopy.ids {w : World ι σ} {sub gt : SceneObj ι} (hc : IsCopy w sub gt) (hs : WellKeyed (w.view id sub))
    (hg : WellKeyed (w.view id gt)) (i : ι) :
    (∃ d ∈ (w.view id sub).values, d.id = i) ↔ ∃ g ∈ (w.view id gt).values, g.id = i := by
  have key : ∀ {sc : SceneObj ι}, WellKeyed (w.view id sc) →
      ((∃ d ∈ (w.view id sc).values, d.id = i) ↔ (sc.get? i).isSome) := by
    intro sc h
    constructor
    · rintro ⟨d, hd, rfl⟩
      obtain ⟨r, hr, rfl⟩ := mem_values_view.1 hd
      rw [mapObj_id, wk_get?_view h hr]; rfl
    · intro hi
      obtain ⟨r, hr⟩ := Option.isSome_iff_exists.1 hi
      refine ⟨_, mem_values_view.2 ⟨r, Dict.mem_values.2 ⟨i, Dict.mem_of_get? hr⟩, rfl⟩, ?_⟩
      exact (h.2 (i, mapObj id (w.elem r)) (List.mem_map.2 ⟨_, Dict.mem_of_get? hr, rfl⟩)).symm
  rw [key hs, key hg, hc.keys]

variable {interVol : InterVol} {nn : List (Vec3 ℝ) → Vec3 ℝ → ℕ}

/-- The default thresholds. -/
noncomputable def defaultThresholds : List ℝ := linspace 0.25 0.75 11

theorem defaultThresholds_ne : defaultThresholds ≠ [] := by
  unfold defaultThresholds linspace
  simp

theorem mem_defaultThresholds {t : ℝ} (h : t ∈ defaultThresholds) : 0.25 ≤ t ∧ t ≤ 0.75 := by
  unfold defaultThresholds linspace at h
  obtain ⟨i, hi, rfl⟩ := List.mem_map.1 h
  rw [List.mem_range] at hi
  have h1 : (i : ℝ) ≤ 10 := by exact_mod_cast Nat.lt_succ_iff.1 hi
  have h0 : (0 : ℝ) ≤ i := Nat.cast_nonneg i
  norm_num
  linarith

theorem floor_mem_categories : "floor" ∈ defaultCategories := by decide

/-- All scores of a copy that is matched with itself. -/
theorem copy_core {argsort : List σ → List ℕ} (hsort : ∀ l, IsArgsort (argsort l) l)
    {draws : ℕ → ℕ → ℝ × ℝ} {kind : Kind} {w w1 : World ι σ} {sub gt : SceneObj ι}
    {settings : Option Ref} {e : Ev ι σ} (h : construct interVol nn draws kind w sub gt settings = (w1, .ok e))
    (hset : given w settings = defaultSettings) (hs : WellKeyed (w1.view id e.submission))
    (hg : WellKeyed (w1.view id e.groundTruth)) (hc : IsCopy w1 e.submission e.groundTruth)
    (hf : FitScene w1 e.groundTruth)
    (hb : BestIsSame (shapeSimilarity kind interVol nn 0.15) defaultThresholds (w1.view id e.submission).values
      (w1.view id e.groundTruth).values) :
    e.shapeScore argsort w1 = .ok (some ((w1.countEvaluated e.groundTruth : ℚ) /
      ((w1.countEvaluated e.groundTruth : ℚ) + epsilon))) ∧
    e.poseError w1 = .ok (some (0, 0)) ∧
    (∃ x, e.semanticsScore argsort w1 = .ok (some x) ∧ 1 / (1 + epsilon) ≤ x ∧ x < 1) ∧
    e.perceptualScore w1 = .ok (some 1) ∧
    (∀ t ∈ defaultThresholds, ∀ (f : Fields → PointPayload) (sim' : Obj ι σ PointPayload → Obj ι σ PointPayload → ℝ) ev,
      Evaluator.build sim' (w1.view f e.submission) (w1.view f e.groundTruth) ⟨defaultThresholds, defaultCategories⟩ = .ok ev →
      (∀ s, e.now w1 f s = { ev with settings := s }) →
      (∀ d g, MatchedAt (w1.view f e.submission) (w1.view f e.groundTruth) ev t d g ↔
        d ∈ (w1.view f e.submission).values ∧ g ∈ (w1.view f e.groundTruth).values ∧ d.id = g.id)) := by
  obtain ⟨ts, cats, thresh, h1, h2, h3, h4, h5, h6, h7, hbuild⟩ := construct_build h
  rw [hset] at h1 h2 h3 h4
  obtain ⟨rf, hrf, hrfc, hrfx, hrfz⟩ := hf.floor
  have hts : ts = defaultThresholds := by
    unfold defaultSettings at h1; simp only [Option.some.injEq] at h1; exact h1.symm
  have hcats : cats = defaultCategories := by
    unfold defaultSettings at h2; simp only [Option.some.injEq] at h2; exact h2.symm
  subst hts hcats
  obtain ⟨d0, hd0, -⟩ := (hc.ids hs hg (w1.elem rf).id).2 ⟨_, mem_values_view.2 ⟨rf, hrf, rfl⟩, rfl⟩
  have hne : (!e.submission.isEmpty && !e.groundTruth.isEmpty) = true := by
    rw [Bool.and_eq_true, Bool.not_eq_true', Bool.not_eq_true', List.isEmpty_eq_false_iff, List.isEmpty_eq_false_iff]
    constructor
    · intro h0; rw [h0] at hd0; simp [World.view, Dict.values] at hd0
    · intro h0; rw [h0] at hrf; simp [Dict.values] at hrf
  have hsimeq : (shapeSimilarity kind interVol nn thresh : Obj ι σ Fields → Obj ι σ Fields → ℝ) =
      shapeSimilarity kind interVol nn 0.15 := by
    rw [hne] at h3
    unfold overlap at h3
    cases kind with
    | bb => rfl
    | mesh =>
      simp only [if_true, key, defaultSettings, Except.ok.injEq] at h3
      rw [h3]
    | voxel =>
      simp only [if_true, key, defaultSettings, Except.ok.injEq] at h3
      rw [h3]
  rw [hsimeq] at hbuild
  have hcat : ∀ {P : Type} (f : Fields → P), ∀ d ∈ (w1.view f e.submission).values,
      ∀ g ∈ (w1.view f e.groundTruth).values, d.id = g.id → d.category = g.category := by
    intro P f d hd g hg' he
    obtain ⟨r, hr, rfl⟩ := mem_values_view.1 hd
    obtain ⟨r', hr', rfl⟩ := mem_values_view.1 hg'
    exact (hc.elements hs hg hr hr' he).1
  -- builds for every projection
  have hproj : ∀ {P : Type} (f : Fields → P), ∃ (sim' : Obj ι σ P → Obj ι σ P → ℝ) (ev : Evaluator ι σ ℝ P),
      Evaluator.build sim' (w1.view f e.submission) (w1.view f e.groundTruth) ⟨defaultThresholds, defaultCategories⟩ = .ok ev ∧
      (∀ s, e.now w1 f s = { ev with settings := s }) ∧
      BestIsSame sim' defaultThresholds (w1.view f e.submission).values (w1.view f e.groundTruth).values := by
    intro P f
    obtain ⟨sim', hsim'⟩ := exists_sim f hs hg (shapeSimilarity kind interVol nn 0.15)
    obtain ⟨ev, hev, hnow⟩ := hbuild f sim' (by
      intro d hd g hg'
      exact hsim' _ (mem_values_view.2 ⟨d, hd, rfl⟩) _ (mem_values_view.2 ⟨g, hg', rfl⟩))
    refine ⟨sim', ev, hev, hnow, ?_⟩
    have := BestIsSame.map f hb hsim'
    rw [values_view, values_view, List.map_map, List.map_map] at this
    rw [values_view, values_view]
    exact this
  have hnE : ∀ {P : Type} (f : Fields → P), nEvaluated (w1.view f e.groundTruth).values = w1.countEvaluated e.groundTruth := by
    intro P f
    unfold nEvaluated World.countEvaluated
    rw [values_view, List.filter_map, List.length_map]
    rfl
  have hrfe := (hf.floors rf hrf hrfc).1
  have hn0 : w1.countEvaluated e.groundTruth ≠ 0 := by
    unfold World.countEvaluated
    intro h0
    have : rf ∈ e.groundTruth.values.filter fun r => (w1.elem r).evaluated := List.mem_filter.2 ⟨hrf, hrfe⟩
    rw [List.length_eq_zero_iff.1 h0] at this
    simp at this
  have hthr : (e.settingsIn w1).thresholds = some (npSort defaultThresholds) := by
    rw [h4]; rfl
  have hct : (e.settingsIn w1).categories = some defaultCategories := by rw [h4]; rfl
  have hpc : (e.settingsIn w1).perceptual = some defaultPerceptual := by rw [h4]; rfl
  have hrc : (e.settingsIn w1).recallSamples = some (linspace 0 1 11) := by rw [h4]; rfl
  refine ⟨?_, ?_, ?_, ?_, ?_⟩
  · obtain ⟨sim', ev, hev, hnow, hb'⟩ := hproj id
    obtain ⟨-, -, -, -, -, hset'⟩ := build_ok hev
    unfold Ev.shapeScore
    have hsc := identity_shapeScore hsort hev hs hg hb' defaultThresholds_ne (by rw [hnE]; exact hn0)
    rw [hnE] at hsc
    have : ∀ rs, Sumo.shapeScore argsort { ev with settings := ⟨npSort defaultThresholds, []⟩ } rs =
        Sumo.shapeScore argsort ev rs := by
      intro rs
      unfold Sumo.shapeScore
      rw [hset']
    simp only [hthr, hrc, key, bind, Except.bind, hnow, this, hsc]
    split_ifs <;> simp only
  · obtain ⟨sim', ev, hev, hnow, hb'⟩ := hproj Fields.pay
    obtain ⟨-, -, -, -, -, hset'⟩ := build_ok hev
    have hws := wellKeyed_view hs Fields.pay
    have hwg := wellKeyed_view hg Fields.pay
    unfold Ev.poseError
    have hpe : Sumo.poseError { ev with settings := ⟨npSort defaultThresholds, []⟩ } = Sumo.poseError ev := by
      unfold Sumo.poseError
      rw [hset']
      rfl
    simp only [hthr, key, bind, Except.bind, hnow, hpe]
    have hmat := fun {t : ℝ} (ht : t ∈ defaultThresholds) d g =>
      (matchedAt_iff hev (t := t) ht d g).trans (identity_matched hev hws hwg hb' ht d g)
    refine C25_exact_pose_partial hev hws hwg ?_ ?_
    · obtain ⟨t, ht⟩ := List.exists_mem_of_ne_nil _ defaultThresholds_ne
      obtain ⟨d, hd, hid⟩ := (hb'.ids (w1.elem rf).id).2 ⟨_, mem_values_view.2 ⟨rf, hrf, rfl⟩, rfl⟩
      exact ⟨t, ht, d, mapObj Fields.pay (w1.elem rf), (hmat ht _ _).2 ⟨hd, mem_values_view.2 ⟨rf, hrf, rfl⟩, hid⟩, hrfe⟩
    · rintro t ht d g ⟨hm, -⟩
      obtain ⟨hd, hg', he⟩ := (hmat ht d g).1 hm
      obtain ⟨r, hr, rfl⟩ := mem_values_view.1 hd
      obtain ⟨r', hr', rfl⟩ := mem_values_view.1 hg'
      obtain ⟨-, -, -, hpo, -, -⟩ := hc.elements hs hg hr hr' he
      exact ⟨hpo, hf.fit r' hr'⟩
  · obtain ⟨sim', ev, hev, hnow, hb'⟩ := hproj id
    obtain ⟨-, -, -, -, -, hset'⟩ := build_ok hev
    unfold Ev.semanticsScore
    have : ({ ev with settings := ⟨npSort defaultThresholds, defaultCategories⟩ } : Evaluator ι σ ℝ Fields) = ev := by
      have h0 : (⟨npSort defaultThresholds, defaultCategories⟩ : AssocSettings ℝ) = ev.settings := hset'.symm
      rw [h0]
    simp only [hthr, hct, key, bind, Except.bind, hnow, this]
    refine identity_semanticsScore hsort hev hs hg hb' defaultThresholds_ne (hcat id) ⟨"floor", floor_mem_categories, ?_⟩
    unfold hasEvaluated
    rw [List.any_eq_true]
    refine ⟨_, mem_values_view.2 ⟨rf, hrf, rfl⟩, ?_⟩
    simp [hrfc, hrfe]
  · obtain ⟨sim', ev, hev, hnow, hb'⟩ := hproj Fields.pay
    obtain ⟨-, -, -, -, -, hset'⟩ := build_ok hev
    have hws := wellKeyed_view hs Fields.pay
    have hwg := wellKeyed_view hg Fields.pay
    have hmat := fun {t : ℝ} (ht : t ∈ defaultThresholds) d g =>
      (matchedAt_iff hev (t := t) ht d g).trans (identity_matched hev hws hwg hb' ht d g)
    have hpe : Sumo.perceptualScore defaultPerceptual { ev with settings := ⟨npSort defaultThresholds, []⟩ } =
        Sumo.perceptualScore defaultPerceptual ev := by
      unfold Sumo.perceptualScore
      rw [hset']
      rfl
    have hemp : (npSort defaultThresholds).isEmpty = false := by
      rw [List.isEmpty_eq_false_iff]
      obtain ⟨t, ht⟩ := List.exists_mem_of_ne_nil _ defaultThresholds_ne
      exact List.ne_nil_of_mem ((mem_npSort _ _).2 ht)
    unfold Ev.perceptualScore
    simp only [hthr, hpc, key, bind, Except.bind, hnow, hpe, hemp]
    refine C23_perfect_submission_default hev hws hwg defaultThresholds_ne ⟨?_, ?_, ?_, ?_⟩ ⟨?_, ?_⟩
    · intro t ht d hd
      obtain ⟨g, hg', hid⟩ := (hb'.ids d.id).1 ⟨d, hd, rfl⟩
      exact ⟨g, (hmat ht d g).2 ⟨hd, hg', hid.symm⟩⟩
    · intro t ht g hg' _
      obtain ⟨d, hd, hid⟩ := (hb'.ids g.id).2 ⟨g, hg', rfl⟩
      exact ⟨d, (hmat ht d g).2 ⟨hd, hg', hid⟩⟩
    · intro t ht d g hm
      obtain ⟨hd, hg', he⟩ := (hmat ht d g).1 hm
      obtain ⟨r, hr, rfl⟩ := mem_values_view.1 hd
      obtain ⟨r', hr', rfl⟩ := mem_values_view.1 hg'
      obtain ⟨a1, -, a3, a4, -, -⟩ := hc.elements hs hg hr hr' he
      exact ⟨a1, a3, congrArg Pose3.t a4⟩
    · intro g hg' hfl
      obtain ⟨r', hr', rfl⟩ := mem_values_view.1 hg'
      exact (hf.floors r' hr' hfl).1
    · intro g hg' hfl
      obtain ⟨r', hr', rfl⟩ := mem_values_view.1 hg'
      exact (hf.floors r' hr' hfl).2
    · exact ⟨_, mem_values_view.2 ⟨rf, hrf, rfl⟩, hrfc, hrfe, hrfx, hrfz⟩
  · intro t ht f sim' ev hev hnow d g
    obtain ⟨sim'', ev'', hev'', hnow'', hb''⟩ := hproj f
    have hsame : ev''.agnostic = ev.agnostic := by
      have := (hnow ev.settings).symm.trans (hnow'' ev.settings)
      exact (congrArg Evaluator.agnostic this).symm
    rw [matchedAt_iff hev ht, ← hsame, identity_matched hev'' (wellKeyed_view hs f) (wellKeyed_view hg f) hb'' ht]

end Track
end Sumo
