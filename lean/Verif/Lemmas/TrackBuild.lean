import Verif.Lemmas.Track
import Verif.Lemmas.Identity

/-!
# Evaluator objects and the evaluators of `Assoc`
-/

set_option linter.unusedSectionVars false

namespace Sumo
namespace Track
open AssocSpec

variable {ι σ P : Type} [DecidableEq ι] [LinearOrder σ] {interVol : InterVol} {nn : List (Vec3 ℝ) → Vec3 ℝ → ℕ}

theorem values_view (w : World ι σ) (f : Fields → P) (sc : SceneObj ι) :
    (w.view f sc).values = sc.values.map fun r => mapObj f (w.elem r) := by
  unfold World.view Dict.values
  rw [List.map_map, List.map_map]
  rfl

theorem mem_values_view {w : World ι σ} {f : Fields → P} {sc : SceneObj ι} {o : Obj ι σ P} :
    o ∈ (w.view f sc).values ↔ ∃ r ∈ sc.values, o = mapObj f (w.elem r) := by
  rw [values_view, List.mem_map]
  constructor <;> rintro ⟨r, h, h'⟩ <;> exact ⟨r, h, h'.symm⟩

theorem mapEls_id (els : Elements ι σ P) : mapEls (id : P → P) els = els := by
  unfold mapEls
  have : (fun p : ι × Obj ι σ P => (p.1, mapObj id p.2)) = id := by funext p; rfl
  rw [this, List.map_id]

theorem wellKeyed_view {w : World ι σ} {sc : SceneObj ι} (h : WellKeyed (w.view id sc)) (f : Fields → P) :
    WellKeyed (w.view f sc) := by
  have := wellKeyed_mapEls f h
  rw [view_map] at this
  exact this

/-- What a successful constructor did. -/
theorem construct_build {draws : ℕ → ℕ → ℝ × ℝ} {kind : Kind} {w w1 : World ι σ} {sub gt : SceneObj ι}
    {settings : Option Ref} {e : Ev ι σ} (h : construct interVol nn draws kind w sub gt settings = (w1, .ok e)) :
    ∃ ts cats thresh, (given w settings).thresholds = some ts ∧ (given w settings).categories = some cats ∧
      overlap kind (given w settings) (!e.submission.isEmpty && !e.groundTruth.isEmpty) = .ok thresh ∧
      e.settingsIn w1 = (given w settings).sorted ∧ e.kind = kind ∧
      e.submission = (if kind = .voxel then gt else sub) ∧ e.groundTruth = (if kind = .voxel then sub else gt) ∧
      ∀ {Q : Type} (f : Fields → Q) (sim' : Obj ι σ Q → Obj ι σ Q → ℝ),
        (∀ d ∈ e.submission.values, ∀ g ∈ e.groundTruth.values,
          sim' (mapObj f (w1.elem d)) (mapObj f (w1.elem g)) = shapeSimilarity kind interVol nn thresh (w1.elem d) (w1.elem g)) →
        ∃ ev, Evaluator.build sim' (w1.view f e.submission) (w1.view f e.groundTruth) ⟨ts, cats⟩ = .ok ev ∧
          ∀ s, e.now w1 f s = { ev with settings := s } := by
  unfold construct at h
  have hd := poseAll_dict (poseStep kind (settings.map w.dict) draws) 0 (sub.values ++ gt.values) w
  rcases hp : poseAll (poseStep kind (settings.map w.dict) draws) 0 (sub.values ++ gt.values) w with ⟨w', _ | x⟩
  · rw [hp] at h hd
    dsimp only at h hd
    have hgiven : given w' settings = given w settings := by unfold given; rw [hd]
    have main : ∀ (a b : SceneObj ι), baseInit interVol nn kind w' a b settings = (w1, .ok e) →
        ∃ ts cats thresh, (given w settings).thresholds = some ts ∧ (given w settings).categories = some cats ∧
        overlap kind (given w settings) (!e.submission.isEmpty && !e.groundTruth.isEmpty) = .ok thresh ∧
        e.settingsIn w1 = (given w settings).sorted ∧ e.kind = kind ∧
        e.submission = a ∧ e.groundTruth = b ∧
        ∀ {Q : Type} (f : Fields → Q) (sim' : Obj ι σ Q → Obj ι σ Q → ℝ),
          (∀ d ∈ e.submission.values, ∀ g ∈ e.groundTruth.values,
            sim' (mapObj f (w1.elem d)) (mapObj f (w1.elem g)) =
              shapeSimilarity kind interVol nn thresh (w1.elem d) (w1.elem g)) →
          ∃ ev, Evaluator.build sim' (w1.view f e.submission) (w1.view f e.groundTruth) ⟨ts, cats⟩ = .ok ev ∧
            ∀ s, e.now w1 f s = { ev with settings := s } := by
      intro a b hb
      obtain ⟨ts, cats, thresh, ev, hev, h1, h2, h3, h4, h5, h6, h7, h8, h9, h10, h11, -⟩ := baseInit_ok interVol nn hb
      rw [hgiven] at h8 h9 h10 h11
      refine ⟨ts, cats, thresh, h8, h9, by rw [h2, h3]; exact h10, h11, h1, h2, h3, ?_⟩
      intro Q f sim' hsim
      rw [h2, h3] at hsim ⊢
      have hvw : ∀ sc, w'.view id sc = w1.view id sc := by
        intro sc; unfold World.view; rw [h7]
      rw [hvw, hvw] at hev
      have hsim' : ∀ d ∈ (w1.view id a).values, ∀ g ∈ (w1.view id b).values,
          sim' (mapObj f d) (mapObj f g) = shapeSimilarity kind interVol nn thresh d g := by
        intro d hd' g hg'
        obtain ⟨r, hr, rfl⟩ := mem_values_view.1 hd'
        obtain ⟨r', hr', rfl⟩ := mem_values_view.1 hg'
        exact hsim r hr r' hr'
      have hm := build_map f ⟨ts, cats⟩ hsim' hev
      rw [view_map, view_map] at hm
      refine ⟨_, hm, ?_⟩
      intro s
      obtain ⟨-, -, b3, b4, -, -⟩ := build_ok hev
      unfold Ev.now mapEv
      rw [h2, h3, h4, h5, h6, b3, b4, view_map, view_map]
      rfl
    by_cases hk : kind = .voxel
    · rw [if_pos hk] at h ⊢
      rw [if_pos hk]
      exact main _ _ h
    · rw [if_neg hk] at h ⊢
      rw [if_neg hk]
      exact main _ _ h
  · rw [hp] at h
    simp at h

/-- When a constructor succeeds. -/
theorem construct_succeeds {draws : ℕ → ℕ → ℝ × ℝ} {kind : Kind} {w : World ι σ} {sub gt : SceneObj ι}
    {settings : Option Ref} (hs : WellKeyed (w.view id sub)) (hg : WellKeyed (w.view id gt))
    (hp : (poseAll (poseStep kind (settings.map w.dict) draws) 0 (sub.values ++ gt.values) w).2 = none)
    {ts : List ℝ} (ht : (given w settings).thresholds = some ts)
    {cats : List String} (hc : (given w settings).categories = some cats)
    {thresh : ℝ} (ho : ∀ b, overlap kind (given w settings) b = .ok thresh ∨ b = false)
    (hnan : kind = .bb → ∀ d ∈ sub.values, ∀ g ∈ gt.values,
      bbSimilarity interVol (w.elem d).payload.boxed (w.elem g).payload.boxed ≠ none) :
    ∃ w1 e, construct interVol nn draws kind w sub gt settings = (w1, .ok e) := by
  have hd := poseAll_dict (poseStep kind (settings.map w.dict) draws) 0 (sub.values ++ gt.values) w
  have hst := poseAll_static (poseStep_static kind (settings.map w.dict) draws) 0 (sub.values ++ gt.values) w
  unfold construct
  rcases hpe : poseAll (poseStep kind (settings.map w.dict) draws) 0 (sub.values ++ gt.values) w with ⟨w', _ | x⟩
  swap
  · rw [hpe] at hp; simp at hp
  rw [hpe] at hd hst
  dsimp only at hd hst ⊢
  have hobj : ∀ r, (w'.elem r).id = (w.elem r).id := by
    intro r
    have h1 := congrArg Obj.id (hst r)
    exact h1
  have hbox : ∀ r, (w'.elem r).payload.boxed = (w.elem r).payload.boxed := by
    intro r
    have h1 := congrArg (fun o => (Obj.payload o).boxed) (hst r)
    exact h1
  have hwk : ∀ {sc}, WellKeyed (w.view id sc) → WellKeyed (w'.view id sc) := by
    intro sc h
    refine ⟨?_, ?_⟩
    · have := h.1
      unfold Dict.NodupKeys Dict.keys World.view at this ⊢
      rw [List.map_map] at this ⊢
      exact this
    · intro p hp'
      obtain ⟨q, hq, rfl⟩ := List.mem_map.1 hp'
      have := h.2 (q.1, mapObj id (w.elem q.2)) (List.mem_map.2 ⟨q, hq, rfl⟩)
      exact this.trans (hobj q.2).symm
  have main : ∀ a b : SceneObj ι, WellKeyed (w'.view id a) → WellKeyed (w'.view id b) →
      (kind = .bb → a = sub ∧ b = gt) → ∃ w1 e, baseInit interVol nn kind w' a b settings = (w1, .ok e) := by
    intro a b ha hb hab
    obtain ⟨th, hth⟩ : ∃ th, overlap kind { given w settings with thresholds := some (npSort ts) }
        (!a.isEmpty && !b.isEmpty) = .ok th := by
      rcases ho (!a.isEmpty && !b.isEmpty) with h | h
      · refine ⟨thresh, ?_⟩
        rw [← h]; unfold overlap; rfl
      · rw [h]
        exact ⟨0, by unfold overlap; cases kind <;> rfl⟩
    obtain ⟨ev, hev⟩ := build_succeeds (shapeSimilarity kind interVol nn th) ha hb ⟨ts, cats⟩
    have hno : ¬ (kind = .bb ∧ ∃ d ∈ a.values, ∃ g ∈ b.values,
        bbSimilarity interVol (w'.elem d).payload.boxed (w'.elem g).payload.boxed = none) := by
      rintro ⟨hk, d, hd', g, hg', hn⟩
      obtain ⟨rfl, rfl⟩ := hab hk
      rw [hbox, hbox] at hn
      exact hnan hk d hd' g hg' hn
    unfold baseInit
    cases settings with
    | none =>
      unfold given at ht hc hth
      dsimp only at ht hc hth ⊢
      simp only [ht, hc] at hth ⊢
      simp only [hth, key, bind, Except.bind, if_neg hno, hev]
      exact ⟨_, _, rfl⟩
    | some r =>
      unfold given at ht hc hth
      rw [← hd] at ht hc hth
      dsimp only at ht hc hth ⊢
      simp only [ht, hc] at hth ⊢
      simp only [hth, key, bind, Except.bind, if_neg hno, hev]
      exact ⟨_, _, rfl⟩
  by_cases hk : kind = .voxel
  · rw [if_pos hk]
    exact main _ _ (hwk hg) (hwk hs) (by intro h; rw [hk] at h; cases h)
  · rw [if_neg hk]
    exact main _ _ (hwk hs) (hwk hg) (fun _ => ⟨rfl, rfl⟩)

end Track
end Sumo
