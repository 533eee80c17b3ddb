import Verif.Props.TrackFalse

/-!
# Settings of evaluators, and `evaluate-one.py` (C109, C110, C112, C113)
-/

set_option linter.unusedSectionVars false

namespace Sumo
namespace Track
open AssocSpec

variable {ι σ : Type} [DecidableEq ι] [LinearOrder σ] {interVol : InterVol} {nn : List (Vec3 ℝ) → Vec3 ℝ → ℕ}

/-! ### C109: the optional argument -/

/-- The base class with no settings, and with a dict that has the default ones. -/
theorem baseInit_default {kind : Kind} {w : World ι σ} {r : Ref} (hd : w.dict r = defaultSettings) (sub gt : SceneObj ι) :
    ∃ res, baseInit interVol nn kind w sub gt none = (w, res) ∧
      baseInit interVol nn kind w sub gt (some r) =
        ({ w with dict := Function.update w.dict r defaultSettings.sorted },
          res.map fun e => { e with settings := .shared r }) ∧
      ∀ e, res = .ok e → e.settings = .own defaultSettings.sorted := by
  unfold baseInit
  simp only [hd]
  have hts : defaultSettings.thresholds = some defaultThresholds := rfl
  simp only [hts]
  refine ⟨_, rfl, ?_, ?_⟩
  · refine Prod.ext rfl ?_
    simp only [bind, Except.bind, pure, Except.pure]
    split
    · rfl
    · split
      · rfl
      · split
        · rfl
        · split <;> rfl
  · intro e he
    simp only [bind, Except.bind, pure, Except.pure] at he
    split at he
    · simp at he
    · split at he
      · simp at he
      · split at he
        · simp at he
        · split at he
          · simp at he
          · simp only [Except.ok.injEq] at he
            subst he
            rfl

/-- **C109** For the bounding box and the voxel track, leaving out the settings is the same as passing the default settings: the
same exception, or an evaluator with the same results. -/
theorem C109_defaults_partial {draws : ℕ → ℕ → ℝ × ℝ} {kind : Kind} (hk : kind ≠ .mesh) {w : World ι σ} {sub gt : SceneObj ι}
    {r : Ref} (hd : w.dict r = defaultSettings) :
    (∀ x, (construct interVol nn draws kind w sub gt none).2 = .error x →
      (construct interVol nn draws kind w sub gt (some r)).2 = .error x) ∧
    ∀ w1 e, construct interVol nn draws kind w sub gt none = (w1, .ok e) →
      ∃ w2 e2, construct interVol nn draws kind w sub gt (some r) = (w2, .ok e2) ∧
        ∀ argsort, evaluateAll argsort nn w2 e2 = evaluateAll argsort nn w1 e := by
  have hstep : ∀ a b, (poseStep kind a draws) = poseStep kind b draws := by
    intro a b
    cases kind with
    | bb => rfl
    | voxel => rfl
    | mesh => exact absurd rfl hk
  unfold construct
  rw [hstep (Option.map w.dict (some r)) (Option.map w.dict none)]
  have hdict := poseAll_dict (poseStep kind (Option.map w.dict none) draws) 0 (sub.values ++ gt.values) w
  rcases hw : poseAll (poseStep kind (Option.map w.dict none) draws) 0 (sub.values ++ gt.values) w with ⟨w', _ | x⟩
  swap
  · exact ⟨fun _ h => h, fun w1 e h => by simp at h⟩
  rw [hw] at hdict
  dsimp only at hdict ⊢
  have hd' : w'.dict r = defaultSettings := by rw [hdict]; exact hd
  have main : ∀ a b : SceneObj ι,
      (∀ x, (baseInit interVol nn kind w' a b none).2 = .error x → (baseInit interVol nn kind w' a b (some r)).2 = .error x) ∧
      ∀ w1 e, baseInit interVol nn kind w' a b none = (w1, .ok e) →
        ∃ w2 e2, baseInit interVol nn kind w' a b (some r) = (w2, .ok e2) ∧
          ∀ argsort, evaluateAll argsort nn w2 e2 = evaluateAll argsort nn w1 e := by
    intro a b
    obtain ⟨res, h1, h2, h3⟩ := baseInit_default (interVol := interVol) (nn := nn) (kind := kind) hd' a b
    rw [h1, h2]
    constructor
    · rintro x rfl
      rfl
    · intro w1 e h
      obtain ⟨rfl, rfl⟩ := Prod.mk.inj h
      refine ⟨_, _, rfl, ?_⟩
      intro argsort
      have hs := h3 e rfl
      have hset : Ev.settingsIn { w' with dict := Function.update w'.dict r defaultSettings.sorted }
          { e with settings := .shared r } = e.settingsIn w' := by
        unfold Ev.settingsIn
        simp [hs]
      unfold evaluateAll Ev.shapeScore Ev.poseError Ev.rmsPoints Ev.rmsColor Ev.semanticsScore Ev.perceptualScore
      rw [hset]
      rfl
  split_ifs
  · exact main _ _
  · exact main _ _

/-- **C109** is false of the mesh track: without settings the constructor fails as soon as there is an element. -/
theorem C109_false {draws : ℕ → ℕ → ℝ × ℝ} {w : World ι σ} {sub gt : SceneObj ι} (h : sub ≠ [] ∨ gt ≠ []) :
    construct interVol nn draws .mesh w sub gt none = (w, .error .typeError) := by
  unfold construct
  have : ∃ r rs, sub.values ++ gt.values = r :: rs := by
    cases sub with
    | cons p l => exact ⟨p.2, _, rfl⟩
    | nil =>
      cases gt with
      | cons p l => exact ⟨p.2, _, rfl⟩
      | nil => simp at h
  obtain ⟨r, rs, hr⟩ := this
  rw [hr]
  have : w.setFields r (w.elem r).payload = w := by
    unfold World.setFields
    have : ({ w.elem r with payload := (w.elem r).payload } : Obj ι σ Fields) = w.elem r := rfl
    rw [this, Function.update_eq_self]
  simp only [poseAll, poseStep, poseMesh, Option.map_none, this]

/-- With the default settings passed explicitly the same constructor works. -/
example (interVol : InterVol) : (∃ w1 e, construct interVol nn (firstDraw 0) .mesh thinWorld thinSub thinGt (some 0) = (w1, .ok e)) ∧
    (construct interVol nn (firstDraw 0) .mesh thinWorld thinSub thinGt none).2 = .error .typeError := by
  obtain ⟨w1, e, hc, -⟩ := thin_construct interVol nn (firstDraw 0) thinWorld (SameStatic.refl _) rfl
  refine ⟨⟨w1, e, hc⟩, ?_⟩
  rw [C109_false (Or.inl (by simp [thinSub]))]

/-- **C109** A settings dict without thresholds, without categories or without the overlap threshold of the track (with two
elements to compare) makes the constructor raise `KeyError`, if the elements could be posed; a dict without a density makes the
mesh constructor raise `KeyError`. -/
theorem C109_missing_keys {draws : ℕ → ℕ → ℝ × ℝ} {kind : Kind} {w : World ι σ} {sub gt : SceneObj ι} {r : Ref} :
    ((poseAll (poseStep kind (some (w.dict r)) draws) 0 (sub.values ++ gt.values) w).2 = none →
      ((w.dict r).thresholds = none ∨ (w.dict r).categories = none ∨
        (sub ≠ [] ∧ gt ≠ [] ∧ (kind = .mesh ∧ (w.dict r).meshOverlap = none ∨ kind = .voxel ∧ (w.dict r).voxelOverlap = none))) →
      (construct interVol nn draws kind w sub gt (some r)).2 = .error .keyError) ∧
    (kind = .mesh → (w.dict r).density = none → sub ≠ [] ∨ gt ≠ [] →
      (construct interVol nn draws kind w sub gt (some r)).2 = .error .keyError) := by
  constructor
  · intro hp hm
    unfold construct
    have hdict := poseAll_dict (poseStep kind (Option.map w.dict (some r)) draws) 0 (sub.values ++ gt.values) w
    have hp' : (poseAll (poseStep kind (Option.map w.dict (some r)) draws) 0 (sub.values ++ gt.values) w).2 = none := hp
    rcases hw : poseAll (poseStep kind (Option.map w.dict (some r)) draws) 0 (sub.values ++ gt.values) w with ⟨w', _ | x⟩
    swap
    · rw [hw] at hp'; simp at hp'
    rw [hw] at hdict
    dsimp only at hdict ⊢
    have main : ∀ a b : SceneObj ι, ((a ≠ [] ∧ b ≠ []) ↔ (sub ≠ [] ∧ gt ≠ [])) →
        (baseInit interVol nn kind w' a b (some r)).2 = .error .keyError := by
      intro a b hab
      unfold baseInit
      simp only [hdict]
      cases hts : (w.dict r).thresholds with
      | none => rfl
      | some ts =>
        dsimp only
        rcases hm with hm | hm | ⟨h1, h2, hm⟩
        · rw [hts] at hm; simp at hm
        · simp only [hm, bind, Except.bind]
          split
          · rename_i x hx
            unfold overlap at hx
            cases kind with
            | bb => simp at hx
            | mesh =>
              dsimp only at hx
              split_ifs at hx
              revert hx
              unfold key
              split <;> intro hx <;> simp at hx
              rw [hx]
            | voxel =>
              dsimp only at hx
              split_ifs at hx
              revert hx
              unfold key
              split <;> intro hx <;> simp at hx
              rw [hx]
          · rfl
        · obtain ⟨ha, hb⟩ := hab.2 ⟨h1, h2⟩
          have hab' : (!a.isEmpty && !b.isEmpty) = true := by
            rw [Bool.and_eq_true, Bool.not_eq_true', Bool.not_eq_true', List.isEmpty_eq_false_iff, List.isEmpty_eq_false_iff]
            exact ⟨ha, hb⟩
          rw [hab']
          rcases hm with ⟨rfl, hm⟩ | ⟨rfl, hm⟩
          · simp only [overlap, hm, key, bind, Except.bind, if_true]
          · simp only [overlap, hm, key, bind, Except.bind, if_true]
    split_ifs
    · exact main _ _ and_comm
    · exact main _ _ Iff.rfl
  · rintro rfl hden hne
    unfold construct
    have : ∃ r rs, sub.values ++ gt.values = r :: rs := by
      cases sub with
      | cons p l => exact ⟨p.2, _, rfl⟩
      | nil =>
        cases gt with
        | cons p l => exact ⟨p.2, _, rfl⟩
        | nil => simp at hne
    obtain ⟨r', rs, hr⟩ := this
    rw [hr]
    simp only [poseAll, poseStep, poseMesh, Option.map_some, hden]

/-! ### C110: documented defaults -/

/-- The values the documentation of the class gives for `thresholds` ("0.5 to 0.95 in 0.05 increments") and `recall_samples`
("0 to 1 in 0.01 increments"). -/
noncomputable def documentedThresholds : List ℝ := (List.range 10).map fun i : ℕ => 0.5 + 0.05 * (i : ℝ)
def documentedRecallSamples : List ℚ := (List.range 101).map fun i : ℕ => 0.01 * (i : ℚ)

/-- **C110** is false: neither default is the documented one. -/
theorem C110_false : defaultSettings.thresholds ≠ some documentedThresholds ∧
    defaultSettings.recallSamples ≠ some documentedRecallSamples := by
  constructor
  · intro h
    have h1 := congrArg (Option.map List.length) h
    simp [defaultSettings, linspace, documentedThresholds] at h1
  · intro h
    have h1 := congrArg (Option.map List.length) h
    simp [defaultSettings, linspace, documentedRecallSamples] at h1

/-- **C110** What the defaults are: the eleven thresholds 0.25, 0.30, …, 0.75 and the eleven recall samples 0, 0.1, …, 1, both in
increasing order, and 132 categories in alphabetical order but for `ATM`; all values the constructors and metrics look up are there. -/
theorem C110_partial :
    defaultSettings.thresholds = some ((List.range 11).map fun i : ℕ => 0.25 + 0.05 * (i : ℝ)) ∧
    defaultSettings.recallSamples = some ((List.range 11).map fun i : ℕ => 0.1 * (i : ℚ)) ∧
    (∃ c, defaultSettings.categories = some c ∧ c.length = 132 ∧ c.Nodup ∧ (c.erase "ATM").Pairwise (· < ·) ∧ "ATM" ∈ c ∧
      "floor" ∈ c ∧ "wall" ∈ c ∧ "ceiling" ∈ c) ∧
    defaultSettings.density.isSome ∧ defaultSettings.meshOverlap.isSome ∧ defaultSettings.voxelOverlap.isSome ∧
    defaultSettings.perceptual.isSome := by
  refine ⟨?_, ?_, ⟨_, rfl, ?_, ?_, ?_, ?_, ?_, ?_, ?_⟩, rfl, rfl, rfl, rfl⟩
  · unfold defaultSettings linspace
    refine congrArg some (List.map_congr_left fun i _ => ?_)
    norm_num
    ring
  · unfold defaultSettings linspace
    refine congrArg some (List.map_congr_left fun i _ => ?_)
    norm_num
    ring
  · rfl
  · set_option maxRecDepth 100000 in decide
  · set_option maxRecDepth 100000 in decide
  · decide
  · decide
  · decide
  · decide

/-! ### C112: the settings dict is shared -/

/-- **C112** What a constructor does to the caller's dict: the thresholds are sorted, everything else, and every other dict, is left
alone; without settings no dict changes. -/
theorem C112_sorted {draws : ℕ → ℕ → ℝ × ℝ} {kind : Kind} {w w1 : World ι σ} {sub gt : SceneObj ι} {settings : Option Ref}
    {e : Ev ι σ} (h : construct interVol nn draws kind w sub gt settings = (w1, .ok e)) (r : Ref) :
    (settings ≠ some r → w1.dict r = w.dict r) ∧
    (settings = some r → ∃ ts ts', (w.dict r).thresholds = some ts ∧ ts'.Perm ts ∧ ts'.Pairwise (· ≤ ·) ∧
      w1.dict r = { w.dict r with thresholds := some ts' }) := by
  have hdict := poseAll_dict (poseStep kind (settings.map w.dict) draws) 0 (sub.values ++ gt.values) w
  unfold construct at h
  rcases hp : poseAll (poseStep kind (settings.map w.dict) draws) 0 (sub.values ++ gt.values) w with ⟨w', _ | x⟩
  swap
  · rw [hp] at h; simp at h
  rw [hp] at h hdict
  dsimp only at h hdict
  have main : ∀ a b : SceneObj ι, baseInit interVol nn kind w' a b settings = (w1, .ok e) →
      (settings ≠ some r → w1.dict r = w.dict r) ∧
      (settings = some r → ∃ ts ts', (w.dict r).thresholds = some ts ∧ ts'.Perm ts ∧ ts'.Pairwise (· ≤ ·) ∧
        w1.dict r = { w.dict r with thresholds := some ts' }) := by
    intro a b h
    unfold baseInit at h
    cases settings with
    | none =>
      dsimp only at h
      split at h
      · simp at h
      · obtain ⟨rfl, -⟩ := Prod.mk.inj h
        exact ⟨fun _ => by rw [hdict], by simp⟩
    | some r' =>
      dsimp only at h
      split at h
      · simp at h
      · rename_i ts hts
        obtain ⟨rfl, -⟩ := Prod.mk.inj h
        constructor
        · intro hne
          have : r ≠ r' := fun hh => hne (by rw [hh])
          simp [Function.update_of_ne this, hdict]
        · intro hr
          obtain rfl := Option.some.inj hr
          refine ⟨ts, npSort ts, by rw [← hdict]; exact hts, List.perm_insertionSort _ _, pairwise_npSort _, ?_⟩
          simp [hdict]
  split_ifs at h
  · exact main _ _ h
  · exact main _ _ h

/-- **C112** An evaluator constructed without settings has a dict of its own: whatever happens to other dicts afterwards, its
results stay. -/
theorem C112_own_partial {draws : ℕ → ℕ → ℝ × ℝ} {kind : Kind} {w w1 : World ι σ} {sub gt : SceneObj ι} {e : Ev ι σ}
    (h : construct interVol nn draws kind w sub gt none = (w1, .ok e)) (argsort : List σ → List ℕ) (dict : Ref → Settings) :
    evaluateAll argsort nn { w1 with dict := dict } e = evaluateAll argsort nn w1 e := by
  have hs : ∃ s, e.settings = .own s := by
    unfold construct at h
    split at h
    · simp at h
    · split_ifs at h
      · exact (baseInit_ok interVol nn h).choose_spec.choose_spec.choose_spec.choose_spec.2.2.2.2.2.2.2.2.2.2.2.2
      · exact (baseInit_ok interVol nn h).choose_spec.choose_spec.choose_spec.choose_spec.2.2.2.2.2.2.2.2.2.2.2.2
  obtain ⟨s, hs⟩ := hs
  have hset : Ev.settingsIn { w1 with dict := dict } e = e.settingsIn w1 := by
    unfold Ev.settingsIn
    simp [hs]
  unfold evaluateAll Ev.shapeScore Ev.poseError Ev.rmsPoints Ev.rmsColor Ev.semanticsScore Ev.perceptualScore
  rw [hset]
  rfl

/-- **C112** is false of an evaluator constructed with the caller's dict: if the caller puts a new threshold into that dict
afterwards, then every evaluation raises `KeyError`. -/
theorem C112_false {draws : ℕ → ℕ → ℝ × ℝ} {kind : Kind} {w w1 : World ι σ} {sub gt : SceneObj ι} {r : Ref} {e : Ev ι σ}
    (h : construct interVol nn draws kind w sub gt (some r) = (w1, .ok e)) {ts : List ℝ} (hts : (w.dict r).thresholds = some ts)
    {t : ℝ} (ht : t ∉ ts) (s' : Settings) (hs' : s'.thresholds = some [t]) :
    Ev.poseError { w1 with dict := Function.update w1.dict r s' } e = .error .keyError := by
  have key' : e.settings = .shared r ∧ e.agnostic.get? t = none := by
    have hdict := poseAll_dict (poseStep kind (Option.map w.dict (some r)) draws) 0 (sub.values ++ gt.values) w
    unfold construct at h
    rcases hp : poseAll (poseStep kind (Option.map w.dict (some r)) draws) 0 (sub.values ++ gt.values) w with ⟨w', _ | x⟩
    swap
    · rw [hp] at h; simp at h
    rw [hp] at h hdict
    dsimp only at h hdict
    have main : ∀ a b : SceneObj ι, baseInit interVol nn kind w' a b (some r) = (w1, .ok e) →
        e.settings = .shared r ∧ e.agnostic.get? t = none := by
      intro a b h
      obtain ⟨ts', cats, thresh, ev, hb, -, -, -, -, hag, -, -, hts', -, -, -, hsh⟩ := baseInit_ok interVol nn h
      refine ⟨hsh, ?_⟩
      have : ts' = ts := by
        simp only [given, hdict] at hts'
        rw [hts] at hts'
        exact (Option.some.inj hts').symm
      subst this
      rw [hag]
      cases ha : ev.agnostic.get? t with
      | none => rfl
      | some a => exact absurd ((build_agnostic hb t a).1 ha).1 ht
    split_ifs at h
    · exact main _ _ h
    · exact main _ _ h
  obtain ⟨hsh, hag⟩ := key'
  have hset : Ev.settingsIn { w1 with dict := Function.update w1.dict r s' } e = s' := by
    unfold Ev.settingsIn
    simp [hsh]
  unfold Ev.poseError Sumo.poseError
  rw [hset, hs']
  simp [key, bind, Except.bind, Ev.now, Dict.get, hag]

/-- The hypotheses of the previous theorem are met by the two thin triangles and the default settings. -/
example (interVol : InterVol) : ∃ w1 e, construct interVol nn (firstDraw 0) .mesh thinWorld thinSub thinGt (some 0) = (w1, .ok e) ∧
    Ev.poseError { w1 with dict := Function.update w1.dict 0 { defaultSettings with thresholds := some [2] } } e =
      .error .keyError := by
  obtain ⟨w1, e, hc, -⟩ := thin_construct interVol nn (firstDraw 0) thinWorld (SameStatic.refl _) rfl
  refine ⟨w1, e, hc, C112_false hc rfl ?_ _ rfl⟩
  intro h
  obtain ⟨i, hi, he⟩ := List.mem_map.1 h
  have : (i : ℝ) ≤ 10 := by exact_mod_cast Nat.lt_succ_iff.1 (List.mem_range.1 hi)
  norm_num at he
  linarith

/-! ### C113: `evaluate-one.py` -/

/-- **C113** Scenes of different types are refused, and so is a type without an evaluator; nothing has been changed then. -/
theorem C113_refused (argsort : List σ → List ℕ) (draws : ℕ → ℕ → ℝ × ℝ) (w : World ι σ) (fresh : Ref)
    (gtScene subScene : String × SceneObj ι) :
    (gtScene.1 ≠ subScene.1 → evaluateOne argsort interVol nn draws w fresh gtScene subScene = (w, .error .valueError)) ∧
    (gtScene.1 = subScene.1 → gtScene.1 ∉ ["meshes", "voxels", "bounding_box"] →
      evaluateOne argsort interVol nn draws w fresh gtScene subScene = (w, .error .keyError)) := by
  constructor
  · intro h
    unfold evaluateOne
    rw [if_pos h]
  · intro h hn
    simp only [List.mem_cons, List.not_mem_nil, or_false, not_or] at hn
    unfold evaluateOne kindOf
    rw [if_neg (by simpa using h), if_neg hn.1, if_neg hn.2.1, if_neg hn.2.2]

/-- The evaluator class of a project type. -/
inductive TrackOf : String → Kind → Prop
  | meshes : TrackOf "meshes" .mesh
  | voxels : TrackOf "voxels" .voxel
  | boxes : TrackOf "bounding_box" .bb

theorem kindOf_ok {s : String} {k : Kind} : kindOf s = .ok k ↔ TrackOf s k := by
  unfold kindOf
  constructor
  · intro h
    split_ifs at h with h1 h2 h3 <;> simp only [Except.ok.injEq] at h <;> subst h
    · rw [h1]; exact .meshes
    · rw [h2]; exact .voxels
    · rw [h3]; exact .boxes
  · rintro (_ | _ | _) <;> simp

/-- What is printed, if anything is: the five metrics of the evaluator of the track on the two scenes with the default
settings, each beside its own label. -/
structure Printed (argsort : List σ → List ℕ) (w2 : World ι σ) (e : Ev ι σ) (lines : List (String × Num)) : Prop where
  holds : ∃ shape rot trans sem per,
    e.shapeScore argsort w2 = .ok shape ∧
    (e.poseError w2 = .ok (some (rot, trans)) ∧
        lines = [("Shape Score (1 is best)", Num.ofMean shape), ("Translation Error (0 is best)", Num.fin trans),
          ("Rotation Error (0 is best)", Num.fin rot), ("Semantics Score (1 is best)", Num.ofMean sem),
          ("Perceptual Score (1 is best)", Num.ofMeanR per)] ∨
      e.poseError w2 = .ok none ∧
        lines = [("Shape Score (1 is best)", Num.ofMean shape), ("Translation Error (0 is best)", Num.inf),
          ("Rotation Error (0 is best)", Num.inf), ("Semantics Score (1 is best)", Num.ofMean sem),
          ("Perceptual Score (1 is best)", Num.ofMeanR per)]) ∧
    e.semanticsScore argsort w2 = .ok sem ∧ e.perceptualScore w2 = .ok per

/-- The dict of results, in terms of the single metrics. -/
theorem evaluateAll_ok {argsort : List σ → List ℕ} {w : World ι σ} {e : Ev ι σ} {d : Dict String Num}
    (h : evaluateAll argsort nn w e = .ok d) :
    ∃ shape pose sem per rms, e.shapeScore argsort w = .ok shape ∧ e.poseError w = .ok pose ∧
      e.semanticsScore argsort w = .ok sem ∧ e.perceptualScore w = .ok per ∧
      (e.kind = .bb ∧ rms = [] ∨ e.kind ≠ .bb ∧ ∃ p c, e.rmsPoints nn w = .ok p ∧ e.rmsColor nn w = .ok c ∧
        rms = [("rms_points_error", Num.ofError p), ("rms_color_error", Num.ofError c)]) ∧
      d = [("shape_score", Num.ofMean shape), ("rotation_error", Num.ofError (pose.map Prod.fst)),
        ("translation_error", Num.ofError (pose.map Prod.snd))] ++ rms ++
        [("semantics_score", Num.ofMean sem), ("perceptual_score", Num.ofMeanR per)] := by
  unfold evaluateAll at h
  simp only [bind, Except.bind] at h
  split at h
  · simp at h
  rename_i shape h1
  split at h
  · simp at h
  rename_i pose h2
  split at h
  · simp at h
  rename_i rms h5
  split at h
  · simp at h
  rename_i sem h3
  split at h
  · simp at h
  rename_i per h4
  simp only [pure, Except.pure, Except.ok.injEq] at h
  refine ⟨shape, pose, sem, per, rms, h1, h2, h3, h4, ?_, h.symm⟩
  split_ifs at h5 with hk
  · simp only [pure, Except.pure, Except.ok.injEq] at h5
    exact Or.inl ⟨hk, h5.symm⟩
  · split at h5
    · simp at h5
    rename_i p h6
    split at h5
    · simp at h5
    rename_i c h7
    simp only [pure, Except.pure, Except.ok.injEq] at h5
    exact Or.inr ⟨hk, p, c, h6, h7, h5.symm⟩

theorem report_ok {e : Ev ι σ} {w : World ι σ} {a b c f g : Num} {rms : List (String × Num)}
    (h : e.kind = .bb ∧ rms = [] ∨ e.kind ≠ .bb ∧ ∃ p c, e.rmsPoints nn w = .ok p ∧ e.rmsColor nn w = .ok c ∧
        rms = [("rms_points_error", Num.ofError p), ("rms_color_error", Num.ofError c)]) :
    report ([("shape_score", a), ("rotation_error", b), ("translation_error", c)] ++ rms ++
        [("semantics_score", f), ("perceptual_score", g)]) =
      .ok [("Shape Score (1 is best)", a), ("Translation Error (0 is best)", c), ("Rotation Error (0 is best)", b),
        ("Semantics Score (1 is best)", f), ("Perceptual Score (1 is best)", g)] := by
  rcases h with ⟨-, rfl⟩ | ⟨-, p, q, -, -, rfl⟩
  · rfl
  · rfl

/-- **C113** Each printed line carries the metric its label names, computed by the evaluator of the track of the scenes, with the
default settings. -/
theorem C113_labels {argsort : List σ → List ℕ} {draws : ℕ → ℕ → ℝ × ℝ} {w w' : World ι σ} {fresh : Ref}
    {gtScene subScene : String × SceneObj ι} {lines : List (String × Num)}
    (h : evaluateOne argsort interVol nn draws w fresh gtScene subScene = (w', .ok lines)) :
    gtScene.1 = subScene.1 ∧ ∃ kind e, TrackOf gtScene.1 kind ∧
      construct interVol nn draws kind { w with dict := Function.update w.dict fresh defaultSettings } subScene.2 gtScene.2
        (some fresh) = (w', .ok e) ∧ Printed argsort w' e lines := by
  unfold evaluateOne at h
  split_ifs at h with hne
  · simp at h
  · refine ⟨by simpa using hne, ?_⟩
    cases hk : kindOf gtScene.1 with
    | error x => rw [hk] at h; simp at h
    | ok kind =>
      rw [hk] at h
      dsimp only at h
      split at h
      · simp at h
      · rename_i w2 e hc
        obtain rfl := (Prod.mk.inj h).1
        refine ⟨kind, e, kindOf_ok.1 hk, hc, ⟨?_⟩⟩
        cases hr : evaluateAll argsort nn w2 e with
        | error x => simp [hr, bind, Except.bind] at h
        | ok d =>
          obtain ⟨shape, pose, sem, per, rms, h1, h2, h3, h4, hrms, rfl⟩ := evaluateAll_ok hr
          simp only [hr, bind, Except.bind, report_ok hrms] at h
          have h := Except.ok.inj (Prod.mk.inj h).2
          cases pose with
          | none => exact ⟨shape, 0, 0, sem, per, h1, Or.inr ⟨h2, h.symm⟩, h3, h4⟩
          | some p => exact ⟨shape, p.1, p.2, sem, per, h1, Or.inl ⟨h2, h.symm⟩, h3, h4⟩

/-- **C113** Nothing goes wrong after the evaluation: if the evaluator can be constructed and evaluated then the lines are
printed. -/
theorem C113_printed {argsort : List σ → List ℕ} {draws : ℕ → ℕ → ℝ × ℝ} {w w' : World ι σ} {fresh : Ref}
    {type : String} {gt sub : SceneObj ι} {kind : Kind} (hk : TrackOf type kind) {e : Ev ι σ}
    (hc : construct interVol nn draws kind { w with dict := Function.update w.dict fresh defaultSettings } sub gt (some fresh) =
      (w', .ok e)) {d : Dict String Num} (hr : evaluateAll argsort nn w' e = .ok d) :
    ∃ lines, evaluateOne argsort interVol nn draws w fresh (type, gt) (type, sub) = (w', .ok lines) := by
  obtain ⟨shape, pose, sem, per, rms, h1, h2, h3, h4, hrms, rfl⟩ := evaluateAll_ok hr
  have hrep := report_ok (a := Num.ofMean shape) (b := Num.ofError (pose.map Prod.fst)) (c := Num.ofError (pose.map Prod.snd))
    (f := Num.ofMean sem) (g := Num.ofMeanR per) hrms
  refine ⟨[("Shape Score (1 is best)", Num.ofMean shape), ("Translation Error (0 is best)", Num.ofError (pose.map Prod.snd)),
    ("Rotation Error (0 is best)", Num.ofError (pose.map Prod.fst)), ("Semantics Score (1 is best)", Num.ofMean sem),
    ("Perceptual Score (1 is best)", Num.ofMeanR per)], ?_⟩
  unfold evaluateOne
  rw [if_neg (by simp)]
  simp only [kindOf_ok.2 hk, hc, hr, bind, Except.bind]
  rw [hrep]

/-- **C113** with **C111**: for a copy of a scene of boxes the script prints the best values. -/
theorem C113_copy_partial {argsort : List σ → List ℕ} (hsort : ∀ l, IsArgsort (argsort l) l)
    (hself : ∀ m, |interVol m m| = |meshVolume m.1 m.2|) {draws : ℕ → ℕ → ℝ × ℝ} {w : World ι σ} {fresh : Ref}
    {sub gt : SceneObj ι}
    (hs : WellKeyed (w.view id sub)) (hg : WellKeyed (w.view id gt)) (hc : IsCopy w sub gt) (hf : FitScene w gt)
    (hvol : ∀ r ∈ gt.values, (w.elem r).payload.bounds.volume ≠ 0)
    (hdist : ∀ r ∈ gt.values, ∀ r' ∈ gt.values, (w.elem r).id ≠ (w.elem r').id →
      ∃ x < 1, bbSimilarity interVol (w.elem r).payload.boxed (w.elem r').payload.boxed = some x) :
    ∃ w' x, evaluateOne argsort interVol nn draws w fresh ("bounding_box", gt) ("bounding_box", sub) = (w', .ok [
        ("Shape Score (1 is best)", .fin ((w.countEvaluated gt : ℚ) / ((w.countEvaluated gt : ℚ) + epsilon) : ℚ)),
        ("Translation Error (0 is best)", .fin 0), ("Rotation Error (0 is best)", .fin 0),
        ("Semantics Score (1 is best)", .fin (x : ℚ)), ("Perceptual Score (1 is best)", .fin 1)]) ∧
      1 / (1 + epsilon) ≤ x ∧ x < 1 := by
  obtain ⟨w1, e, x, h1, h2, h3⟩ := C111_bb_partial (nn := nn) (draws := draws)
    (w := { w with dict := Function.update w.dict fresh defaultSettings }) (settings := some fresh) hsort hself
    (by simp [given]) hs hg ⟨hc.1, hc.2⟩ ⟨hf.1, hf.2, hf.3⟩ hvol hdist
  refine ⟨w1, x, ?_, h3⟩
  unfold evaluateOne
  rw [if_neg (by simp)]
  simp only [kindOf_ok.2 TrackOf.boxes, h1, h2, bind, Except.bind]
  rfl

/-- A floor and a chair, and their copy. -/
example (argsort : List ℕ → List ℕ) (hsort : ∀ l, IsArgsort (argsort l) l) :
    ∃ w' lines, evaluateOne argsort (fun m _ => meshVolume m.1 m.2) nn (firstDraw 0) roomWorld 0
      ("bounding_box", [(7, 2), (8, 3)]) ("bounding_box", [(7, 0), (8, 1)]) = (w', .ok lines) := by
  obtain ⟨w', x, h, -⟩ := C113_copy_partial (nn := nn) (draws := firstDraw 0) (fresh := 0) hsort
    (interVol := fun m _ => meshVolume m.1 m.2) (fun _ => rfl) room_wellKeyed.1 room_wellKeyed.2 room_copy room_fit
    (room_boxes fun _ _ => 0).1 (room_boxes _).2
  exact ⟨w', _, h⟩

end Track
end Sumo
