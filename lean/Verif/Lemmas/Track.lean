import Verif.Lemmas.BuildMap

/-!
# What constructing an evaluator changes
-/

set_option linter.unusedSectionVars false

namespace Sumo
namespace Track

variable {ι σ τ P Q : Type} [DecidableEq ι] [LinearOrder σ] [LinearOrder τ]

/-! ## Scores do not look at the payload -/

theorem detVectors_map (f : P → Q) (els : List (Obj ι σ P)) (a : Dict ι (Corr ι σ τ)) :
    detVectors (els.map (mapObj f)) a = detVectors els a := by
  unfold detVectors
  rw [List.foldl_map]
  rfl

theorem evaluated_map (f : P → Q) (els : List (Obj ι σ P)) :
    ((els.map (mapObj f)).filter (fun v => v.evaluated)).length = (els.filter (fun v => v.evaluated)).length := by
  rw [List.filter_map, List.length_map]
  rfl

theorem shapeScore_map (f : P → Q) (argsort : List σ → List ℕ) (ev : Evaluator ι σ τ P) (rs : List ℚ) :
    Sumo.shapeScore argsort (mapEv f ev) rs = Sumo.shapeScore argsort ev rs := by
  unfold Sumo.shapeScore mapEv
  simp only [values_mapEls, detVectors_map, evaluated_map]

theorem nGtByCategory_map (f : P → Q) (cats : List String) (els : List (Obj ι σ P)) :
    nGtByCategory cats (els.map (mapObj f)) = nGtByCategory cats els := by
  unfold nGtByCategory
  rw [List.foldlM_map]
  rfl

theorem detVectorsByCategory_map (f : P → Q) (ev : Evaluator ι σ τ P) (t : τ) :
    detVectorsByCategory (mapEv f ev) t = detVectorsByCategory ev t := by
  unfold detVectorsByCategory mapEv
  simp only [values_mapEls]
  rw [List.foldlM_map]
  rfl

theorem semanticsScore_map (f : P → Q) (argsort : List σ → List ℕ) (ev : Evaluator ι σ τ P) :
    Sumo.semanticsScore argsort (mapEv f ev) = Sumo.semanticsScore argsort ev := by
  unfold Sumo.semanticsScore
  simp only [detVectorsByCategory_map]
  unfold mapEv
  simp only [values_mapEls, nGtByCategory_map]

/-! ## Views -/

theorem view_map (w : World ι σ) (f : Fields → P) (g : P → Q) (sc : SceneObj ι) :
    mapEls g (w.view f sc) = w.view (g ∘ f) sc := by
  unfold mapEls World.view
  rw [List.map_map]
  rfl

theorem now_map (w : World ι σ) (e : Ev ι σ) (f : Fields → P) (g : P → Q) (s : AssocSettings ℝ) :
    mapEv g (e.now w f s) = e.now w (g ∘ f) s := by
  unfold mapEv Ev.now
  simp only [view_map]

/-- The attributes the caller gave the element. -/
def Fields.static (e : Fields) : Fields := { e with posedPoints := none, posedBbox := none }

/-- The two worlds differ in posed points and boxes at most (and in settings). -/
def SameStatic (w w' : World ι σ) : Prop := ∀ r, mapObj Fields.static (w'.elem r) = mapObj Fields.static (w.elem r)

theorem SameStatic.refl (w : World ι σ) : SameStatic w w := fun _ => rfl

theorem SameStatic.trans {w w' w'' : World ι σ} (h : SameStatic w w') (h' : SameStatic w' w'') : SameStatic w w'' :=
  fun r => (h' r).trans (h r)

theorem view_static {w w' : World ι σ} (h : SameStatic w w') (f : Fields → P) (sc : SceneObj ι) :
    w'.view (f ∘ Fields.static) sc = w.view (f ∘ Fields.static) sc := by
  unfold World.view
  apply List.map_congr_left
  intro p _
  have := congrArg (mapObj f) (h p.2)
  exact Prod.ext rfl this

theorem now_static {w w' : World ι σ} (h : SameStatic w w') (e : Ev ι σ) (f : Fields → P) (s : AssocSettings ℝ) :
    e.now w' (f ∘ Fields.static) s = e.now w (f ∘ Fields.static) s := by
  unfold Ev.now
  rw [view_static h, view_static h]

theorem setFields_static (w : World ι σ) (r : Ref) {f : Fields} (h : f.static = (w.elem r).payload.static) :
    SameStatic w (w.setFields r f) := by
  intro r'
  unfold World.setFields
  by_cases hr : r' = r
  · subst hr
    simp only [Function.update_self, mapObj, h]
  · simp only [Function.update_of_ne hr]

theorem poseStep_static (kind : Kind) (s : Option Settings) (draws : ℕ → ℕ → ℝ × ℝ) (k : ℕ) (e : Fields) :
    (poseStep kind s draws k e).1.static = e.static := by
  unfold poseStep
  cases kind with
  | bb => rfl
  | voxel =>
    show (poseVoxel e).1.static = e.static
    unfold poseVoxel
    split
    · dsimp only
      split <;> rfl
    · rfl
  | mesh =>
    show (poseMesh s (draws k) e).1.static = e.static
    unfold poseMesh
    split
    · rfl
    · split
      · rfl
      · split
        · split <;> rfl
        · rfl

theorem poseAll_cons (step : ℕ → Fields → Fields × Option PyErr) (k : ℕ) (r : Ref) (rs : List Ref) (w : World ι σ) :
    poseAll step k (r :: rs) w =
      if (step k (w.elem r).payload).2.isNone then
        poseAll step (k + 1) rs (w.setFields r (step k (w.elem r).payload).1)
      else (w.setFields r (step k (w.elem r).payload).1, (step k (w.elem r).payload).2) := by
  rw [poseAll]
  rcases h : step k (w.elem r).payload with ⟨f, _ | x⟩ <;> simp

theorem poseAll_static {step : ℕ → Fields → Fields × Option PyErr} (hs : ∀ k e, (step k e).1.static = e.static)
    (k : ℕ) (rs : List Ref) (w : World ι σ) : SameStatic w (poseAll step k rs w).1 := by
  induction rs generalizing k w with
  | nil => exact SameStatic.refl w
  | cons r rs ih =>
    rw [poseAll_cons]
    split_ifs
    · exact (setFields_static w r (hs _ _)).trans (ih _ _)
    · exact setFields_static w r (hs _ _)

theorem poseAll_dict (step : ℕ → Fields → Fields × Option PyErr) (k : ℕ) (rs : List Ref) (w : World ι σ) :
    (poseAll step k rs w).1.dict = w.dict := by
  induction rs generalizing k w with
  | nil => rfl
  | cons r rs ih =>
    rw [poseAll_cons]
    split_ifs
    · rw [ih]; rfl
    · rfl

/-- Elements that are not in the scenes are not touched. -/
theorem poseAll_elem_of_notMem (step : ℕ → Fields → Fields × Option PyErr) (k : ℕ) (rs : List Ref) (w : World ι σ)
    {r : Ref} (hr : r ∉ rs) : (poseAll step k rs w).1.elem r = w.elem r := by
  induction rs generalizing k w with
  | nil => rfl
  | cons r' rs ih =>
    have h1 : r ≠ r' := fun h => hr (by simp [h])
    have h2 : r ∉ rs := fun h => hr (by simp [h])
    have h3 : ∀ f, (w.setFields r' f).elem r = w.elem r := by
      intro f; unfold World.setFields; simp only [Function.update_of_ne h1]
    rw [poseAll_cons]
    split_ifs
    · rw [ih _ _ h2, h3]
    · exact h3 _

/-- A property of the attributes of one element that every step keeps is kept. -/
theorem poseAll_invariant {step : ℕ → Fields → Fields × Option PyErr} {I : Fields → Prop}
    (hI : ∀ k e, I e → I (step k e).1) (k : ℕ) (rs : List Ref) (w : World ι σ) {r : Ref}
    (h : I (w.elem r).payload) : I ((poseAll step k rs w).1.elem r).payload := by
  induction rs generalizing k w with
  | nil => exact h
  | cons r' rs ih =>
    have h3 : I ((w.setFields r' (step k (w.elem r').payload).1).elem r).payload := by
      unfold World.setFields
      by_cases hr : r = r'
      · subst hr
        simp only [Function.update_self]
        exact hI _ _ h
      · simp only [Function.update_of_ne hr]
        exact h
    rw [poseAll_cons]
    split_ifs
    · exact ih _ _ h3
    · exact h3

/-- After a successful loop every element of the scenes has what a successful step establishes and steps keep. -/
theorem poseAll_established {step : ℕ → Fields → Fields × Option PyErr} {I : Fields → Prop}
    (hE : ∀ k e, (step k e).2 = none → I (step k e).1) (hI : ∀ k e, I e → I (step k e).1)
    (k : ℕ) (rs : List Ref) (w : World ι σ) (hok : (poseAll step k rs w).2 = none) {r : Ref} (hr : r ∈ rs) :
    I ((poseAll step k rs w).1.elem r).payload := by
  induction rs generalizing k w with
  | nil => simp at hr
  | cons r' rs ih =>
    rw [poseAll_cons] at hok ⊢
    split_ifs at hok ⊢ with hn
    · by_cases h : r ∈ rs
      · exact ih _ _ hok h
      · have : r = r' := by simpa [h] using hr
        subst this
        apply poseAll_invariant hI
        unfold World.setFields
        simp only [Function.update_self]
        exact hE _ _ (by simpa using hn)
    · simp only at hok
      exact absurd hok (by simpa using hn)

/-- The loop succeeds if every step succeeds on elements with a property that steps keep. -/
theorem poseAll_ok {step : ℕ → Fields → Fields × Option PyErr} {I : Fields → Prop}
    (hI : ∀ k e, I e → (step k e).2 = none ∧ I (step k e).1) (k : ℕ) (rs : List Ref) (w : World ι σ)
    (h : ∀ r ∈ rs, I (w.elem r).payload) : (poseAll step k rs w).2 = none := by
  induction rs generalizing k w with
  | nil => rfl
  | cons r' rs ih =>
    obtain ⟨h1, h2⟩ := hI k _ (h r' (by simp))
    rw [poseAll_cons, if_pos (by rw [h1]; rfl)]
    apply ih
    intro r hr
    unfold World.setFields
    by_cases hrr : r = r'
    · subst hrr
      simp only [Function.update_self]
      exact h2
    · simp only [Function.update_of_ne hrr]
      exact h r (by simp [hr])

/-! ## The base class -/

/-- The dict after a constructor sorted its thresholds. -/
noncomputable def Settings.sorted (s : Settings) : Settings := { s with thresholds := s.thresholds.map npSort }

theorem Settings.sorted_sorted (s : Settings) : s.sorted.sorted = s.sorted := by
  unfold Settings.sorted
  cases h : s.thresholds with
  | none => simp
  | some ts =>
    simp only [Option.map_some]
    rw [show npSort (npSort ts) = npSort ts from ?_]
    unfold npSort
    exact List.Pairwise.insertionSort_eq (List.pairwise_insertionSort _ _)

variable (interVol : InterVol) (nn : List (Vec3 ℝ) → Vec3 ℝ → ℕ)

theorem baseInit_elem (kind : Kind) (w : World ι σ) (sub gt : SceneObj ι) (settings : Option Ref) :
    (baseInit interVol nn kind w sub gt settings).1.elem = w.elem := by
  unfold baseInit
  cases settings <;> dsimp only <;> split <;> rfl

theorem baseInit_dict (kind : Kind) (w : World ι σ) (sub gt : SceneObj ι) (settings : Option Ref) (r : Ref) :
    (baseInit interVol nn kind w sub gt settings).1.dict r = w.dict r ∨
    (baseInit interVol nn kind w sub gt settings).1.dict r = (w.dict r).sorted := by
  unfold baseInit
  cases settings with
  | none => left; dsimp only; split <;> rfl
  | some r' =>
    dsimp only
    split
    · left; rfl
    · rename_i ts hts
      by_cases hr : r = r'
      · subst hr
        right
        simp only [Function.update_self]
        unfold Settings.sorted
        rw [hts]; rfl
      · left
        simp only [Function.update_of_ne hr]

theorem construct_static (draws : ℕ → ℕ → ℝ × ℝ) (kind : Kind) (w : World ι σ) (sub gt : SceneObj ι)
    (settings : Option Ref) : SameStatic w (construct interVol nn draws kind w sub gt settings).1 := by
  have h := poseAll_static (poseStep_static kind (settings.map w.dict) draws) 0 (sub.values ++ gt.values) w
  unfold construct
  rcases hp : poseAll (poseStep kind (settings.map w.dict) draws) 0 (sub.values ++ gt.values) w with ⟨w', _ | x⟩
  · rw [hp] at h
    dsimp only
    split_ifs
    · intro r; rw [baseInit_elem]; exact h r
    · intro r; rw [baseInit_elem]; exact h r
  · rw [hp] at h
    exact h

theorem construct_dict (draws : ℕ → ℕ → ℝ × ℝ) (kind : Kind) (w : World ι σ) (sub gt : SceneObj ι)
    (settings : Option Ref) (r : Ref) :
    (construct interVol nn draws kind w sub gt settings).1.dict r = w.dict r ∨
    (construct interVol nn draws kind w sub gt settings).1.dict r = (w.dict r).sorted := by
  have h := poseAll_dict (poseStep kind (settings.map w.dict) draws) 0 (sub.values ++ gt.values) w
  unfold construct
  rcases hp : poseAll (poseStep kind (settings.map w.dict) draws) 0 (sub.values ++ gt.values) w with ⟨w', _ | x⟩
  · rw [hp] at h
    dsimp only at h ⊢
    rw [← h]
    split_ifs <;> exact baseInit_dict _ _ _ _ _ _ _ _
  · rw [hp] at h
    left
    exact congrFun h r

/-- The elements of the result are those after posing. -/
theorem construct_elem (draws : ℕ → ℕ → ℝ × ℝ) (kind : Kind) (w : World ι σ) (sub gt : SceneObj ι)
    (settings : Option Ref) :
    (construct interVol nn draws kind w sub gt settings).1.elem =
      (poseAll (poseStep kind (settings.map w.dict) draws) 0 (sub.values ++ gt.values) w).1.elem := by
  unfold construct
  rcases hp : poseAll (poseStep kind (settings.map w.dict) draws) 0 (sub.values ++ gt.values) w with ⟨w', _ | x⟩
  · dsimp only
    split_ifs <;> rw [baseInit_elem]
  · rfl

/-- The settings a constructor works with. -/
noncomputable def given (w : World ι σ) (settings : Option Ref) : Settings :=
  match settings with
  | none => defaultSettings
  | some r => w.dict r

/-- What a successful base class constructor did. -/
theorem baseInit_ok {kind : Kind} {w w' : World ι σ} {sub gt : SceneObj ι} {settings : Option Ref} {e : Ev ι σ}
    (h : baseInit interVol nn kind w sub gt settings = (w', .ok e)) :
    ∃ ts cats thresh ev, Evaluator.build (shapeSimilarity kind interVol nn thresh) (w.view id sub) (w.view id gt) ⟨ts, cats⟩ =
        .ok ev ∧
      e.kind = kind ∧ e.submission = sub ∧ e.groundTruth = gt ∧ e.simCache = ev.simCache ∧ e.agnostic = ev.agnostic ∧
      e.category = ev.category ∧ w'.elem = w.elem ∧
      (given w settings).thresholds = some ts ∧
      (given w settings).categories = some cats ∧
      overlap kind (given w settings)
        (!sub.isEmpty && !gt.isEmpty) = .ok thresh ∧
      e.settingsIn w' = (given w settings).sorted ∧
      (match settings with | none => ∃ s, e.settings = .own s | some r => e.settings = .shared r) := by
  have hel := baseInit_elem interVol nn kind w sub gt settings
  rw [h] at hel
  unfold baseInit at h
  unfold given
  cases settings with
  | none =>
    dsimp only at h
    split at h
    · simp at h
    · rename_i ts hts
      obtain ⟨h1, h2⟩ := Prod.mk.inj h
      simp only [bind, Except.bind] at h2
      split at h2
      · simp at h2
      · rename_i thresh hth
        split at h2
        · simp at h2
        · rename_i cats hcats
          split at h2
          · simp at h2
          · split at h2
            · simp at h2
            · rename_i ev hev
              simp only [pure, Except.pure, Except.ok.injEq] at h2
              subst h2
              refine ⟨ts, cats, thresh, ev, hev, rfl, rfl, rfl, rfl, rfl, rfl, hel, hts, ?_, ?_, ?_, ⟨_, rfl⟩⟩
              · revert hcats
                unfold key
                dsimp only
                cases defaultSettings.categories with
                | none => simp
                | some c => simp
              · revert hth
                unfold overlap
                exact id
              · unfold Ev.settingsIn Settings.sorted
                simp only [hts, Option.map_some]
  | some r =>
    dsimp only at h
    split at h
    · simp at h
    · rename_i ts hts
      obtain ⟨h1, h2⟩ := Prod.mk.inj h
      simp only [bind, Except.bind] at h2
      split at h2
      · simp at h2
      · rename_i thresh hth
        split at h2
        · simp at h2
        · rename_i cats hcats
          split at h2
          · simp at h2
          · split at h2
            · simp at h2
            · rename_i ev hev
              simp only [pure, Except.pure, Except.ok.injEq] at h2
              subst h2
              refine ⟨ts, cats, thresh, ev, hev, rfl, rfl, rfl, rfl, rfl, rfl, hel, hts, ?_, ?_, ?_, rfl⟩
              · revert hcats
                unfold key
                dsimp only
                cases (w.dict r).categories with
                | none => simp
                | some c => simp
              · revert hth
                unfold overlap
                exact id
              · rw [← h1]
                unfold Ev.settingsIn Settings.sorted
                simp only [Function.update_self, hts, Option.map_some]

end Track
end Sumo
