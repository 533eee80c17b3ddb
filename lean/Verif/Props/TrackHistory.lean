import Verif.Spec.Track
import Verif.Lemmas.Track

/-!
# Later evaluators do not change the results of earlier ones (C108)
-/

set_option linter.unusedSectionVars false

namespace Sumo
namespace Track

variable {ι σ : Type} [DecidableEq ι] [LinearOrder σ] {interVol : InterVol} {nn : List (Vec3 ℝ) → Vec3 ℝ → ℕ}

theorem now_unit (w : World ι σ) (e : Ev ι σ) (s : AssocSettings ℝ) :
    e.now w ((fun _ => ()) ∘ Fields.static) s = mapEv (fun _ => ()) (e.now w id s) := by
  rw [now_map]
  rfl

theorem shapeScore_unit (argsort : List σ → List ℕ) (w : World ι σ) (e : Ev ι σ) :
    e.shapeScore argsort w = (do
      let ts ← key (e.settingsIn w).thresholds
      let ev := e.now w ((fun _ => ()) ∘ Fields.static) ⟨ts, []⟩
      let rs ← (if !ts.isEmpty && ev.groundTruth.values.any (fun v => v.evaluated) then key (e.settingsIn w).recallSamples
        else .ok [])
      Sumo.shapeScore argsort ev rs) := by
  unfold Ev.shapeScore
  cases (e.settingsIn w).thresholds with
  | none => simp only [key, bind, Except.bind]
  | some ts =>
    have hany : ((e.now w ((fun _ => ()) ∘ Fields.static) ⟨ts, []⟩).groundTruth.values.any fun v => v.evaluated) =
        ((e.now w id ⟨ts, []⟩).groundTruth.values.any fun v => v.evaluated) := by
      rw [now_unit, mapEv, values_mapEls, List.any_map]
      rfl
    simp only [key, bind, Except.bind, hany]
    simp only [now_unit, shapeScore_map]

theorem semanticsScore_unit (argsort : List σ → List ℕ) (w : World ι σ) (e : Ev ι σ) :
    e.semanticsScore argsort w = (do
      let cats ← key (e.settingsIn w).categories
      let ts ← key (e.settingsIn w).thresholds
      Sumo.semanticsScore argsort (e.now w ((fun _ => ()) ∘ Fields.static) ⟨ts, cats⟩)) := by
  unfold Ev.semanticsScore
  simp only [now_unit, semanticsScore_map]

/-- The settings dict of a new evaluator is sorted. -/
theorem construct_settings {draws : ℕ → ℕ → ℝ × ℝ} {kind : Kind} {w w1 : World ι σ} {sub gt : SceneObj ι}
    {settings : Option Ref} {e : Ev ι σ} (h : construct interVol nn draws kind w sub gt settings = (w1, .ok e)) :
    (e.settingsIn w1).sorted = e.settingsIn w1 := by
  unfold construct at h
  rcases hp : poseAll (poseStep kind (settings.map w.dict) draws) 0 (sub.values ++ gt.values) w with ⟨w', _ | x⟩
  · rw [hp] at h
    dsimp only at h
    split_ifs at h
    all_goals
      obtain ⟨-, -, -, -, -, -, -, -, -, -, -, -, -, -, -, hs, -⟩ := baseInit_ok interVol nn h
      rw [hs, Settings.sorted_sorted]
  · rw [hp] at h
    simp at h

theorem settingsIn_step {w : World ι σ} {e : Ev ι σ} (hs : (e.settingsIn w).sorted = e.settingsIn w) (c : Call ι) :
    e.settingsIn (construct interVol nn c.draws c.kind w c.submission c.groundTruth c.settings).1 = e.settingsIn w := by
  unfold Ev.settingsIn at hs ⊢
  cases he : e.settings with
  | own s => rfl
  | shared r =>
    rw [he] at hs
    dsimp only at hs ⊢
    rcases construct_dict interVol nn c.draws c.kind w c.submission c.groundTruth c.settings r with h | h
    · exact h
    · rw [h, hs]

theorem afterCalls_frame {w : World ι σ} {e : Ev ι σ} (hs : (e.settingsIn w).sorted = e.settingsIn w)
    (cs : List (Call ι)) :
    SameStatic w (afterCalls interVol nn w cs) ∧ e.settingsIn (afterCalls interVol nn w cs) = e.settingsIn w := by
  induction cs generalizing w with
  | nil => exact ⟨SameStatic.refl w, rfl⟩
  | cons c cs ih =>
    have h1 := settingsIn_step (interVol := interVol) (nn := nn) hs c
    obtain ⟨h2, h3⟩ := ih (w := (construct interVol nn c.draws c.kind w c.submission c.groundTruth c.settings).1)
      (by rw [h1]; exact hs)
    exact ⟨(construct_static interVol nn _ _ _ _ _ _).trans h2, h3.trans h1⟩

/-- **C108** (first part) Whatever evaluators, of whatever track and with whatever settings, are constructed afterwards on the
same or on other scenes, successfully or not: the shape score, the pose error, the semantics score and the perceptual score of
an evaluator stay what they were. -/
theorem C108_scores_stable_partial {draws : ℕ → ℕ → ℝ × ℝ} {kind : Kind} {w w1 : World ι σ} {sub gt : SceneObj ι}
    {settings : Option Ref} {e : Ev ι σ} (h : construct interVol nn draws kind w sub gt settings = (w1, .ok e))
    (argsort : List σ → List ℕ) (cs : List (Call ι)) :
    e.shapeScore argsort (afterCalls interVol nn w1 cs) = e.shapeScore argsort w1 ∧
    e.poseError (afterCalls interVol nn w1 cs) = e.poseError w1 ∧
    e.semanticsScore argsort (afterCalls interVol nn w1 cs) = e.semanticsScore argsort w1 ∧
    e.perceptualScore (afterCalls interVol nn w1 cs) = e.perceptualScore w1 := by
  obtain ⟨h1, h2⟩ := afterCalls_frame (interVol := interVol) (nn := nn) (construct_settings h) cs
  have hpay : ∀ s, e.now (afterCalls interVol nn w1 cs) Fields.pay s = e.now w1 Fields.pay s :=
    fun s => now_static h1 e Fields.pay s
  refine ⟨?_, ?_, ?_, ?_⟩
  · rw [shapeScore_unit, shapeScore_unit, h2]
    simp only [now_static h1]
  · unfold Ev.poseError
    simp only [h2, hpay]
  · rw [semanticsScore_unit, semanticsScore_unit, h2]
    simp only [now_static h1]
  · unfold Ev.perceptualScore
    simp only [h2, hpay]

/-! ### Surface errors -/

theorem get?_view {P : Type} (w : World ι σ) (f : Fields → P) (sc : SceneObj ι) (k : ι) :
    (w.view f sc).get? k = (sc.get? k).map fun r => mapObj f (w.elem r) := by
  induction sc with
  | nil => rfl
  | cons p sc ih =>
    show Dict.get? ((p.1, mapObj f (w.elem p.2)) :: w.view f sc) k = (Dict.get? (p :: sc) k).map _
    unfold Dict.get?
    by_cases h : p.1 = k
    · simp [h]
    · simp only [h, if_false]; exact ih

theorem get?_mem_values {sc : SceneObj ι} {k : ι} {r : Ref} (h : sc.get? k = some r) : r ∈ sc.values :=
  Dict.mem_values.2 ⟨k, Dict.mem_of_get? h⟩

/-- The surface errors read the thresholds, the associations and the posed points of the matched elements. -/
theorem rms_congr {w w' : World ι σ} {e : Ev ι σ} (hs : e.settingsIn w' = e.settingsIn w)
    (hp : ∀ r, e.uses r → (w'.elem r).payload.posedPoints = (w.elem r).payload.posedPoints) :
    e.rmsPoints nn w' = e.rmsPoints nn w ∧ e.rmsColor nn w' = e.rmsColor nn w := by
  have hc : ∀ (F : List ColorPoint → List ColorPoint → Except PyErr ℝ),
      (fun detId gtId => do
        let d ← (w'.view Fields.points e.submission).get detId
        let g ← (w'.view Fields.points e.groundTruth).get gtId
        F d.payload.posedPoints g.payload.posedPoints) =
      (fun detId gtId => do
        let d ← (w.view Fields.points e.submission).get detId
        let g ← (w.view Fields.points e.groundTruth).get gtId
        F d.payload.posedPoints g.payload.posedPoints) := by
    intro F
    funext a b
    unfold Dict.get
    rw [get?_view, get?_view, get?_view, get?_view]
    cases h1 : e.submission.get? a with
    | none => simp [bind, Except.bind]
    | some r1 =>
      cases h2 : e.groundTruth.get? b with
      | none => simp [bind, Except.bind]
      | some r2 =>
        simp only [Option.map_some, bind, Except.bind, mapObj_payload, Fields.points,
          hp r1 (Or.inl (get?_mem_values h1)), hp r2 (Or.inr (get?_mem_values h2))]
  constructor
  · unfold Ev.rmsPoints pointsRmsssd
    simp only [hs]
    cases (e.settingsIn w).thresholds with
    | none => simp only [key, bind, Except.bind]
    | some ts =>
      have := hc (pairPointsRms nn)
      simp only [key, Ev.now, rmsLoop] at this ⊢
      rw [this]
  · unfold Ev.rmsColor colorRmsssd
    simp only [hs]
    cases (e.settingsIn w).thresholds with
    | none => simp only [key, bind, Except.bind]
    | some ts =>
      have := hc (pairColorRms nn)
      simp only [key, Ev.now, rmsLoop] at this ⊢
      rw [this]

theorem static_inj {a b : Fields} (h : a.static = b.static) : a.shape = b.shape ∧ a.pose = b.pose := by
  have h1 := congrArg Fields.shape h
  have h2 := congrArg Fields.pose h
  exact ⟨h1, h2⟩

/-- The posed points of a voxel element. -/
noncomputable def voxelPoints (pose : Pose3 ℝ) (g : VoxelGrid ℝ) : List ColorPoint :=
  (pose.transformAllFrom g.voxelCenters).map fun p => ⟨p, 0⟩

/-- A voxel element that has been posed. -/
def PosedVoxel (e : Fields) : Prop := ∃ g, e.shape = .voxels g ∧ e.posedPoints = some (voxelPoints e.pose g)

theorem posedVoxel_step (kind : Kind) (s : Option Settings) (draws : ℕ → ℕ → ℝ × ℝ) (k : ℕ) (e : Fields)
    (h : PosedVoxel e) : PosedVoxel (poseStep kind s draws k e).1 := by
  obtain ⟨g, h1, h2⟩ := h
  unfold poseStep
  cases kind with
  | bb => exact ⟨g, h1, h2⟩
  | voxel =>
    show PosedVoxel (poseVoxel e).1
    unfold poseVoxel
    rw [h1]
    dsimp only
    split <;> exact ⟨g, rfl, rfl⟩
  | mesh =>
    show PosedVoxel (poseMesh s (draws k) e).1
    unfold poseMesh
    rw [h1]
    split
    · exact ⟨g, h1, h2⟩
    · split <;> exact ⟨g, h1, h2⟩

theorem posedVoxel_established (s : Option Settings) (draws : ℕ → ℕ → ℝ × ℝ) (k : ℕ) (e : Fields)
    (h : (poseStep .voxel s draws k e).2 = none) : PosedVoxel (poseStep .voxel s draws k e).1 := by
  have h' : (poseVoxel e).2 = none := h
  show PosedVoxel (poseVoxel e).1
  unfold poseVoxel at h' ⊢
  cases hs : e.shape with
  | voxels g =>
    rw [hs] at h'
    dsimp only at h' ⊢
    cases hb : g.bounds with
    | error x => rw [hb] at h'; simp at h'
    | ok b => exact ⟨g, rfl, rfl⟩
  | none => rw [hs] at h'; simp at h'
  | meshes l => rw [hs] at h'; simp at h'

/-- An element with meshes and the given posed points. -/
def MeshWith (p : Option (List ColorPoint)) (e : Fields) : Prop := (∃ ms, e.shape = .meshes ms) ∧ e.posedPoints = p

theorem meshWith_step {kind : Kind} (hk : kind ≠ .mesh) (s : Option Settings) (draws : ℕ → ℕ → ℝ × ℝ) (k : ℕ)
    (p : Option (List ColorPoint)) (e : Fields) (h : MeshWith p e) : MeshWith p (poseStep kind s draws k e).1 := by
  obtain ⟨⟨ms, h1⟩, h2⟩ := h
  unfold poseStep
  cases kind with
  | bb => exact ⟨⟨ms, h1⟩, h2⟩
  | voxel =>
    show MeshWith p (poseVoxel e).1
    unfold poseVoxel
    rw [h1]
    exact ⟨⟨ms, h1⟩, h2⟩
  | mesh => exact absurd rfl hk

theorem mesh_established (s : Option Settings) (draws : ℕ → ℕ → ℝ × ℝ) (k : ℕ) (e : Fields)
    (h : (poseStep .mesh s draws k e).2 = none) : ∃ ms, (poseStep .mesh s draws k e).1.shape = .meshes ms := by
  have hst := poseStep_static .mesh s draws k e
  have hsh : (poseStep .mesh s draws k e).1.shape = e.shape := (static_inj hst).1
  rw [hsh]
  have h' : (poseMesh s (draws k) e).2 = none := h
  unfold poseMesh at h'
  cases s with
  | none => simp at h'
  | some s =>
    dsimp only at h'
    cases hd : s.density with
    | none => rw [hd] at h'; simp at h'
    | some d =>
      rw [hd] at h'
      dsimp only at h'
      cases hs : e.shape with
      | voxels g => rw [hs] at h'; simp at h'
      | none => rw [hs] at h'; simp at h'
      | meshes l => exact ⟨l, rfl⟩

theorem construct_kind {draws : ℕ → ℕ → ℝ × ℝ} {kind : Kind} {w w1 : World ι σ} {sub gt : SceneObj ι}
    {settings : Option Ref} {e : Ev ι σ} (h : construct interVol nn draws kind w sub gt settings = (w1, .ok e)) :
    e.kind = kind ∧ (∀ r, e.uses r ↔ r ∈ sub.values ++ gt.values) ∧
    (poseAll (poseStep kind (settings.map w.dict) draws) 0 (sub.values ++ gt.values) w).2 = none := by
  unfold construct at h
  rcases hp : poseAll (poseStep kind (settings.map w.dict) draws) 0 (sub.values ++ gt.values) w with ⟨w', _ | x⟩
  · rw [hp] at h
    dsimp only at h
    split_ifs at h
    · obtain ⟨-, -, -, -, -, h1, h2, h3, -⟩ := baseInit_ok interVol nn h
      refine ⟨h1, fun r => ?_, rfl⟩
      unfold Ev.uses
      rw [h2, h3, List.mem_append, or_comm]
    · obtain ⟨-, -, -, -, -, h1, h2, h3, -⟩ := baseInit_ok interVol nn h
      refine ⟨h1, fun r => ?_, rfl⟩
      unfold Ev.uses
      rw [h2, h3, List.mem_append]
  · rw [hp] at h
    simp at h

/-- A property of one element kept by the steps of the calls that touch it is kept by the calls. -/
theorem afterCalls_invariant {I : Fields → Prop} {r : Ref} (cs : List (Call ι))
    (hI : ∀ c ∈ cs, c.touches r → ∀ s k e, I e → I (poseStep c.kind s c.draws k e).1) (w : World ι σ)
    (h : I (w.elem r).payload) : I ((afterCalls interVol nn w cs).elem r).payload := by
  induction cs generalizing w with
  | nil => exact h
  | cons c cs ih =>
    refine ih (fun c' hc' => hI c' (List.mem_cons_of_mem _ hc')) _ ?_
    rw [construct_elem]
    by_cases ht : c.touches r
    · exact poseAll_invariant (hI c List.mem_cons_self ht _) _ _ _ h
    · rw [poseAll_elem_of_notMem]
      · exact h
      · rw [List.mem_append]; exact ht

/-- **C108** (second part) The surface errors of a voxel evaluator stay what they were too; those of a mesh evaluator do as
long as no later mesh evaluator is constructed on one of its elements.  Missing: later mesh evaluators on the same
elements, where it is false, see `C108_false`. -/
theorem C108_rms_partial {draws : ℕ → ℕ → ℝ × ℝ} {kind : Kind} {w w1 : World ι σ} {sub gt : SceneObj ι}
    {settings : Option Ref} {e : Ev ι σ} (h : construct interVol nn draws kind w sub gt settings = (w1, .ok e))
    (cs : List (Call ι))
    (hk : kind = .voxel ∨ kind = .mesh ∧ ∀ c ∈ cs, c.kind = .mesh → ∀ r, e.uses r → ¬ c.touches r) :
    e.rmsPoints nn (afterCalls interVol nn w1 cs) = e.rmsPoints nn w1 ∧
    e.rmsColor nn (afterCalls interVol nn w1 cs) = e.rmsColor nn w1 := by
  obtain ⟨h1, h2⟩ := afterCalls_frame (interVol := interVol) (nn := nn) (construct_settings h) cs
  obtain ⟨-, hu, hpose⟩ := construct_kind h
  have hel : w1.elem = (poseAll (poseStep kind (settings.map w.dict) draws) 0 (sub.values ++ gt.values) w).1.elem := by
    rw [← construct_elem interVol nn draws kind w sub gt settings, h]
  refine rms_congr h2 ?_
  intro r hr
  rcases hk with rfl | ⟨rfl, hk⟩
  · have hv : PosedVoxel (w1.elem r).payload := by
      rw [hel]
      exact poseAll_established (posedVoxel_established _ _) (posedVoxel_step _ _ _) _ _ _ hpose ((hu r).1 hr)
    have hv' : PosedVoxel ((afterCalls interVol nn w1 cs).elem r).payload :=
      afterCalls_invariant cs (fun c _ _ s k e => posedVoxel_step c.kind s c.draws k e) _ hv
    obtain ⟨g, a1, a2⟩ := hv
    obtain ⟨g', b1, b2⟩ := hv'
    have hst := congrArg Obj.payload (h1 r)
    have hsh : ((afterCalls interVol nn w1 cs).elem r).payload.shape = (w1.elem r).payload.shape := (static_inj hst).1
    have hpo : ((afterCalls interVol nn w1 cs).elem r).payload.pose = (w1.elem r).payload.pose := (static_inj hst).2
    rw [b1, a1] at hsh
    injection hsh with hsh
    rw [a2, b2, hpo, hsh]
  · have hm : ∃ ms, (w1.elem r).payload.shape = .meshes ms := by
      rw [hel]
      refine poseAll_established (I := fun e => ∃ ms, e.shape = .meshes ms) (mesh_established _ _) ?_ _ _ _ hpose ((hu r).1 hr)
      rintro k e ⟨ms, he⟩
      have hst := poseStep_static .mesh (settings.map w.dict) draws k e
      have hsh : (poseStep .mesh (settings.map w.dict) draws k e).1.shape = e.shape := (static_inj hst).1
      exact ⟨ms, hsh.trans he⟩
    exact (afterCalls_invariant (I := MeshWith (w1.elem r).payload.posedPoints) cs
      (fun c hc ht s k e => meshWith_step (fun hkk => hk c hc hkk r hr ht) s c.draws k _ e) _ ⟨hm, rfl⟩).2

end Track
end Sumo
