import Verif.Lemmas.TrackCopy
import Verif.Props.BBox
import Verif.Props.TrackHistory

/-!
# A copy of the ground truth gets the best result (C111)
-/

set_option linter.unusedSectionVars false

namespace Sumo
namespace Track
open AssocSpec ApSpec RotSpec PointSpec

variable {ι σ : Type} [DecidableEq ι] [LinearOrder σ] {interVol : InterVol} {nn : List (Vec3 ℝ) → Vec3 ℝ → ℕ}

/-! ### Only the attributes given by the caller matter -/

theorem SameStatic.obj {w w' : World ι σ} (h : SameStatic w w') (r : Ref) :
    (w'.elem r).id = (w.elem r).id ∧ (w'.elem r).category = (w.elem r).category ∧
    (w'.elem r).evaluated = (w.elem r).evaluated ∧ (w'.elem r).payload.bounds = (w.elem r).payload.bounds ∧
    (w'.elem r).payload.pose = (w.elem r).payload.pose ∧ (w'.elem r).payload.symmetry = (w.elem r).payload.symmetry ∧
    (w'.elem r).payload.shape = (w.elem r).payload.shape := by
  have h0 := h r
  have h1 := congrArg Obj.id h0
  have h2 := congrArg Obj.category h0
  have h3 := congrArg Obj.evaluated h0
  have h4 := congrArg (fun o => (Obj.payload o).bounds) h0
  have h5 := congrArg (fun o => (Obj.payload o).pose) h0
  have h6 := congrArg (fun o => (Obj.payload o).symmetry) h0
  have h7 := congrArg (fun o => (Obj.payload o).shape) h0
  exact ⟨h1, h2, h3, h4, h5, h6, h7⟩

theorem SameStatic.wellKeyed {w w' : World ι σ} (h : SameStatic w w') {sc : SceneObj ι} (hw : WellKeyed (w.view id sc)) :
    WellKeyed (w'.view id sc) := by
  refine ⟨?_, ?_⟩
  · have := hw.1
    unfold World.view at this ⊢
    unfold Dict.NodupKeys Dict.keys at this ⊢
    rw [List.map_map] at this ⊢
    exact this
  · intro p hp
    obtain ⟨q, hq, rfl⟩ := List.mem_map.1 hp
    have := hw.2 (q.1, mapObj id (w.elem q.2)) (List.mem_map.2 ⟨q, hq, rfl⟩)
    exact this.trans (h.obj q.2).1.symm

theorem SameStatic.isCopy {w w' : World ι σ} (h : SameStatic w w') {sub gt : SceneObj ι} (hc : IsCopy w sub gt) :
    IsCopy w' sub gt := by
  refine ⟨hc.keys, fun k r r' hr hr' => ?_⟩
  obtain ⟨-, a2, a3, a4, a5, a6, a7⟩ := h.obj r
  obtain ⟨-, b2, b3, b4, b5, b6, b7⟩ := h.obj r'
  rw [a2, a3, a4, a5, a6, a7, b2, b3, b4, b5, b6, b7]
  exact hc.same k r r' hr hr'

theorem SameStatic.fitScene {w w' : World ι σ} (h : SameStatic w w') {gt : SceneObj ι} (hf : FitScene w gt) :
    FitScene w' gt := by
  refine ⟨fun r hr => ?_, fun r hr hfl => ?_, ?_⟩
  · obtain ⟨-, a2, a3, a4, a5, a6, a7⟩ := h.obj r
    unfold FitElement
    rw [a5, a6]
    exact hf.fit r hr
  · obtain ⟨-, a2, a3, a4, a5, a6, a7⟩ := h.obj r
    rw [a2] at hfl
    rw [a3, a4]
    exact hf.floors r hr hfl
  · obtain ⟨r, hr, hfl⟩ := hf.floor
    obtain ⟨-, a2, a3, a4, a5, a6, a7⟩ := h.obj r
    refine ⟨r, hr, ?_⟩
    rw [a2, a4]
    exact hfl

theorem SameStatic.count {w w' : World ι σ} (h : SameStatic w w') (gt : SceneObj ι) :
    w'.countEvaluated gt = w.countEvaluated gt := by
  unfold World.countEvaluated
  congr 1
  apply List.filter_congr
  intro r _
  rw [(h.obj r).2.2.1]

theorem IsCopy.symm {w : World ι σ} {sub gt : SceneObj ι} (hc : IsCopy w sub gt) : IsCopy w gt sub := by
  refine ⟨fun k => (hc.keys k).symm, fun k r r' hr hr' => ?_⟩
  obtain ⟨a1, a2, a3, a4, a5, a6⟩ := hc.same k r' r hr' hr
  exact ⟨a1.symm, a2.symm, a3.symm, a4.symm, a5.symm, a6.symm⟩

/-- The partner of an element in the other scene. -/
theorem IsCopy.partner {w : World ι σ} {sub gt : SceneObj ι} (hc : IsCopy w sub gt) (hs : WellKeyed (w.view id sub))
    (hg : WellKeyed (w.view id gt)) {r : Ref} (hr : r ∈ sub.values) :
    ∃ r' ∈ gt.values, (w.elem r).id = (w.elem r').id := by
  obtain ⟨g, hgm, hid⟩ := (hc.ids hs hg (w.elem r).id).1 ⟨_, mem_values_view.2 ⟨r, hr, rfl⟩, rfl⟩
  obtain ⟨r', hr', rfl⟩ := mem_values_view.1 hgm
  exact ⟨r', hr', hid.symm⟩

theorem IsCopy.fitScene {w : World ι σ} {sub gt : SceneObj ι} (hc : IsCopy w sub gt) (hs : WellKeyed (w.view id sub))
    (hg : WellKeyed (w.view id gt)) (hf : FitScene w gt) : FitScene w sub := by
  refine ⟨fun r hr => ?_, fun r hr hfl => ?_, ?_⟩
  · obtain ⟨r', hr', hid⟩ := hc.partner hs hg hr
    obtain ⟨a1, a2, a3, a4, a5, a6⟩ := hc.elements hs hg hr hr' hid
    unfold FitElement
    rw [a4, a5]
    exact hf.fit r' hr'
  · obtain ⟨r', hr', hid⟩ := hc.partner hs hg hr
    obtain ⟨a1, a2, a3, a4, a5, a6⟩ := hc.elements hs hg hr hr' hid
    rw [a1] at hfl
    rw [a2, a3]
    exact hf.floors r' hr' hfl
  · obtain ⟨r', hr', hfl⟩ := hf.floor
    obtain ⟨r, hr, hid⟩ := hc.symm.partner hg hs hr'
    obtain ⟨a1, a2, a3, a4, a5, a6⟩ := hc.elements hs hg hr hr' hid.symm
    refine ⟨r, hr, ?_⟩
    rw [a1, a3]
    exact hfl

theorem IsCopy.count {w : World ι σ} {sub gt : SceneObj ι} (hc : IsCopy w sub gt) (hs : WellKeyed (w.view id sub))
    (hg : WellKeyed (w.view id gt)) : w.countEvaluated sub = w.countEvaluated gt := by
  unfold World.countEvaluated
  have hnd : ∀ {sc : SceneObj ι}, WellKeyed (w.view id sc) → (sc.values.map fun r => (w.elem r).id).Nodup := by
    intro sc h
    have := distinctIds_of_wellKeyed h
    unfold DistinctIds at this
    rw [values_view, List.map_map] at this
    exact this
  have hp : ((sub.values.filter fun r => (w.elem r).evaluated).map fun r => (w.elem r).id).Perm
      ((gt.values.filter fun r => (w.elem r).evaluated).map fun r => (w.elem r).id) := by
    rw [List.perm_ext_iff_of_nodup]
    · intro i
      simp only [List.mem_map, List.mem_filter]
      constructor
      · rintro ⟨r, ⟨hr, he⟩, rfl⟩
        obtain ⟨r', hr', hid⟩ := hc.partner hs hg hr
        exact ⟨r', ⟨hr', by rw [← (hc.elements hs hg hr hr' hid).2.1]; exact he⟩, hid.symm⟩
      · rintro ⟨r', ⟨hr', he⟩, rfl⟩
        obtain ⟨r, hr, hid⟩ := hc.symm.partner hg hs hr'
        exact ⟨r, ⟨hr, by rw [(hc.elements hs hg hr hr' hid.symm).2.1]; exact he⟩, hid.symm⟩
    · exact (hnd hs).sublist (List.Sublist.map _ List.filter_sublist)
    · exact (hnd hg).sublist (List.Sublist.map _ List.filter_sublist)
  simpa using hp.length_eq

/-! ### Bounding boxes -/

theorem bbSimilarity_self (hself : ∀ m, |interVol m m| = |meshVolume m.1 m.2|) (b : BoxedElement ℝ)
    (hR : IsRotation b.pose.R) (hv : b.bounds.volume ≠ 0) : bbSimilarity interVol b b = some 1 := by
  have hvol := C76_solid_volume_partial b hR
  have hpos : 0 < |meshVolume (bbox2pymesh b).1 (bbox2pymesh b).2| := by
    rw [abs_pos, hvol]
    exact mul_ne_zero (by norm_num) hv
  have hrej : bbReject (posedBbox b) (posedBbox b) = false := by
    have hne : ∃ p ps, b.pose.transformAllFrom b.bounds.corners = p :: ps := ⟨_, _, rfl⟩
    obtain ⟨p, ps, hp⟩ := hne
    unfold posedBbox
    rw [hp, bboxOfPoints_cons]
    have h1 := (amin_spec p ps).1 p (by simp)
    have h2 := (amax_spec p ps).1 p (by simp)
    simp only [bbReject, List.any_cons, List.any_nil, Bool.or_false, Bool.or_self, Bool.or_eq_false_iff,
      decide_eq_false_iff_not, gt_iff_lt, not_lt]
    exact ⟨h1.1.trans h2.1, h1.2.1.trans h2.2.1, h1.2.2.trans h2.2.2⟩
  unfold bbSimilarity
  rw [hrej]
  simp only [hself, Bool.false_eq_true, if_false]
  rw [if_neg (by linarith)]
  congr 1
  rw [div_eq_one_iff_eq (by linarith)]
  ring

/-- **C111** (bounding boxes) For a copy of any ground truth scene whose boxes have a volume and are pairwise
distinguishable, the bounding box evaluator with the default settings can be constructed and reports the best
result: shape score `n/(n + 1e-8)` for `n` evaluated elements, no pose error, the best semantics score up to `1e-8`, and
perceptual score 1. -/
theorem C111_bb_partial {argsort : List σ → List ℕ} (hsort : ∀ l, IsArgsort (argsort l) l)
    (hself : ∀ m, |interVol m m| = |meshVolume m.1 m.2|) {draws : ℕ → ℕ → ℝ × ℝ} {w : World ι σ} {sub gt : SceneObj ι}
    {settings : Option Ref} (hset : given w settings = defaultSettings)
    (hs : WellKeyed (w.view id sub)) (hg : WellKeyed (w.view id gt)) (hc : IsCopy w sub gt) (hf : FitScene w gt)
    (hvol : ∀ r ∈ gt.values, (w.elem r).payload.bounds.volume ≠ 0)
    (hdist : ∀ r ∈ gt.values, ∀ r' ∈ gt.values, (w.elem r).id ≠ (w.elem r').id →
      ∃ x < 1, bbSimilarity interVol (w.elem r).payload.boxed (w.elem r').payload.boxed = some x) :
    ∃ w1 e x, construct interVol nn draws .bb w sub gt settings = (w1, .ok e) ∧
      evaluateAll argsort nn w1 e = .ok [
        ("shape_score", .fin ((w.countEvaluated gt : ℚ) / ((w.countEvaluated gt : ℚ) + epsilon) : ℚ)),
        ("rotation_error", .fin 0), ("translation_error", .fin 0), ("semantics_score", .fin (x : ℚ)),
        ("perceptual_score", .fin 1)] ∧ 1 / (1 + epsilon) ≤ x ∧ x < 1 := by
  have hsim1 : ∀ r ∈ sub.values, ∀ r' ∈ gt.values, (w.elem r).id = (w.elem r').id →
      bbSimilarity interVol (w.elem r).payload.boxed (w.elem r').payload.boxed = some 1 := by
    intro r hr r' hr' hid
    obtain ⟨-, -, a3, a4, -, -⟩ := hc.elements hs hg hr hr' hid
    have : (w.elem r).payload.boxed = (w.elem r').payload.boxed := by
      unfold Fields.boxed; rw [a3, a4]
    rw [this]
    exact bbSimilarity_self hself _ (hf.fit r' hr').1 (hvol r' hr')
  have hsim2 : ∀ r ∈ sub.values, ∀ r' ∈ gt.values, (w.elem r).id ≠ (w.elem r').id →
      ∃ x < 1, bbSimilarity interVol (w.elem r).payload.boxed (w.elem r').payload.boxed = some x := by
    intro r hr r' hr' hid
    obtain ⟨r2, hr2, hid2⟩ := hc.partner hs hg hr
    obtain ⟨-, -, a3, a4, -, -⟩ := hc.elements hs hg hr hr2 hid2
    have : (w.elem r).payload.boxed = (w.elem r2).payload.boxed := by
      unfold Fields.boxed; rw [a3, a4]
    rw [this]
    exact hdist r2 hr2 r' hr' (by rw [← hid2]; exact hid)
  have hposed : (poseAll (poseStep .bb (settings.map w.dict) draws) 0 (sub.values ++ gt.values) w).2 = none :=
    poseAll_ok (I := fun _ => True) (fun k e _ => ⟨rfl, trivial⟩) _ _ _ (fun _ _ => trivial)
  obtain ⟨w1, e, h⟩ := construct_succeeds (interVol := interVol) (nn := nn) (draws := draws) (kind := .bb)
    (thresh := 0) hs hg hposed (by rw [hset]; rfl) (by rw [hset]; rfl) (fun b => Or.inl rfl) (by
      intro _ d hd g hg'
      by_cases hid : (w.elem d).id = (w.elem g).id
      · rw [hsim1 d hd g hg' hid]; simp
      · obtain ⟨x, -, hx⟩ := hsim2 d hd g hg' hid
        rw [hx]; simp)
  obtain ⟨-, -, -, -, -, -, -, hk, h6, h7, -⟩ := construct_build h
  have hst : SameStatic w w1 := by
    have := construct_static interVol nn draws .bb w sub gt settings
    rw [h] at this
    exact this
  rw [if_neg (by decide)] at h6 h7
  have hbox : ∀ r, (w1.elem r).payload.boxed = (w.elem r).payload.boxed := by
    intro r
    obtain ⟨-, -, -, a4, a5, -, -⟩ := hst.obj r
    unfold Fields.boxed
    rw [a4, a5]
  have hb : BestIsSame (shapeSimilarity .bb interVol nn 0.15) defaultThresholds (w1.view id e.submission).values
      (w1.view id e.groundTruth).values := by
    rw [h6, h7]
    refine ⟨(hst.isCopy hc).ids (hst.wellKeyed hs) (hst.wellKeyed hg), ?_, ?_⟩
    · intro d hd g hg' hid t ht
      obtain ⟨r, hr, rfl⟩ := mem_values_view.1 hd
      obtain ⟨r', hr', rfl⟩ := mem_values_view.1 hg'
      have hid' : (w.elem r).id = (w.elem r').id := by rw [← (hst.obj r).1, ← (hst.obj r').1]; exact hid
      have := hsim1 r hr r' hr' hid'
      simp only [shapeSimilarity, mapObj_payload, id, hbox, this, Option.getD_some]
      linarith [(mem_defaultThresholds ht).2]
    · intro d hd g hg' g' hg'' hid hne
      obtain ⟨r, hr, rfl⟩ := mem_values_view.1 hd
      obtain ⟨r', hr', rfl⟩ := mem_values_view.1 hg'
      obtain ⟨r'', hr'', rfl⟩ := mem_values_view.1 hg''
      have hid' : (w.elem r).id = (w.elem r').id := by rw [← (hst.obj r).1, ← (hst.obj r').1]; exact hid
      have hne' : (w.elem r).id ≠ (w.elem r'').id := by rw [← (hst.obj r).1, ← (hst.obj r'').1]; exact hne
      have h1 := hsim1 r hr r' hr' hid'
      obtain ⟨x, hx1, hx⟩ := hsim2 r hr r'' hr'' hne'
      simp only [shapeSimilarity, mapObj_payload, id, hbox, h1, hx, Option.getD_some]
      exact hx1
  have hcore := copy_core hsort h hset (by rw [h6]; exact hst.wellKeyed hs) (by rw [h7]; exact hst.wellKeyed hg)
    (by rw [h6, h7]; exact hst.isCopy hc) (by rw [h7]; exact hst.fitScene hf) hb
  obtain ⟨c1, c2, ⟨x, c3, hx1, hx2⟩, c4, -⟩ := hcore
  refine ⟨w1, e, x, h, ?_, hx1, hx2⟩
  unfold evaluateAll
  rw [c1, c2, c3, c4, hk, h7, hst.count]
  rfl

/-! ### Voxels -/

/-- A voxel element as its evaluator leaves it. -/
def VoxelPosed (e : Fields) : Prop :=
  ∃ g b, e.shape = .voxels g ∧ g.bounds = .ok b ∧ e.posedPoints = some (voxelPoints e.pose g) ∧
    e.posedBbox = some (bboxOfPoints (e.pose.transformAllFrom b.corners))

theorem poseVoxel_posed {e : Fields} {g : VoxelGrid ℝ} {b : Box3d ℝ} (h1 : e.shape = .voxels g) (h2 : g.bounds = .ok b) :
    (poseVoxel e).2 = none ∧ VoxelPosed (poseVoxel e).1 := by
  unfold poseVoxel
  rw [h1]
  simp only [h2]
  exact ⟨trivial, g, b, rfl, h2, rfl, rfl⟩

theorem poseVoxel_established {e : Fields} (h : (poseVoxel e).2 = none) : VoxelPosed (poseVoxel e).1 := by
  cases hs : e.shape with
  | voxels g =>
    cases hb : g.bounds with
    | error x =>
      unfold poseVoxel at h
      rw [hs] at h
      simp only [hb] at h
      simp at h
    | ok b => exact (poseVoxel_posed hs hb).2
  | none => unfold poseVoxel at h; rw [hs] at h; simp at h
  | meshes l => unfold poseVoxel at h; rw [hs] at h; simp at h

theorem voxelCenters_ne {g : VoxelGrid ℝ} {b : Box3d ℝ} (h : g.bounds = .ok b) : g.voxelCenters ≠ [] := by
  intro h0
  unfold VoxelGrid.bounds at h
  rw [h0] at h
  simp at h

/-- Where the centres of the voxels of an element are. -/
noncomputable def voxelCentres (e : Fields) : List (Vec3 ℝ) :=
  match e.shape with
  | .voxels g => e.pose.transformAllFrom g.voxelCenters
  | _ => []

theorem VoxelPosed.points {e : Fields} (h : VoxelPosed e) : positions e.points.posedPoints = voxelCentres e := by
  obtain ⟨g, b, h1, h2, h3, h4⟩ := h
  unfold Fields.points voxelCentres positions
  rw [h1, h3]
  simp only [Option.getD_some, voxelPoints, List.map_map]
  exact List.map_id _

/-- Posed elements with the same voxels and pose have the same points. -/
theorem VoxelPosed.eq {e e' : Fields} (h : VoxelPosed e) (h' : VoxelPosed e') (hs : e.shape = e'.shape)
    (hp : e.pose = e'.pose) : e.points = e'.points := by
  obtain ⟨g, b, h1, h2, h3, h4⟩ := h
  obtain ⟨g', b', h1', h2', h3', h4'⟩ := h'
  rw [h1, h1'] at hs
  injection hs with hs
  subst hs
  rw [h2] at h2'
  injection h2' with h2'
  subst h2'
  unfold Fields.points
  rw [h3, h4, h3', h4', hp]

theorem VoxelPosed.self (hnn : IsNearest nn) {e : Fields} (h : VoxelPosed e) {t : ℝ} (ht : 0 ≤ t) :
    pointsIou nn (positions e.points.posedPoints) e.points.posedBbox (positions e.points.posedPoints)
      e.points.posedBbox t = 1 := by
  obtain ⟨g, b, h1, h2, h3, h4⟩ := id h
  refine C30_self hnn ?_ ht ?_
  · rw [h.points]
    unfold voxelCentres
    rw [h1]
    simp [Pose3.transformAllFrom, Rot3.applyAll, voxelCenters_ne h2]
  · unfold Fields.points
    rw [h4]
    simp only [Option.getD_some]
    obtain ⟨p, ps, hp⟩ : ∃ p ps, e.pose.transformAllFrom b.corners = p :: ps := ⟨_, _, rfl⟩
    rw [hp, bboxOfPoints_cons]
    have h1 := (amin_spec p ps).1 p (by simp)
    have h2 := (amax_spec p ps).1 p (by simp)
    exact ⟨h1.1.trans h2.1, h1.2.1.trans h2.2.1, h1.2.2.trans h2.2.2⟩

/-- **C111** (voxels) For a copy of any ground truth scene whose elements have voxels and whose different elements do not
overlap completely (point IoU of their voxel centres at 0.15 below 1), the voxel evaluator with the default settings
can be constructed and reports the best result; both surface errors are 0. -/
theorem C111_voxel_partial {argsort : List σ → List ℕ} (hsort : ∀ l, IsArgsort (argsort l) l) (hnn : IsNearest nn)
    {draws : ℕ → ℕ → ℝ × ℝ} {w : World ι σ} {sub gt : SceneObj ι}
    {settings : Option Ref} (hset : given w settings = defaultSettings)
    (hs : WellKeyed (w.view id sub)) (hg : WellKeyed (w.view id gt)) (hc : IsCopy w sub gt) (hf : FitScene w gt)
    (hvox : ∀ r ∈ gt.values, ∃ g, (w.elem r).payload.shape = .voxels g ∧ g.voxels ≠ [])
    (hdist : ∀ r ∈ gt.values, ∀ r' ∈ gt.values, (w.elem r).id ≠ (w.elem r').id →
      iou (voxelCentres (w.elem r).payload) (voxelCentres (w.elem r').payload) 0.15 < 1) :
    ∃ w1 e x, construct interVol nn draws .voxel w sub gt settings = (w1, .ok e) ∧
      evaluateAll argsort nn w1 e = .ok [
        ("shape_score", .fin ((w.countEvaluated gt : ℚ) / ((w.countEvaluated gt : ℚ) + epsilon) : ℚ)),
        ("rotation_error", .fin 0), ("translation_error", .fin 0), ("rms_points_error", .fin 0),
        ("rms_color_error", .fin 0), ("semantics_score", .fin (x : ℚ)),
        ("perceptual_score", .fin 1)] ∧ 1 / (1 + epsilon) ≤ x ∧ x < 1 := by
  have hbounds : ∀ g : VoxelGrid ℝ, g.voxels ≠ [] → ∃ b, g.bounds = .ok b := by
    intro g hne
    unfold VoxelGrid.bounds
    cases hvc : g.voxelCenters with
    | nil => unfold VoxelGrid.voxelCenters at hvc; simp at hvc; exact absurd hvc hne
    | cons c cs => exact ⟨_, rfl⟩
  have hshape : ∀ r ∈ sub.values ++ gt.values, ∃ g b, (w.elem r).payload.shape = .voxels g ∧ g.bounds = .ok b := by
    have h0 : ∀ r ∈ gt.values, ∃ g b, (w.elem r).payload.shape = .voxels g ∧ g.bounds = .ok b := by
      intro r hr
      obtain ⟨g, hg1, hg2⟩ := hvox r hr
      obtain ⟨b, hb⟩ := hbounds g hg2
      exact ⟨g, b, hg1, hb⟩
    intro r hr
    rcases List.mem_append.1 hr with hr | hr
    · obtain ⟨r', hr', hid⟩ := hc.partner hs hg hr
      obtain ⟨g, b, h1, h2⟩ := h0 r' hr'
      exact ⟨g, b, (hc.elements hs hg hr hr' hid).2.2.2.2.2.trans h1, h2⟩
    · exact h0 r hr
  have hposed : (poseAll (poseStep .voxel (settings.map w.dict) draws) 0 (sub.values ++ gt.values) w).2 = none := by
    refine poseAll_ok (I := fun e => ∃ g b, e.shape = .voxels g ∧ g.bounds = .ok b) ?_ _ _ _ hshape
    rintro k e ⟨g, b, h1, h2⟩
    obtain ⟨a1, g', b', a2, a3, -⟩ := poseVoxel_posed h1 h2
    exact ⟨a1, g', b', a2, a3⟩
  obtain ⟨w1, e, h⟩ := construct_succeeds (interVol := interVol) (nn := nn) (draws := draws) (kind := .voxel)
    (thresh := 0.15) hs hg hposed (by rw [hset]; rfl) (by rw [hset]; rfl) (fun b => by
      cases b
      · exact Or.inr rfl
      · left; rw [hset]; rfl) (by intro h0; cases h0)
  obtain ⟨ts, cats, thresh, b1, b2, b3, b4, hk, h6, h7, hbuild⟩ := construct_build h
  have hst : SameStatic w w1 := by
    have := construct_static interVol nn draws .voxel w sub gt settings
    rw [h] at this
    exact this
  have hvp : ∀ r ∈ sub.values ++ gt.values, VoxelPosed (w1.elem r).payload := by
    intro r hr
    have hel := construct_elem interVol nn draws .voxel w sub gt settings
    rw [h] at hel
    rw [hel]
    refine poseAll_established (step := poseStep .voxel (settings.map w.dict) draws) (I := VoxelPosed)
      (fun k e h => poseVoxel_established h) ?_ _ _ _ hposed hr
    rintro k e ⟨g, b, h1, h2, -⟩
    exact (poseVoxel_posed h1 h2).2
  rw [if_pos rfl] at h6 h7
  have hs1 := hst.wellKeyed hs
  have hg1 := hst.wellKeyed hg
  have hc1 := hst.isCopy hc
  have hpts : ∀ r ∈ gt.values, ∀ r' ∈ sub.values, (w1.elem r).id = (w1.elem r').id →
      (w1.elem r).payload.points = (w1.elem r').payload.points := by
    intro r hr r' hr' hid
    obtain ⟨-, -, -, a4, -, a6⟩ := hc1.symm.elements hg1 hs1 hr hr' hid
    exact VoxelPosed.eq (hvp r (List.mem_append_right _ hr)) (hvp r' (List.mem_append_left _ hr')) a6 a4
  have hsim1 : ∀ r ∈ gt.values, ∀ r' ∈ sub.values, (w1.elem r).id = (w1.elem r').id →
      pointSimilarity nn 0.15 (mapObj Fields.points (w1.elem r)) (mapObj Fields.points (w1.elem r')) = 1 := by
    intro r hr r' hr' hid
    unfold pointSimilarity
    simp only [mapObj_payload]
    rw [← hpts r hr r' hr' hid]
    exact (hvp r (List.mem_append_right _ hr)).self hnn (by norm_num)
  have hcen : ∀ r, voxelCentres (w1.elem r).payload = voxelCentres (w.elem r).payload := by
    intro r
    obtain ⟨-, -, -, -, a5, -, a7⟩ := hst.obj r
    unfold voxelCentres
    rw [a5, a7]
  have hsim2 : ∀ r ∈ gt.values, ∀ r' ∈ sub.values, (w1.elem r).id ≠ (w1.elem r').id →
      pointSimilarity nn 0.15 (mapObj Fields.points (w1.elem r)) (mapObj Fields.points (w1.elem r')) < 1 := by
    intro r hr r' hr' hid
    obtain ⟨r2, hr2, hid2⟩ := hc1.partner hs1 hg1 hr'
    have hd := hdist r hr r2 hr2 (by rw [← (hst.obj r).1, ← (hst.obj r2).1, ← hid2]; exact hid)
    unfold pointSimilarity
    simp only [mapObj_payload]
    rcases pointsIou_cases hnn (positions (w1.elem r).payload.points.posedPoints)
      (positions (w1.elem r').payload.points.posedPoints) (w1.elem r).payload.points.posedBbox
      (w1.elem r').payload.points.posedBbox 0.15 with ⟨h0, -⟩ | ⟨h0, -⟩
    · rw [h0]; norm_num
    · rw [h0, ← hpts r2 hr2 r' hr' hid2.symm, (hvp r (List.mem_append_right _ hr)).points,
        (hvp r2 (List.mem_append_right _ hr2)).points, hcen, hcen]
      exact hd
  have hb : BestIsSame (shapeSimilarity .voxel interVol nn 0.15) defaultThresholds (w1.view id e.submission).values
      (w1.view id e.groundTruth).values := by
    rw [h6, h7]
    refine ⟨hc1.symm.ids hg1 hs1, ?_, ?_⟩
    · intro d hd g hg' hid t ht
      obtain ⟨r, hr, rfl⟩ := mem_values_view.1 hd
      obtain ⟨r', hr', rfl⟩ := mem_values_view.1 hg'
      have h1 := hsim1 r hr r' hr' hid
      show t ≤ pointSimilarity nn 0.15 (mapObj Fields.points (w1.elem r)) (mapObj Fields.points (w1.elem r'))
      rw [h1]
      linarith [(mem_defaultThresholds ht).2]
    · intro d hd g hg' g' hg'' hid hne
      obtain ⟨r, hr, rfl⟩ := mem_values_view.1 hd
      obtain ⟨r', hr', rfl⟩ := mem_values_view.1 hg'
      obtain ⟨r'', hr'', rfl⟩ := mem_values_view.1 hg''
      show pointSimilarity nn 0.15 (mapObj Fields.points (w1.elem r)) (mapObj Fields.points (w1.elem r'')) <
        pointSimilarity nn 0.15 (mapObj Fields.points (w1.elem r)) (mapObj Fields.points (w1.elem r'))
      rw [hsim1 r hr r' hr' hid]
      exact hsim2 r hr r'' hr'' hne
  have hcore := copy_core hsort h hset (by rw [h6]; exact hg1) (by rw [h7]; exact hs1)
    (by rw [h6, h7]; exact hc1.symm) (by rw [h7]; exact hc1.fitScene hs1 hg1 (hst.fitScene hf)) hb
  obtain ⟨c1, c2, ⟨x, c3, hx1, hx2⟩, c4, c5⟩ := hcore
  rw [hset] at b1 b2 b3 b4
  have hts : ts = defaultThresholds := by
    unfold defaultSettings at b1; simp only [Option.some.injEq] at b1; exact b1.symm
  have hcats : cats = defaultCategories := by
    unfold defaultSettings at b2; simp only [Option.some.injEq] at b2; exact b2.symm
  subst hts hcats
  obtain ⟨ev, hev, hnow⟩ := hbuild Fields.points (pointSimilarity nn thresh) (fun d _ g _ => rfl)
  have c5' := fun t ht => c5 t ht Fields.points _ ev hev hnow
  obtain ⟨-, -, -, -, -, hset'⟩ := build_ok hev
  have hthr : (e.settingsIn w1).thresholds = some (npSort defaultThresholds) := by
    rw [b4]; rfl
  have hws := wellKeyed_view (w := w1) (sc := e.submission) (by rw [h6]; exact hg1) Fields.points
  have hwg := wellKeyed_view (w := w1) (sc := e.groundTruth) (by rw [h7]; exact hs1) Fields.points
  obtain ⟨t0, ht0⟩ := List.exists_mem_of_ne_nil _ defaultThresholds_ne
  obtain ⟨rf, hrf, -⟩ := hf.floor
  obtain ⟨rs, hrs, hrid⟩ := hc1.symm.partner hg1 hs1 hrf
  have hex : ∃ t ∈ defaultThresholds, ∃ d g, MatchedAt (w1.view Fields.points e.submission)
      (w1.view Fields.points e.groundTruth) ev t d g :=
    ⟨t0, ht0, _, _, (c5' t0 ht0 _ _).2 ⟨mem_values_view.2 ⟨rf, by rw [h6]; exact hrf, rfl⟩,
      mem_values_view.2 ⟨rs, by rw [h7]; exact hrs, rfl⟩, hrid⟩⟩
  have hpair : ∀ t ∈ defaultThresholds, ∀ d g, MatchedAt (w1.view Fields.points e.submission)
      (w1.view Fields.points e.groundTruth) ev t d g → d.payload.posedPoints = g.payload.posedPoints ∧
      d.payload.posedPoints ≠ [] ∧ ∀ p ∈ d.payload.posedPoints, p.color = 0 := by
    intro t ht d g hm
    obtain ⟨hd, hg', hid⟩ := (c5' t ht d g).1 hm
    obtain ⟨r, hr, rfl⟩ := mem_values_view.1 hd
    obtain ⟨r', hr', rfl⟩ := mem_values_view.1 hg'
    rw [h6] at hr
    rw [h7] at hr'
    refine ⟨congrArg PointPayload.posedPoints (hpts r hr r' hr' hid), ?_, ?_⟩
    · intro h0
      have hv := hvp r (List.mem_append_right _ hr)
      have h1 := hv.points
      simp only [mapObj_payload] at h0
      rw [h0] at h1
      obtain ⟨g, b, a1, a2, -⟩ := hv
      unfold voxelCentres at h1
      rw [a1] at h1
      simp [positions, Pose3.transformAllFrom, Rot3.applyAll, voxelCenters_ne a2] at h1
    · intro p hp
      obtain ⟨g, b, a1, a2, a3, a4⟩ := hvp r (List.mem_append_right _ hr)
      simp only [mapObj_payload, Fields.points, a3, Option.getD_some] at hp
      unfold voxelPoints at hp
      obtain ⟨q, -, rfl⟩ := List.mem_map.1 hp
      rfl
  have hrms : e.rmsPoints nn w1 = .ok (some 0) := by
    unfold Ev.rmsPoints
    have : pointsRmsssd nn { ev with settings := ⟨npSort defaultThresholds, []⟩ } = pointsRmsssd nn ev := by
      unfold pointsRmsssd rmsLoop
      rw [hset']
    simp only [hthr, key, bind, Except.bind, hnow, this]
    obtain ⟨y, hy, -, hy0⟩ := (C34_points_rms_values hnn hev hws hwg).2 hex
    rw [hy]
    have : y = 0 := hy0.2 fun t ht d g hm => by
      right; right
      rw [(hpair t ht d g hm).1]
      exact fun p => Iff.rfl
    rw [this]
  have hcol : e.rmsColor nn w1 = .ok (some 0) := by
    unfold Ev.rmsColor
    have : colorRmsssd nn { ev with settings := ⟨npSort defaultThresholds, []⟩ } = colorRmsssd nn ev := by
      unfold colorRmsssd rmsLoop
      rw [hset']
    simp only [hthr, key, bind, Except.bind, hnow, this]
    obtain ⟨Q, hQ⟩ := exists_lists hev hws hwg
    obtain ⟨-, hE, hE0⟩ := C34_color_rms (nn := nn) hev hws hwg (fun t ht d g hm => by
      obtain ⟨p1, p2, -⟩ := hpair t ht d g hm
      exact ⟨p2, by rw [← p1]; exact p2⟩) hQ
    have hne : errors ⟨defaultThresholds, defaultCategories⟩ Q
        (fun d g => colorRms nn d.payload.posedPoints g.payload.posedPoints) ≠ [] := by
      intro h0
      obtain ⟨t, ht, d, g, hm⟩ := hex
      exact hE0.1 h0 t ht d g hm
    rw [(hE hne).1]
    have hz : ∀ y ∈ errors ⟨defaultThresholds, defaultCategories⟩ Q
        (fun d g => colorRms nn d.payload.posedPoints g.payload.posedPoints), y = 0 := by
      intro y hy
      obtain ⟨t, ht, d, g, hm, rfl⟩ := (mem_errors hQ).1 hy
      obtain ⟨p1, p2, p3⟩ := hpair t ht d g hm
      have h1 := C34_color_zero hnn (A := d.payload.posedPoints) (B := g.payload.posedPoints) p2 (by rw [← p1]; exact p2)
        (fun p => by rw [p1]) (fun p hp q hq _ => by rw [p3 p hp, p3 q hq])
      rw [pairColorRms_eq p2 (by rw [← p1]; exact p2)] at h1
      simpa using h1
    have hsum : (errors ⟨defaultThresholds, defaultCategories⟩ Q
        (fun d g => colorRms nn d.payload.posedPoints g.payload.posedPoints)).sum = 0 :=
      List.sum_eq_zero hz
    rw [hsum, zero_div]
  refine ⟨w1, e, x, h, ?_, hx1, hx2⟩
  unfold evaluateAll
  rw [c1, c2, c3, c4, hk, h7, hst.count, hc.count hs hg, hrms, hcol]
  rfl

/-! ### Meshes -/

/-- A mesh element as its evaluator leaves it. -/
def MeshPosed (e : Fields) : Prop := ∃ pts, e.posedPoints = some pts ∧ e.posedBbox = some (bboxOfPoints (positions pts))

theorem meshPosed_of_ok {s : Option Settings} {rnd : ℕ → ℝ × ℝ} {e : Fields} (h : (poseMesh s rnd e).2 = none) :
    MeshPosed (poseMesh s rnd e).1 := by
  unfold poseMesh at h ⊢
  cases s with
  | none => simp at h
  | some s =>
    dsimp only at h ⊢
    cases hd : s.density with
    | none => rw [hd] at h; simp at h
    | some d =>
      rw [hd] at h
      dsimp only at h ⊢
      cases hs : e.shape with
      | voxels g => rw [hs] at h; simp at h
      | none => rw [hs] at h; simp at h
      | meshes l =>
        rw [hs] at h
        dsimp only at h ⊢
        cases hp : sampleElement rnd l e.pose d with
        | error x => rw [hp] at h; simp at h
        | ok pts => exact ⟨pts, rfl, rfl⟩

theorem meshPosed_step {s : Option Settings} {rnd : ℕ → ℝ × ℝ} {e : Fields} (h : MeshPosed e) :
    MeshPosed (poseMesh s rnd e).1 := by
  unfold poseMesh
  split
  · exact h
  · split
    · exact h
    · split
      · split
        · exact h
        · exact ⟨_, rfl, rfl⟩
      · exact h

theorem inside_bbox (l : List (Vec3 ℝ)) : Inside l (bboxOfPoints l) := by
  cases l with
  | nil => intro p hp; simp at hp
  | cons q l =>
    rw [bboxOfPoints_cons]
    intro p hp
    obtain ⟨a1, a2, a3⟩ := (amin_spec q l).1 p hp
    obtain ⟨b1, b2, b3⟩ := (amax_spec q l).1 p hp
    exact ⟨⟨a1, b1⟩, ⟨a2, b2⟩, a3, b3⟩

theorem MeshPosed.inside {e : Fields} (h : MeshPosed e) : Inside (positions e.points.posedPoints) e.points.posedBbox := by
  obtain ⟨pts, h1, h2⟩ := h
  unfold Fields.points
  rw [h1, h2]
  exact inside_bbox _

/-- The points a mesh evaluator has drawn for an element. -/
noncomputable def drawn (w : World ι σ) (r : Ref) : List (Vec3 ℝ) := positions (w.elem r).payload.points.posedPoints

/-- **C111** (meshes) For a copy of any ground truth scene the mesh evaluator with the default settings reports the best shape
and semantics scores, no pose error and perceptual score 1, **if** the points drawn for each element and for its copy overlap
(IoU at 0.15) by at least 0.75 and more than those drawn for the element and any other one. -/
theorem C111_mesh_partial {argsort : List σ → List ℕ} (hsort : ∀ l, IsArgsort (argsort l) l) (hnn : IsNearest nn)
    {draws : ℕ → ℕ → ℝ × ℝ} {w w1 : World ι σ} {sub gt : SceneObj ι} {e : Ev ι σ}
    {settings : Option Ref} (hset : given w settings = defaultSettings)
    (hs : WellKeyed (w.view id sub)) (hg : WellKeyed (w.view id gt)) (hc : IsCopy w sub gt) (hf : FitScene w gt)
    (h : construct interVol nn draws .mesh w sub gt settings = (w1, .ok e))
    (hsame : ∀ r ∈ sub.values, ∀ r' ∈ gt.values, (w.elem r).id = (w.elem r').id → 0.75 ≤ iou (drawn w1 r) (drawn w1 r') 0.15)
    (hother : ∀ r ∈ sub.values, ∀ r' ∈ gt.values, ∀ r'' ∈ gt.values, (w.elem r).id = (w.elem r').id →
      (w.elem r).id ≠ (w.elem r'').id → iou (drawn w1 r) (drawn w1 r'') 0.15 < iou (drawn w1 r) (drawn w1 r') 0.15) :
    e.shapeScore argsort w1 = .ok (some ((w.countEvaluated gt : ℚ) / ((w.countEvaluated gt : ℚ) + epsilon))) ∧
    e.poseError w1 = .ok (some (0, 0)) ∧
    (∃ x, e.semanticsScore argsort w1 = .ok (some x) ∧ 1 / (1 + epsilon) ≤ x ∧ x < 1) ∧
    e.perceptualScore w1 = .ok (some 1) := by
  obtain ⟨-, -, hpose⟩ := construct_kind h
  obtain ⟨-, -, -, -, -, -, -, hk, h6, h7, -⟩ := construct_build h
  rw [if_neg (by decide)] at h6 h7
  have hst : SameStatic w w1 := by
    have := construct_static interVol nn draws .mesh w sub gt settings
    rw [h] at this
    exact this
  have hmp : ∀ r ∈ sub.values ++ gt.values, MeshPosed (w1.elem r).payload := by
    intro r hr
    have hel := construct_elem interVol nn draws .mesh w sub gt settings
    rw [h] at hel
    rw [hel]
    exact poseAll_established (step := poseStep .mesh (settings.map w.dict) draws) (I := MeshPosed)
      (fun k e h => meshPosed_of_ok h) (fun k e h => meshPosed_step h) _ _ _ hpose hr
  have hsim : ∀ r ∈ sub.values, ∀ r' ∈ gt.values,
      shapeSimilarity .mesh interVol nn 0.15 (w1.elem r) (w1.elem r') = iou (drawn w1 r) (drawn w1 r') 0.15 := by
    intro r hr r' hr'
    exact C31_value hnn (hmp r (List.mem_append_left _ hr)).inside (hmp r' (List.mem_append_right _ hr')).inside _
  have hb : BestIsSame (shapeSimilarity .mesh interVol nn 0.15) defaultThresholds (w1.view id e.submission).values
      (w1.view id e.groundTruth).values := by
    rw [h6, h7]
    refine ⟨(hst.isCopy hc).ids (hst.wellKeyed hs) (hst.wellKeyed hg), ?_, ?_⟩
    · intro d hd g hg' hid t ht
      obtain ⟨r, hr, rfl⟩ := mem_values_view.1 hd
      obtain ⟨r', hr', rfl⟩ := mem_values_view.1 hg'
      have hid' : (w.elem r).id = (w.elem r').id := by rw [← (hst.obj r).1, ← (hst.obj r').1]; exact hid
      show t ≤ shapeSimilarity .mesh interVol nn 0.15 (w1.elem r) (w1.elem r')
      rw [hsim r hr r' hr']
      linarith [(mem_defaultThresholds ht).2, hsame r hr r' hr' hid']
    · intro d hd g hg' g' hg'' hid hne
      obtain ⟨r, hr, rfl⟩ := mem_values_view.1 hd
      obtain ⟨r', hr', rfl⟩ := mem_values_view.1 hg'
      obtain ⟨r'', hr'', rfl⟩ := mem_values_view.1 hg''
      have hid' : (w.elem r).id = (w.elem r').id := by rw [← (hst.obj r).1, ← (hst.obj r').1]; exact hid
      have hne' : (w.elem r).id ≠ (w.elem r'').id := by rw [← (hst.obj r).1, ← (hst.obj r'').1]; exact hne
      show shapeSimilarity .mesh interVol nn 0.15 (w1.elem r) (w1.elem r'') <
        shapeSimilarity .mesh interVol nn 0.15 (w1.elem r) (w1.elem r')
      rw [hsim r hr r' hr', hsim r hr r'' hr'']
      exact hother r hr r' hr' r'' hr'' hid' hne'
  obtain ⟨c1, c2, c3, c4, -⟩ := copy_core hsort h hset (by rw [h6]; exact hst.wellKeyed hs)
    (by rw [h7]; exact hst.wellKeyed hg) (by rw [h6, h7]; exact hst.isCopy hc) (by rw [h7]; exact hst.fitScene hf) hb
  rw [h7, hst.count] at c1
  exact ⟨c1, c2, c3, c4⟩

end Track
end Sumo
