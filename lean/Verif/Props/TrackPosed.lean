import Verif.Props.TrackApi

/-!
# What the constructors store with the elements (C32)
-/

set_option linter.unusedSectionVars false

namespace Sumo
namespace Track
open AssocSpec PointSpec BoxSpec

variable {ι σ : Type} [DecidableEq ι] [LinearOrder σ] {interVol : InterVol} {nn : List (Vec3 ℝ) → Vec3 ℝ → ℕ}

/-- What a loop body that succeeded establishes, and every further one keeps, holds for all elements of both scenes. -/
theorem construct_established {draws : ℕ → ℕ → ℝ × ℝ} {kind : Kind} {w w1 : World ι σ} {sub gt : SceneObj ι}
    {settings : Option Ref} {e : Ev ι σ} (h : construct interVol nn draws kind w sub gt settings = (w1, .ok e)) {I : Fields → Prop}
    (hE : ∀ k e, (poseStep kind (settings.map w.dict) draws k e).2 = none → I (poseStep kind (settings.map w.dict) draws k e).1)
    (hI : ∀ k e, I e → I (poseStep kind (settings.map w.dict) draws k e).1) {r : Ref} (hr : r ∈ sub.values ++ gt.values) :
    I (w1.elem r).payload := by
  have hel := construct_elem interVol nn draws kind w sub gt settings
  rw [h] at hel
  have hok : (poseAll (poseStep kind (settings.map w.dict) draws) 0 (sub.values ++ gt.values) w).2 = none := by
    unfold construct at h
    rcases hp : poseAll (poseStep kind (settings.map w.dict) draws) 0 (sub.values ++ gt.values) w with ⟨w', _ | x⟩
    · rfl
    · rw [hp] at h; simp at h
  rw [hel]
  exact poseAll_established hE hI _ _ _ hok hr

/-- The bounds of a grid enclose the centres of its voxels. -/
theorem grid_bounds_mem {g : VoxelGrid ℝ} (hs : 0 < g.scale) {b : Box3d ℝ} (hb : g.bounds = .ok b) {c : Vec3 ℝ}
    (hc : c ∈ g.voxelCenters) : Mem b c := by
  have hv : 0 < 0.5 * g.voxelSize := by unfold VoxelGrid.voxelSize; positivity
  unfold VoxelGrid.bounds at hb
  cases hcs : g.voxelCenters with
  | nil => rw [hcs] at hc; simp at hc
  | cons d cs =>
    rw [hcs] at hb hc
    simp only [Except.ok.injEq] at hb
    subst hb
    obtain ⟨a1, a2, a3⟩ := (amin_spec d cs).1 c hc
    obtain ⟨b1, b2, b3⟩ := (amax_spec d cs).1 c hc
    refine ⟨⟨?_, ?_⟩, ⟨?_, ?_⟩, ?_, ?_⟩ <;> simp only [Box3d.mk', Vec3.vmin, Vec3.vmax]
    · exact (min_le_left _ _).trans (by linarith)
    · exact le_trans (by linarith) (le_max_right _ _)
    · exact (min_le_left _ _).trans (by linarith)
    · exact le_trans (by linarith) (le_max_right _ _)
    · exact (min_le_left _ _).trans (by linarith)
    · exact le_trans (by linarith) (le_max_right _ _)

/-- **C32** The boxes the quick rejection compares are those of the posed elements.  The bounding box track stores with every
element of both scenes a box that encloses all points of its bounds, moved by its pose, and each of whose faces touches a moved
corner.  In the mesh track the box of an element encloses all points drawn for it, in the voxel track it encloses the moved
centres of all its voxels (the voxel size being positive). -/
theorem C32_stored {draws : ℕ → ℕ → ℝ × ℝ} {kind : Kind} {w w1 : World ι σ} {sub gt : SceneObj ι}
    {settings : Option Ref} {e : Ev ι σ} (h : construct interVol nn draws kind w sub gt settings = (w1, .ok e)) {r : Ref}
    (hr : r ∈ sub.values ++ gt.values) :
    (kind = .bb → ∃ b, (w1.elem r).payload.posedBbox = some b ∧
      (∀ p, Mem (w.elem r).payload.bounds p → Mem b ((w.elem r).payload.pose.transformFrom p)) ∧
      Tight b ((w.elem r).payload.bounds.corners.map (w.elem r).payload.pose.transformFrom)) ∧
    (kind = .mesh → ∃ pts b, (w1.elem r).payload.posedPoints = some pts ∧ (w1.elem r).payload.posedBbox = some b ∧
      Inside (positions pts) b ∧ (pts ≠ [] → Tight b (positions pts))) ∧
    (kind = .voxel → ∃ g b, (w.elem r).payload.shape = .voxels g ∧ (w1.elem r).payload.posedBbox = some b ∧
      (0 < g.scale → Inside (g.voxelCenters.map (w.elem r).payload.pose.transformFrom) b)) := by
  have hst : SameStatic w w1 := by
    have := construct_static interVol nn draws kind w sub gt settings
    rw [h] at this
    exact this
  have h2 := hst r
  have hb : (w1.elem r).payload.bounds = (w.elem r).payload.bounds := congrArg (fun o => o.payload.bounds) h2
  have hp : (w1.elem r).payload.pose = (w.elem r).payload.pose := congrArg (fun o => o.payload.pose) h2
  have hs : (w1.elem r).payload.shape = (w.elem r).payload.shape := congrArg (fun o => o.payload.shape) h2
  refine ⟨?_, ?_, ?_⟩
  · rintro rfl
    have h1 : (w1.elem r).payload.posedBbox =
        some (posedBbox ⟨(w1.elem r).payload.bounds, (w1.elem r).payload.pose⟩) :=
      construct_established h (I := fun e => e.posedBbox = some (posedBbox ⟨e.bounds, e.pose⟩)) (fun _ _ _ => rfl)
        (fun _ _ _ => rfl) hr
    rw [hb, hp] at h1
    refine ⟨_, h1, fun p hp => posedBbox_contains _ _ ⟨p, hp, rfl⟩, ?_⟩
    have := (C41_bbox_tight ((w.elem r).payload.pose.transformAllFrom (w.elem r).payload.bounds.corners)
      (by simp [Pose3.transformAllFrom, Rot3.applyAll, Box3d.corners])).2
    have heq : (w.elem r).payload.pose.transformAllFrom (w.elem r).payload.bounds.corners =
        (w.elem r).payload.bounds.corners.map (w.elem r).payload.pose.transformFrom := by
      simp only [Pose3.transformAllFrom, Rot3.applyAll, List.map_map]
      rfl
    rw [← heq]
    exact this
  · rintro rfl
    obtain ⟨pts, h1, h2⟩ := construct_established h (I := MeshPosed) (fun _ _ h => meshPosed_of_ok h)
      (fun _ _ h => meshPosed_step h) hr
    refine ⟨pts, _, h1, h2, inside_bbox _, fun hne => (C41_bbox_tight _ ?_).2⟩
    simpa [positions] using hne
  · rintro rfl
    obtain ⟨g, b, h1, h2, -, h4⟩ := construct_established h (I := VoxelPosed) (fun _ _ h => poseVoxel_established h)
      (fun _ _ ⟨_, _, h1, h2, _⟩ => (poseVoxel_posed h1 h2).2) hr
    rw [hs] at h1
    rw [hp] at h4
    refine ⟨g, _, h1, h4, fun hsc q hq => ?_⟩
    obtain ⟨c, hc, rfl⟩ := List.mem_map.1 hq
    exact posedBbox_contains ⟨b, (w.elem r).payload.pose⟩ _ ⟨c, grid_bounds_mem hsc h2 hc, rfl⟩

/-- A floor and a chair, and their copy. -/
example (argsort : List ℕ → List ℕ) (hsort : ∀ l, IsArgsort (argsort l) l) :
    ∃ w1 e, construct (fun m _ => meshVolume m.1 m.2) nn (firstDraw 0) .bb roomWorld [(7, 0), (8, 1)] [(7, 2), (8, 3)] none =
      (w1, .ok e) ∧ 3 ∈ Dict.values [(7, 0), (8, (1 : Ref))] ++ Dict.values [(7, 2), (8, (3 : Ref))] := by
  obtain ⟨w1, e, x, h, -⟩ := C111_bb_partial (nn := nn) (draws := firstDraw 0) (settings := none) hsort
    (w := roomWorld) (interVol := fun m _ => meshVolume m.1 m.2) (fun _ => rfl) rfl room_wellKeyed.1 room_wellKeyed.2 room_copy
    room_fit (room_boxes fun _ _ => 0).1 (room_boxes _).2
  exact ⟨w1, e, h, by decide⟩

end Track
end Sumo
