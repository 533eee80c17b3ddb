import Verif.Props.Geometry
import Verif.Props.Mesh
import Verif.Props.Scores
import Verif.Props.Symmetry
import Verif.Props.PointCloud
import Verif.Props.PointCloudText

/-!
# Small functions of the interface (C33, C36, C56, C59, C83, C160)
-/

namespace Sumo
open AssocSpec

/-- **C36**: a camera pose has the camera at the given position, and its optical axis and image axes point where those of the rotation do:
a point of the scene is the position plus the rotated point of the camera. -/
theorem C36_camera_pose (roll pitch yaw : ℝ) (position p : Vec3 ℝ) :
    (Pose3.ENU_camera roll pitch yaw position).transformFrom p = Rot3.rotate (Rot3.ENU_camera roll pitch yaw) p + position ∧
    (Pose3.Maya_camera roll pitch yaw position).transformFrom p = Rot3.rotate (Rot3.Maya_camera roll pitch yaw) p + position ∧
    (Pose3.ENU_camera roll pitch yaw position).transformFrom ⟨0, 0, 1⟩ =
      ⟨Real.sin yaw * Real.cos pitch + position.x, Real.cos yaw * Real.cos pitch + position.y, Real.sin pitch + position.z⟩ ∧
    (Pose3.Maya_camera roll pitch yaw position).transformFrom ⟨0, 0, 1⟩ =
      ⟨Real.sin yaw * Real.cos pitch + position.x, Real.sin pitch + position.y, -(Real.cos yaw * Real.cos pitch) + position.z⟩ := by
  obtain ⟨h1, h2, -⟩ := C36_camera_heading roll pitch yaw
  refine ⟨rfl, rfl, ?_, ?_⟩
  · show Rot3.rotate (Rot3.ENU_camera roll pitch yaw) ⟨0, 0, 1⟩ + position = _
    rw [h1]; ext <;> simp
  · show Rot3.rotate (Rot3.Maya_camera roll pitch yaw) ⟨0, 0, 1⟩ + position = _
    rw [h2]; ext <;> simp

/-- **C83**: rotating a textured mesh turns each corner and its normal; the triangles, texture coordinates and textures are the same. -/
theorem C83_rotate_textured {K I : Type} [CommRing K] (R : Rot3 K) (isEmpty : I → Bool) (m : TexturedMesh K I)
    (hn : m.normals.length = m.vertices.length) (hu : m.uvCoords.length ≤ m.vertices.length) :
    ∃ m', m.rotate isEmpty R = .ok m' ∧ m'.indices = m.indices ∧
      m'.vertices = m.vertices.map R.mulVec ∧ m'.normals = m.normals.map R.mulVec ∧
      m'.uvCoords = m.uvCoords ∧ m'.baseColor = m.baseColor ∧ m'.metallicRoughness = m.metallicRoughness := by
  unfold TexturedMesh.rotate TexturedMesh.create
  have e1 : (R.applyAll m.vertices).length = (R.applyAll m.normals).length := by simp [Rot3.applyAll, hn]
  have e2 : ¬ (R.applyAll m.vertices).length < m.uvCoords.length := by simp [Rot3.applyAll]; omega
  rw [if_neg (by simp [e1]), if_neg e2]
  exact ⟨_, rfl, rfl, rfl, rfl, rfl, rfl, rfl⟩

/-- A triangle turned by a quarter about the z axis. -/
example : let m : TexturedMesh ℚ Unit := ⟨⟨[0, 1, 2], [⟨0, 0, 0⟩, ⟨1, 0, 0⟩, ⟨0, 1, 0⟩],
      [⟨0, 0, 1⟩, ⟨0, 0, 1⟩, ⟨0, 0, 1⟩], .empty⟩, [(0, 0)], (), ()⟩
    m.normals.length = m.vertices.length ∧ m.uvCoords.length ≤ m.vertices.length ∧
      m.vertices.map (Mat3.mulVec ⟨0, -1, 0, 1, 0, 0, 0, 0, 1⟩) = [⟨0, 0, 0⟩, ⟨0, 1, 0⟩, ⟨-1, 0, 0⟩] := by decide +kernel

/-- **C33**: the mesh track, unlike the voxel track, evaluates the submission against the ground truth, as the bounding-box track does. -/
theorem C33_mesh_not_exchanged {ι σ τ P : Type} [DecidableEq ι] [LinearOrder σ] [LinearOrder τ] (sim : Obj ι σ P → Obj ι σ P → τ)
    {sub gt : Elements ι σ P} (hs : WellKeyed sub) (hg : WellKeyed gt) (s : AssocSettings τ) :
    ∃ ev, meshEvaluator sim sub gt s = .ok ev ∧ bbEvaluator sim sub gt s = .ok ev ∧ ev.submission = sub ∧ ev.groundTruth = gt := by
  obtain ⟨ev, hev⟩ := build_succeeds sim hs hg s
  exact ⟨ev, hev, hev, (build_ok hev).2.2.1, (build_ok hev).2.2.2.1⟩

example : WellKeyed VoxelExample.sub ∧ WellKeyed VoxelExample.gt := ⟨VoxelExample.wk_sub, VoxelExample.wk_gt⟩

/-- **C59**: the example symmetry is one of the documented ones. -/
theorem C59_example : ∃ x y z, SymSpec.Allowed x y z ∧ ObjectSymmetry.example = .ok ⟨x, y, z⟩ ∧
    (x, y, z) = (.twoFold, .cylindrical, .twoFold) := by
  have h : SymSpec.Allowed .twoFold .cylindrical .twoFold := by decide
  exact ⟨_, _, _, h, (C59_accepts_documented _ _ _).1 h, rfl⟩

/-- **C160**: without an argument the colour in the file is white. -/
theorem C160_default_color (c : PointCloud ℚ) (keep : Option ℕ) (hp : ∀ p ∈ c.points, IsDouble p.x ∧ IsDouble p.y ∧ IsDouble p.z) :
    readText (c.save PointCloud.saveColor keep) = c.points.map fun p => [p.x, p.y, p.z, 255, 255, 255] :=
  C160_text c PointCloud.saveColor keep hp fun x hx => by
    have : x = 255 := by simpa [PointCloud.saveColor] using hx
    exact this ▸ ⟨255, 0, by norm_num, by norm_num⟩

/-- **C56**: the colour with a number is that of the point with this number; there is none beyond the points or in a plain cloud. -/
theorem C56_color_at {K : Type} (c : PointCloud K) :
    (∀ l, ColoredCloud c l → ∀ i, c.colorAt i = l[i]?.map Prod.snd) ∧ (∀ l, PlainCloud c l → ∀ i, c.colorAt i = none) := by
  constructor
  · intro l h i
    rw [PointCloud.colorAt, h.2, List.getElem?_map]
  · intro l h i
    rw [PointCloud.colorAt, h.2, List.getElem?_nil]

end Sumo
