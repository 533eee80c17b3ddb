import Verif.Lemmas.Sample
import Verif.Props.TrackCopy

/-!
# A scene with one thin triangle

Used as a witness: sampled at the default density it gives one point, anywhere on the triangle.
-/

namespace Sumo
namespace Track
open AssocSpec

/-- A triangle 10 m long and 1 mm wide. -/
noncomputable def thin : Mesh ℝ :=
  ⟨[0, 1, 2], [⟨0, 0, 0⟩, ⟨10, 0, 0⟩, ⟨0, 0.001, 0⟩], [⟨0, 0, 1⟩, ⟨0, 0, 1⟩, ⟨0, 0, 1⟩], .empty⟩

/-- A corner of it. -/
noncomputable def thinCorner (v : Vec3 ℝ) : ColorPoint := ⟨v, ⟨128, 128, 128⟩⟩

theorem thin_faces : elementFaces Pose3.identity [.plain thin] =
    .ok [thinCorner ⟨0, 0, 0⟩, thinCorner ⟨10, 0, 0⟩, thinCorner ⟨0, 0.001, 0⟩] := by
  have h1 : ∀ v : Vec3 ℝ, Mat3.mulVec (Pose3.identity (K := ℝ)).R v + (Pose3.identity (K := ℝ)).t = v := by
    intro v
    ext <;> simp [Pose3.identity, Rot3.identity, Mat3.one, Mat3.mulVec]
  have h2 : Pose3.identity.transformAllFrom thin.vertices = thin.vertices := by
    unfold Pose3.transformAllFrom Rot3.applyAll
    rw [List.map_map]
    refine (List.map_congr_left (g := id) fun v _ => h1 v).trans (List.map_id _)
  have h3 : (PrimMesh.plain thin).transform Pose3.identity =
      .ok (.plain ⟨thin.indices, thin.vertices, Pose3.identity.R.applyAll thin.normals, .empty⟩) := by
    unfold PrimMesh.transform Mesh.transform Mesh.create
    dsimp only
    rw [h2, if_pos (by simp [thin, Rot3.applyAll])]
    rfl
  simp only [elementFaces, h3, bind, Except.bind, pure, Except.pure]
  rfl

theorem thin_area : triangleArea ⟨0, 0, 0⟩ ⟨10, 0, 0⟩ ⟨0, 0.001, 0⟩ = 0.005 := by
  unfold triangleArea Vec3.norm Vec3.normSq
  have : ((⟨10, 0, 0⟩ - ⟨0, 0, 0⟩ : Vec3 ℝ).cross (⟨0, 0.001, 0⟩ - ⟨0, 0, 0⟩)) = ⟨0, 0, 0.01⟩ := by
    ext <;> simp [Vec3.cross] <;> norm_num
  rw [this]
  have : Vec3.dot (⟨0, 0, 0.01⟩ : Vec3 ℝ) ⟨0, 0, 0.01⟩ = 0.01 ^ 2 := by simp [Vec3.dot]; norm_num
  rw [this, Real.sqrt_sq (by norm_num)]
  norm_num

/-- Where the point drawn with the random numbers `r` is. -/
noncomputable def thinPoint (r : ℝ × ℝ) : ColorPoint :=
  samplePoint (thinCorner ⟨0, 0, 0⟩) (thinCorner ⟨10, 0, 0⟩) (thinCorner ⟨0, 0.001, 0⟩) r

/-- Sampling the triangle. -/
theorem thin_sample (rnd : ℕ → ℝ × ℝ) :
    sampleElement rnd [.plain thin] Pose3.identity 150 = .ok [thinPoint (rnd 0)] := by
  unfold sampleElement
  rw [if_neg (by simp), thin_faces]
  simp only [bind, Except.bind]
  rw [sampleMesh_ok _ _ _ (by simp)]
  simp only [MeshSpec.triples, List.map_cons, List.map_nil, thinCorner, thin_area]
  have : max 1 ⌊(150 : ℝ) * 0.005⌋₊ = 1 := by
    have : ⌊(150 : ℝ) * 0.005⌋₊ = 0 := by rw [Nat.floor_eq_zero]; norm_num
    rw [this]; rfl
  rw [this]
  rfl

theorem thinPoint_start (y : ℝ) : (thinPoint (0, y)).pos = ⟨0, 0, 0⟩ := by
  ext <;> simp [thinPoint, samplePoint, thinCorner, Vec3.smul]

theorem thinPoint_far : (thinPoint (0.81, 0)).pos = ⟨9, 0, 0⟩ := by
  have : Real.sqrt 0.81 = 0.9 := by
    rw [show (0.81 : ℝ) = 0.9 ^ 2 by norm_num, Real.sqrt_sq (by norm_num)]
  ext <;> simp [thinPoint, samplePoint, thinCorner, Vec3.smul, this] <;> norm_num

/-- The element with this triangle: a floor. -/
noncomputable def thinElement : Obj ℕ ℕ Fields where
  id := 7
  category := "floor"
  score := 0
  evaluated := true
  payload := ⟨⟨⟨0, 0, 0⟩, ⟨10, 0.001, 1⟩⟩, Pose3.identity, ⟨.none, .none, .none⟩, .meshes [.plain thin], none, none⟩

/-- A world in which every element is this one. -/
noncomputable def thinWorld : World ℕ ℕ := ⟨fun _ => thinElement, fun _ => defaultSettings⟩

/-- The submission and the ground truth: element objects 0 and 1. -/
def thinSub : SceneObj ℕ := [(7, 0)]

/-- The ground truth. -/
def thinGt : SceneObj ℕ := [(7, 1)]

theorem thin_wellKeyed (w : World ℕ ℕ) (h : SameStatic thinWorld w) :
    WellKeyed (w.view id thinSub) ∧ WellKeyed (w.view id thinGt) := by
  constructor <;>
  · refine SameStatic.wellKeyed h ⟨?_, ?_⟩
    · simp [World.view, thinSub, thinGt, Dict.NodupKeys, Dict.keys]
    · intro p hp
      simp only [World.view, thinSub, thinGt, List.map_cons, List.map_nil, List.mem_singleton] at hp
      subst hp
      rfl

/-- The mesh evaluator for the two scenes, on a world that differs only by earlier evaluators. -/
theorem thin_construct (interVol : InterVol) (nn : List (Vec3 ℝ) → Vec3 ℝ → ℕ) (draws : ℕ → ℕ → ℝ × ℝ) (w : World ℕ ℕ)
    (h : SameStatic thinWorld w) (hd : given w (some 0) = defaultSettings) :
    ∃ w1 e, construct interVol nn draws .mesh w thinSub thinGt (some 0) = (w1, .ok e) ∧ SameStatic thinWorld w1 ∧
      e.submission = thinSub ∧ e.groundTruth = thinGt ∧
      (w1.elem 0).payload.points = ⟨[thinPoint (draws 0 0)], bboxOfPoints [(thinPoint (draws 0 0)).pos]⟩ ∧
      (w1.elem 1).payload.points = ⟨[thinPoint (draws 1 0)], bboxOfPoints [(thinPoint (draws 1 0)).pos]⟩ := by
  have hobj : ∀ r, (w.elem r).payload.shape = .meshes [.plain thin] ∧ (w.elem r).payload.pose = Pose3.identity := by
    intro r
    obtain ⟨-, -, -, -, a5, -, a7⟩ := h.obj r
    exact ⟨a7, a5⟩
  have hden : (w.dict 0).density = some 150 := by
    have : w.dict 0 = defaultSettings := hd
    rw [this]; rfl
  have hstep : ∀ k (e : Fields), e.shape = .meshes [.plain thin] → e.pose = Pose3.identity →
      poseStep .mesh (some (w.dict 0)) draws k e =
        ({ e with posedPoints := some [thinPoint (draws k 0)],
                  posedBbox := some (bboxOfPoints [(thinPoint (draws k 0)).pos]) }, none) := by
    intro k e h1 h2
    show poseMesh (some (w.dict 0)) (draws k) e = _
    unfold poseMesh
    simp only [hden, h1, h2, thin_sample]
    rfl
  have hall : poseAll (poseStep .mesh (some (w.dict 0)) draws) 0 (thinSub.values ++ thinGt.values) w =
      ((w.setFields 0 { (w.elem 0).payload with posedPoints := some [thinPoint (draws 0 0)],
                                                posedBbox := some (bboxOfPoints [(thinPoint (draws 0 0)).pos]) }).setFields 1
        { (w.elem 1).payload with posedPoints := some [thinPoint (draws 1 0)],
                                  posedBbox := some (bboxOfPoints [(thinPoint (draws 1 0)).pos]) }, none) := by
    show poseAll _ 0 [0, 1] w = _
    rw [poseAll, hstep 0 _ (hobj 0).1 (hobj 0).2]
    dsimp only
    have h1 : ∀ f, ((w.setFields 0 f).elem 1) = w.elem 1 := by
      intro f; unfold World.setFields; simp
    rw [poseAll, h1, hstep 1 _ (hobj 1).1 (hobj 1).2]
    rfl
  obtain ⟨hs, hg⟩ := thin_wellKeyed w h
  obtain ⟨w1, e, hc⟩ := construct_succeeds (interVol := interVol) (nn := nn) (draws := draws) (kind := .mesh)
    (thresh := 0.15) hs hg (settings := some 0) (by
      show (poseAll (poseStep .mesh (some (w.dict 0)) draws) 0 (thinSub.values ++ thinGt.values) w).2 = none
      rw [hall]) (by rw [hd]; rfl) (by rw [hd]; rfl)
    (fun b => by
      cases b
      · exact Or.inr rfl
      · left; rw [hd]; rfl) (by intro h0; cases h0)
  refine ⟨w1, e, hc, ?_⟩
  have hst : SameStatic w w1 := by
    have := construct_static interVol nn draws .mesh w thinSub thinGt (some 0)
    rw [hc] at this
    exact this
  obtain ⟨-, -, -, -, -, -, -, -, h6, h7, -⟩ := construct_build hc
  have hel := construct_elem interVol nn draws .mesh w thinSub thinGt (some 0)
  have hel' : (construct interVol nn draws .mesh w thinSub thinGt (some 0)).1.elem =
      (poseAll (poseStep .mesh (some (w.dict 0)) draws) 0 (thinSub.values ++ thinGt.values) w).1.elem := hel
  rw [hc, hall] at hel'
  dsimp only at hel'
  refine ⟨h.trans hst, h6, h7, ?_, ?_⟩
  · rw [hel']; simp [World.setFields, Fields.points]
  · rw [hel']; simp [World.setFields, Fields.points]

end Track
end Sumo
