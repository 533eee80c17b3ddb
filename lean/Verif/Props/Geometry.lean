import Verif.Lemmas.Geometry

/-!
# Poses and rotations (C35, C36)
-/

namespace Sumo
open Rot3

section
variable {K : Type} [CommRing K]

/-- **C35** Poses form a group acting on points: composition is associative, `Pose3()` is neutral,
`inverse()` is a two-sided inverse (orthogonal rotation), `transform_from` is an action, `transform_to` inverts it,
and the array versions act column by column. -/
theorem C35_pose_group (a b c : Pose3 K) :
    (a.compose b).compose c = a.compose (b.compose c) ∧
    Pose3.identity.compose a = a ∧ a.compose Pose3.identity = a ∧
    (IsOrthogonal a.R → a.compose a.inverse = Pose3.identity ∧ a.inverse.compose a = Pose3.identity ∧
      IsOrthogonal a.inverse.R ∧ (IsOrthogonal b.R → IsOrthogonal (a.compose b).R)) := by
  refine ⟨?_, ?_, ?_, ?_⟩
  · apply Pose3.ext
    · exact mul_assoc3 _ _ _
    · simp only [Pose3.compose, Rot3.apply, Rot3.compose, mulVec_mul, mulVec_add, vadd_assoc]
  · apply Pose3.ext
    · exact one_mul3 _
    · simp only [Pose3.compose, Pose3.identity, Rot3.apply, Rot3.identity, mulVec_one, vadd_zero]
  · apply Pose3.ext
    · exact mul_one3 _
    · simp only [Pose3.compose, Pose3.identity, Rot3.apply, mulVec_zero, vzero_add]
  · intro h
    refine ⟨?_, ?_, h.transpose, fun hb => h.mul hb⟩
    · apply Pose3.ext
      · exact h.right
      · simp only [Pose3.compose, Pose3.inverse, Pose3.identity, Rot3.apply, Rot3.inverse, mulVec_neg,
          ← mulVec_mul, h.right, mulVec_one, vneg_add]
    · apply Pose3.ext
      · exact h.left
      · simp only [Pose3.compose, Pose3.inverse, Pose3.identity, Rot3.apply, Rot3.inverse, vadd_neg]

/-- **C35** the action on points. -/
theorem C35_pose_action (a b : Pose3 K) (p : Vec3 K) (ps : List (Vec3 K)) :
    (a.compose b).transformFrom p = a.transformFrom (b.transformFrom p) ∧
    Pose3.identity.transformFrom p = p ∧
    (IsOrthogonal a.R → a.transformTo (a.transformFrom p) = p ∧ a.transformFrom (a.transformTo p) = p ∧
      a.inverse.transformFrom p = a.transformTo p) ∧
    a.transformAllFrom ps = ps.map a.transformFrom ∧ a.transformAllTo ps = ps.map a.transformTo := by
  refine ⟨?_, ?_, ?_, ?_, ?_⟩
  · simp only [Pose3.compose, Pose3.transformFrom, Rot3.apply, Rot3.compose, mulVec_mul, mulVec_add,
      vadd_assoc]
  · simp only [Pose3.transformFrom, Pose3.identity, Rot3.apply, Rot3.identity, mulVec_one, vadd_zero]
  · intro h
    refine ⟨?_, ?_, ?_⟩
    · simp only [Pose3.transformTo, Pose3.transformFrom, Rot3.unrotate, Rot3.apply, vadd_sub, ← mulVec_mul,
        h.left, mulVec_one]
    · simp only [Pose3.transformTo, Pose3.transformFrom, Rot3.unrotate, Rot3.apply, ← mulVec_mul,
        h.right, mulVec_one, vsub_add]
    · simp only [Pose3.transformTo, Pose3.transformFrom, Rot3.unrotate, Rot3.apply, Pose3.inverse,
        Rot3.inverse, mulVec_sub]
      ext <;> simp [sub_eq_add_neg]
  · simp [Pose3.transformAllFrom, Rot3.applyAll, Pose3.transformFrom, Rot3.apply, Function.comp_def]
  · simp [Pose3.transformAllTo, Rot3.unrotateAll, Pose3.transformTo, Rot3.unrotate, Function.comp_def]

/-- **C35** rigid: an orthogonal pose preserves inner products of differences, hence distances. -/
theorem C35_pose_rigid (a : Pose3 K) (h : IsOrthogonal a.R) (p q r s : Vec3 K) :
    (a.transformFrom p - a.transformFrom q).dot (a.transformFrom r - a.transformFrom s)
      = (p - q).dot (r - s) := by
  have e : ∀ p q : Vec3 K, a.transformFrom p - a.transformFrom q = a.R.mulVec (p - q) := by
    intro p q
    rw [mulVec_sub]
    ext <;> simp [Pose3.transformFrom, Rot3.apply]
  rw [e, e, dot_mulVec _ h]

/-- **C35** `matrix()` turns composition into the product of 4×4 matrices, and `FromMatrix34` inverts `matrix34`. -/
theorem C35_pose_matrix (a b : Pose3 K) :
    ofRows4 (a.compose b).matrix = ofRows4 a.matrix * ofRows4 b.matrix ∧
    ofRows4 (Pose3.identity : Pose3 K).matrix = 1 ∧
    Pose3.fromMatrix34 a.matrix34 = .ok a := by
  refine ⟨?_, ?_, rfl⟩
  · ext i j
    fin_cases i <;> fin_cases j <;>
      simp [ofRows4, Pose3.matrix, Pose3.matrix34, Matrix.mul_apply, Fin.sum_univ_four, Pose3.compose,
        Rot3.compose, Rot3.apply, Mat3.mul, Mat3.mulVec]
  · ext i j
    fin_cases i <;> fin_cases j <;>
      simp [ofRows4, Pose3.matrix, Pose3.matrix34, Pose3.identity, Rot3.identity, Mat3.one]

/-- **C35** the `*` operator: on a pose it composes, on a point or on a 3×n array it transforms (each column), and
arrays with another number of rows are refused. -/
theorem C35_mul_operator (a b : Pose3 K) (v : Vec3 K) (vs : List (Vec3 K)) (l : List K) (n : ℕ)
    (cols : List (List K)) :
    a.mul (.pose b) = .ok (.pose (a.compose b)) ∧
    a.mul (.vec [v.x, v.y, v.z])
      = .ok (.vec [(a.transformFrom v).x, (a.transformFrom v).y, (a.transformFrom v).z]) ∧
    a.mul (.points 3 (vs.map fun w => [w.x, w.y, w.z]))
      = .ok (.points 3 ((vs.map a.transformFrom).map fun w => [w.x, w.y, w.z])) ∧
    (l.length ≠ 3 → a.mul (.vec l) = .error .assertionError) ∧
    (n ≠ 3 → a.mul (.points n cols) = .error .assertionError) := by
  refine ⟨rfl, rfl, ?_, ?_, ?_⟩
  · have h : (vs.map fun w : Vec3 K => [w.x, w.y, w.z]).mapM vec3OfList? = some vs := by
      induction vs with
      | nil => rfl
      | cons w ws ih => simp [vec3OfList?, ih]
    simp only [Pose3.mul, h, (C35_pose_action a a v vs).2.2.2.1]
    rfl
  · intro h
    match l, h with
    | [], _ => rfl
    | [_], _ => rfl
    | [_, _], _ => rfl
    | [_, _, _], h => exact absurd rfl h
    | _ :: _ :: _ :: _ :: _, _ => rfl
  · intro h
    simp [Pose3.mul, h]
end

/-- A non-trivial pose with orthogonal rotation: quarter turn about z and a shift. -/
def examplePose : Pose3 ℚ := ⟨⟨0, -1, 0, 1, 0, 0, 0, 0, 1⟩, ⟨1, 2, 3⟩⟩

theorem examplePose_rot : IsRotation examplePose.R := by
  rw [isRotation_iff]
  decide +kernel

example : IsOrthogonal examplePose.R ∧ examplePose.compose examplePose.inverse = Pose3.identity :=
  ⟨examplePose_rot.1, ((C35_pose_group examplePose examplePose examplePose).2.2.2 examplePose_rot.1).1⟩

example : examplePose.transformFrom ⟨1, 0, 0⟩ = ⟨1, 3, 3⟩ := by decide +kernel

/-- **C36** the constructors give proper rotations, closed under product and inverse. -/
theorem C36_rotation_constructors (t roll pitch yaw : ℝ) (d : Vec3 ℝ) (hd : d.normSq = 1)
    (R S : Rot3 ℝ) (hR : IsRotation R) (hS : IsRotation S) :
    IsRotation (Rx t) ∧ IsRotation (Ry t) ∧ IsRotation (Rz t) ∧ IsRotation (axisAngle d t) ∧
    IsRotation (ENU_camera roll pitch yaw) ∧ IsRotation (Maya_camera roll pitch yaw) ∧
    IsRotation (Rot3.compose R S) ∧ IsRotation (Rot3.inverse R) ∧
    Rot3.compose R (Rot3.inverse R) = Rot3.identity ∧ Rot3.compose (Rot3.inverse R) R = Rot3.identity ∧
    (∀ p, Rot3.unrotate R (Rot3.rotate R p) = p) ∧ (∀ p, Rot3.rotate R (Rot3.unrotate R p) = p) := by
  refine ⟨isRotation_Rx t, isRotation_Ry t, isRotation_Rz t, isRotation_axisAngle d hd t, ?_, ?_,
    hR.mul hS, hR.transpose, hR.1.right, hR.1.left, ?_, ?_⟩
  · exact ((isRotation_ENU.mul (isRotation_Ry yaw)).mul (isRotation_Rx pitch)).mul (isRotation_Rz roll)
  · exact ((isRotation_Maya.mul (isRotation_Ry yaw)).mul (isRotation_Rx pitch)).mul (isRotation_Rz roll)
  · intro p
    rw [Rot3.unrotate, Rot3.rotate, ← mulVec_mul, hR.1.left, mulVec_one]
  · intro p
    rw [Rot3.unrotate, Rot3.rotate, ← mulVec_mul, hR.1.right, mulVec_one]

/-- **C36** rotations about one axis: angles add, angle 0 is the identity, and the axis constructors agree with
`AxisAngle`; the axis is fixed. -/
theorem C36_angles_add (a b : ℝ) :
    Rot3.compose (Rx a) (Rx b) = Rx (a + b) ∧ Rot3.compose (Ry a) (Ry b) = Ry (a + b) ∧
    Rot3.compose (Rz a) (Rz b) = Rz (a + b) ∧
    Rx 0 = Rot3.identity ∧ Ry 0 = Rot3.identity ∧ Rz 0 = Rot3.identity ∧
    Rx a = axisAngle ⟨1, 0, 0⟩ a ∧ Ry a = axisAngle ⟨0, 1, 0⟩ a ∧ Rz a = axisAngle ⟨0, 0, 1⟩ a := by
  refine ⟨?_, ?_, ?_, ?_, ?_, ?_, ?_, ?_, ?_⟩
  · ext <;> simp [Rot3.compose, Rx, fromScalars, Mat3.mul, Real.cos_add, Real.sin_add] <;> ring
  · ext <;> simp [Rot3.compose, Ry, fromScalars, Mat3.mul, Real.cos_add, Real.sin_add] <;> ring
  · ext <;> simp [Rot3.compose, Rz, fromScalars, Mat3.mul, Real.cos_add, Real.sin_add] <;> ring
  all_goals ext <;> simp [Rx, Ry, Rz, fromScalars, Rot3.identity, Mat3.one, axisAngle]

/-- **C36** `AxisAngle` fixes its axis, and turns a vector `v` perpendicular to the axis `d` by the angle `a` towards
`d × v`. -/
theorem C36_axis_angle (d v : Vec3 ℝ) (a : ℝ) (hd : d.normSq = 1) (hv : d.dot v = 0) :
    Rot3.rotate (axisAngle d a) d = d ∧
    Rot3.rotate (axisAngle d a) v = Vec3.smul (Real.cos a) v + Vec3.smul (Real.sin a) (d.cross v) := by
  simp only [Vec3.normSq, Vec3.dot] at hd hv
  refine ⟨?_, ?_⟩
  · ext <;> simp only [Rot3.rotate, Mat3.mulVec, axisAngle]
    · linear_combination (d.x * (1 - Real.cos a)) * hd
    · linear_combination (d.y * (1 - Real.cos a)) * hd
    · linear_combination (d.z * (1 - Real.cos a)) * hd
  · ext <;> simp only [Rot3.rotate, Mat3.mulVec, axisAngle, Vec3.smul, Vec3.cross, Vec3.add_x, Vec3.add_y,
      Vec3.add_z]
    · linear_combination (d.x * (1 - Real.cos a)) * hv
    · linear_combination (d.y * (1 - Real.cos a)) * hv
    · linear_combination (d.z * (1 - Real.cos a)) * hv

/-- **C36** camera constructors: the optical axis (camera z) of an ENU camera points at compass heading `yaw` (from north
`+y` towards east `+x`) and elevation `pitch` (towards up `+z`), whatever the roll; that of a Maya camera the same
with north `-z` and up `+y`.  Level cameras have image-down pointing down. -/
theorem C36_camera_heading (roll pitch yaw : ℝ) :
    Rot3.rotate (ENU_camera roll pitch yaw) ⟨0, 0, 1⟩
      = ⟨Real.sin yaw * Real.cos pitch, Real.cos yaw * Real.cos pitch, Real.sin pitch⟩ ∧
    Rot3.rotate (Maya_camera roll pitch yaw) ⟨0, 0, 1⟩
      = ⟨Real.sin yaw * Real.cos pitch, Real.sin pitch, -(Real.cos yaw * Real.cos pitch)⟩ ∧
    Rot3.rotate (ENU_camera 0 0 yaw) ⟨0, 1, 0⟩ = ⟨0, 0, -1⟩ ∧
    Rot3.rotate (Maya_camera 0 0 yaw) ⟨0, 1, 0⟩ = ⟨0, -1, 0⟩ := by
  refine ⟨?_, ?_, ?_, ?_⟩ <;>
    ext <;> simp [ENU_camera, Maya_camera, ENU_R_CAMERA, MAYA_R_CAMERA, Rot3.rotate, Rot3.compose, Mat3.mul,
      Mat3.mulVec, Mat3.transpose, Rx, Ry, Rz, fromScalars]

/-- **C36** roll turns the camera's image-right axis clockwise (positive is fly right): for a level ENU camera facing north,
image right goes from east towards down. -/
theorem C36_camera_roll (roll : ℝ) :
    Rot3.rotate (ENU_camera roll 0 0) ⟨1, 0, 0⟩ = ⟨Real.cos roll, 0, -Real.sin roll⟩ ∧
    Rot3.rotate (Maya_camera roll 0 0) ⟨1, 0, 0⟩ = ⟨Real.cos roll, -Real.sin roll, 0⟩ := by
  refine ⟨?_, ?_⟩ <;>
    ext <;> simp [ENU_camera, Maya_camera, ENU_R_CAMERA, MAYA_R_CAMERA, Rot3.rotate, Rot3.compose, Mat3.mul,
      Mat3.mulVec, Mat3.transpose, Rx, Ry, Rz, fromScalars]

example : IsRotation (ENU_camera 1 2 3) ∧ (⟨3 / 5, 0, 4 / 5⟩ : Vec3 ℝ).normSq = 1 ∧
    Vec3.dot (⟨3 / 5, 0, 4 / 5⟩ : Vec3 ℝ) ⟨0, 1, 0⟩ = 0 := by
  have hd : (⟨3 / 5, 0, 4 / 5⟩ : Vec3 ℝ).normSq = 1 := by norm_num [Vec3.normSq, Vec3.dot]
  refine ⟨(C36_rotation_constructors 0 1 2 3 ⟨3 / 5, 0, 4 / 5⟩ hd _ _ isRotation_one isRotation_one).2.2.2.2.1,
    hd, by norm_num [Vec3.dot]⟩

end Sumo
