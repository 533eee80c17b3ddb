import Verif.Lemmas.FloatRigid
import Verif.Props.FloatPose

/-!
# C155 and C156: rotations and poses in machine precision
-/

namespace Sumo
open FloatPoseSpec FloatRigidSpec

section
variable {D : Fl.Products} {T : Fl.Trig}

/-- C155: whatever rotations are multiplied and inverted, in whatever order and however often, the matrix computed turns every vector
as the exact product of rotations does, up to `(1 + 2^-48)^n - 1` of its length, where `n` is the number of inexact operations. -/
theorem C155_rotations (hD : GoodProducts D) (hT : GoodTrig T) (e : RotE) :
    IsRotation e.ideal ∧ Near (err e.steps) (e.run D T) e.ideal := rot_spec hD hT e

/-- C155: whatever poses are composed and inverted, the result is, up to rounding, the rigid motion that the expression stands for:
its translation is where the motion takes the origin, its rotation is how the motion turns vectors. -/
theorem C155_poses (hD : GoodProducts D) (hT : GoodTrig T) (e : PoseE) :
    (∃ R t, IsRotation R ∧ ∀ p, e.move p = R.mulVec p + t) ∧ (e.move 0).norm ≤ e.size ∧
    (rv (e.run D T).t - e.move 0).norm ≤ err e.steps * e.size ∧
    ∀ p, ((rm (e.run D T).R).mulVec p - (e.move p - e.move 0)).norm ≤ err e.rotSteps * p.norm := by
  obtain ⟨h1, h2, h3⟩ := pose_spec hD hT e
  have z : (PoseE.ideal e).transformFrom 0 = (PoseE.ideal e).t := by
    simp only [Pose3.transformFrom, Rot3.apply]; rw [mulVec_zero, vzero_add]
  rw [move_eq hD hT e, z]
  refine ⟨⟨_, _, poseE_rot hD hT e, fun p => rfl⟩, h2, h3, fun p => ?_⟩
  simp only [Pose3.transformFrom, Rot3.apply]
  rw [vadd_sub]
  exact h1 p

/-- C155: points moved by a pose are where the rigid motion takes them, up to rounding; one at a time or many at once. -/
theorem C155_points (hD : GoodProducts D) (hT : GoodTrig T) (e : PoseE) :
    (∀ p, (rv (Fl.Pose3.transformFrom D (e.run D T) p) - e.move (rv p)).norm ≤
      err (max e.rotSteps e.steps + 1) * ((rv p).norm + e.size)) ∧
    ∀ l, List.Forall₂ (fun p q => (rv q - e.move (rv p)).norm ≤ err (max e.rotSteps e.steps + 1) * ((rv p).norm + e.size))
      l (Fl.Pose3.transformAllFrom D (e.run D T) l) := by
  obtain ⟨h1, h2, h3⟩ := pose_spec hD hT e
  have hR := (poseE_rot hD hT e).1
  rw [move_eq hD hT e]
  refine ⟨fun p => from_err hR h1 h2 h3 (hD.vec _ _), fun l => ?_⟩
  unfold Fl.Pose3.transformAllFrom
  rw [List.forall₂_map_right_iff]
  exact (hD.all _ l).imp fun p v h => from_err hR h1 h2 h3 h

/-- C155: the same for the way back: `q` is the point found, and the rigid motion takes the exact one to the point given. -/
theorem C155_points_back (hD : GoodProducts D) (hT : GoodTrig T) (e : PoseE) :
    (∀ p, (rv (Fl.Pose3.transformTo D (e.run D T) p) - Function.invFun e.move (rv p)).norm ≤
      err (e.rotSteps + e.steps + 1) * ((rv p).norm + e.size)) ∧
    (∀ l, List.Forall₂ (fun p q => (rv q - Function.invFun e.move (rv p)).norm ≤
      err (e.rotSteps + e.steps + 1) * ((rv p).norm + e.size)) l (Fl.Pose3.transformAllTo D (e.run D T) l)) ∧
    ∀ p, e.move (Function.invFun e.move p) = p := by
  obtain ⟨h1, h2, h3⟩ := pose_spec hD hT e
  have hR := poseE_rot hD hT e
  rw [move_eq hD hT e, invFun_from hR.1]
  refine ⟨fun p => to_err hR h1 h2 h3 (hD.vec _ _), fun l => ?_, from_to hR.1⟩
  unfold Fl.Pose3.transformAllTo
  have := hD.all (e.run D T).R.transpose (l.map fun v => Fl.minus v (e.run D T).t)
  rw [List.forall₂_map_left_iff] at this
  exact this.imp fun p v h => to_err hR h1 h2 h3 h

/-- C155: a point taken along and back again is where it was, up to rounding. -/
theorem C155_round_trip (hD : GoodProducts D) (hT : GoodTrig T) (e : PoseE) (p : Vec3 ℚ) :
    (rv (Fl.Pose3.transformTo D (e.run D T) (Fl.Pose3.transformFrom D (e.run D T) p)) - rv p).norm ≤
      2 * err (2 * (e.rotSteps + e.steps + 1)) * ((rv p).norm + e.size) := by
  obtain ⟨h1, h2, h3⟩ := pose_spec hD hT e
  have hR := poseE_rot hD hT e
  set q := Fl.Pose3.transformFrom D (e.run D T) p with hq
  set P := PoseE.ideal e
  have f : (rv q - P.transformFrom (rv p)).norm ≤ err (max e.rotSteps e.steps + 1) * ((rv p).norm + e.size) :=
    from_err hR.1 h1 h2 h3 (hD.vec _ _)
  have g : (rv (Fl.Pose3.transformTo D (e.run D T) q) - P.transformTo (rv q)).norm ≤
      err (e.rotSteps + e.steps + 1) * ((rv q).norm + e.size) := to_err hR h1 h2 h3 (hD.vec _ _)
  have hm : err (max e.rotSteps e.steps + 1) ≤ err (e.rotSteps + e.steps + 1) := err_mono (by omega)
  have b : (P.transformTo (rv q) - rv p).norm = (rv q - P.transformFrom (rv p)).norm := by
    conv_lhs => rw [← to_from hR.1 (rv p)]
    simp only [Pose3.transformTo, Rot3.unrotate]
    rw [← mulVec_sub, norm_rotate hR.transpose.1]
    congr 1
    ext <;> simp
  have nP : (P.transformFrom (rv p)).norm ≤ (rv p).norm + e.size := by
    have := vnorm_add (P.R.mulVec (rv p)) P.t
    rw [norm_rotate hR.1] at this
    simp only [Pose3.transformFrom, Rot3.apply]
    linarith
  have nq := vnorm_le_of (rv q) (P.transformFrom (rv p))
  have t := vnorm_tri (rv (Fl.Pose3.transformTo D (e.run D T) q)) (P.transformTo (rv q)) (rv p)
  have hs : 0 ≤ e.size := (vnorm_nonneg _).trans h2
  have hp := vnorm_nonneg (rv p)
  have two := err_add (e.rotSteps + e.steps + 1) (e.rotSteps + e.steps + 1)
  rw [← two_mul] at two
  have x0 := err_nonneg (e.rotSteps + e.steps + 1)
  set x := err (e.rotSteps + e.steps + 1)
  set y := err (max e.rotSteps e.steps + 1)
  have e2 : err (2 * (e.rotSteps + e.steps + 1)) = 2 * x + x ^ 2 := by linarith
  rw [e2]
  have k1 : y * ((rv p).norm + e.size) ≤ x * ((rv p).norm + e.size) := mul_le_mul_of_nonneg_right hm (by linarith)
  have k2 : (rv q).norm + e.size ≤ (x + 2) * ((rv p).norm + e.size) := by nlinarith
  have k3 := mul_le_mul_of_nonneg_left k2 x0
  have k4 : 0 ≤ x ^ 2 * ((rv p).norm + e.size) := by positivity
  nlinarith

/-- C155: distances between points are kept, up to rounding. -/
theorem C155_distances (hD : GoodProducts D) (hT : GoodTrig T) (e : PoseE) (p q : Vec3 ℚ) :
    |(rv (Fl.Pose3.transformFrom D (e.run D T) p) - rv (Fl.Pose3.transformFrom D (e.run D T) q)).norm - (rv p - rv q).norm| ≤
      err (max e.rotSteps e.steps + 1) * ((rv p).norm + (rv q).norm + 2 * e.size) := by
  have hp := (C155_points hD hT e).1 p
  have hq := (C155_points hD hT e).1 q
  obtain ⟨⟨R, t, hR, hm⟩, -⟩ := C155_poses hD hT e
  have d : (e.move (rv p) - e.move (rv q)).norm = (rv p - rv q).norm := by
    rw [hm, hm, ← norm_rotate hR.1 (rv p - rv q), mulVec_sub]
    congr 1
    ext <;> simp
  rw [← d]
  set a := rv (Fl.Pose3.transformFrom D (e.run D T) p)
  set b := rv (Fl.Pose3.transformFrom D (e.run D T) q)
  have t1 := vnorm_tri a (e.move (rv p)) b
  have t2 := vnorm_tri (e.move (rv p)) (e.move (rv q)) b
  have t3 := vnorm_tri (e.move (rv p)) a (e.move (rv q))
  have t4 := vnorm_tri a b (e.move (rv q))
  have c1 := vnorm_sub_comm (e.move (rv p)) a
  have c2 := vnorm_sub_comm (e.move (rv q)) b
  rw [abs_le]
  constructor <;> linarith

/-- C155: the error grows with the number of operations, not faster: at most `2^-47` for each, up to `2^47` of them. -/
theorem C155_growth {n : ℕ} (h : n ≤ 2 ^ 47) : err n ≤ n / 2 ^ 47 := err_small h

/-! ### Cameras -/

/-- The rotation of a camera with the given angles, as an expression. -/
def cameraE (maya : Bool) (roll pitch yaw : ℚ) : RotE :=
  .mul (.mul (.mul (if maya then .maya else .enu) (.ry yaw)) (.rx pitch)) (.rz roll)

theorem camera_near (hD : GoodProducts D) (hT : GoodTrig T) (roll pitch yaw : ℚ) :
    Near (err 6) (Fl.Rot3.ENU_camera D T roll pitch yaw) (Rot3.ENU_camera roll pitch yaw) ∧
    Near (err 6) (Fl.Rot3.Maya_camera D T roll pitch yaw) (Rot3.Maya_camera roll pitch yaw) := by
  have a := (rot_spec hD hT (cameraE false roll pitch yaw)).2
  have b := (rot_spec hD hT (cameraE true roll pitch yaw)).2
  have e1 : (Rot3.ENU_R_CAMERA : Mat3 ℝ) = ⟨1, 0, 0, 0, 0, 1, 0, -1, 0⟩ := by ext <;> simp [Rot3.ENU_R_CAMERA, Mat3.transpose]
  have e2 : (Rot3.MAYA_R_CAMERA : Mat3 ℝ) = ⟨1, 0, 0, 0, -1, 0, 0, 0, -1⟩ := by ext <;> simp [Rot3.MAYA_R_CAMERA, Mat3.transpose]
  refine ⟨?_, ?_⟩
  · unfold Rot3.ENU_camera; rw [e1]; exact a
  · unfold Rot3.Maya_camera; rw [e2]; exact b

/-- C156: the cameras of `Rot3` have the angles given, up to rounding. -/
theorem C156_rot3 (hD : GoodProducts D) (hT : GoodTrig T) (roll pitch yaw : ℚ) :
    Near (6 / 2 ^ 47) (Fl.Rot3.ENU_camera D T roll pitch yaw) (Rot3.ENU_camera roll pitch yaw) ∧
    Near (6 / 2 ^ 47) (Fl.Rot3.Maya_camera D T roll pitch yaw) (Rot3.Maya_camera roll pitch yaw) := by
  obtain ⟨a, b⟩ := camera_near hD hT roll pitch yaw
  have h : err 6 ≤ 6 / 2 ^ 47 := by simpa using err_small (n := 6) (by norm_num)
  exact ⟨fun v => (a v).trans (mul_le_mul_of_nonneg_right h (vnorm_nonneg v)),
    fun v => (b v).trans (mul_le_mul_of_nonneg_right h (vnorm_nonneg v))⟩

theorem lip_trig (a b : ℝ) : (Real.cos a - Real.cos b) ^ 2 + (Real.sin a - Real.sin b) ^ 2 ≤ (a - b) ^ 2 := by
  have h1 := Real.one_sub_sq_div_two_le_cos (x := a - b)
  rw [Real.cos_sub] at h1
  nlinarith [Real.sin_sq_add_cos_sq a, Real.sin_sq_add_cos_sq b]

theorem lip_of {R S : Mat3 ℝ} {d k : ℝ} {v : Vec3 ℝ} (hk : k ≤ d ^ 2) (u : ℝ)
    (h : (R.mulVec v - S.mulVec v).norm ^ 2 = k * (v.norm ^ 2 - u ^ 2)) (hu : u ^ 2 ≤ v.norm ^ 2) :
    (R.mulVec v - S.mulVec v).norm ≤ |d| * v.norm := by
  have : (R.mulVec v - S.mulVec v).norm ^ 2 ≤ (|d| * v.norm) ^ 2 := by
    rw [h, mul_pow, sq_abs]
    have := mul_le_mul_of_nonneg_right hk (show 0 ≤ v.norm ^ 2 - u ^ 2 by linarith)
    have := mul_nonneg (sq_nonneg d) (sq_nonneg u)
    nlinarith
  exact (abs_le_of_sq_le_sq' this (mul_nonneg (abs_nonneg _) (vnorm_nonneg v))).2

theorem lip_Rx (a b : ℝ) (v : Vec3 ℝ) : ((Rot3.Rx a).mulVec v - (Rot3.Rx b).mulVec v).norm ≤ |a - b| * v.norm := by
  refine lip_of (lip_trig a b) v.x ?_ ?_
  · rw [vnorm_sq, vnorm_sq]; simp only [Rot3.Rx, Rot3.fromScalars, Mat3.mulVec, Vec3.sub_x, Vec3.sub_y, Vec3.sub_z]; ring
  · rw [vnorm_sq]; nlinarith [sq_nonneg v.y, sq_nonneg v.z]

theorem lip_Ry (a b : ℝ) (v : Vec3 ℝ) : ((Rot3.Ry a).mulVec v - (Rot3.Ry b).mulVec v).norm ≤ |a - b| * v.norm := by
  refine lip_of (lip_trig a b) v.y ?_ ?_
  · rw [vnorm_sq, vnorm_sq]; simp only [Rot3.Ry, Rot3.fromScalars, Mat3.mulVec, Vec3.sub_x, Vec3.sub_y, Vec3.sub_z]; ring
  · rw [vnorm_sq]; nlinarith [sq_nonneg v.x, sq_nonneg v.z]

theorem lip_Rz (a b : ℝ) (v : Vec3 ℝ) : ((Rot3.Rz a).mulVec v - (Rot3.Rz b).mulVec v).norm ≤ |a - b| * v.norm := by
  refine lip_of (lip_trig a b) v.z ?_ ?_
  · rw [vnorm_sq, vnorm_sq]; simp only [Rot3.Rz, Rot3.fromScalars, Mat3.mulVec, Vec3.sub_x, Vec3.sub_y, Vec3.sub_z]; ring
  · rw [vnorm_sq]; nlinarith [sq_nonneg v.x, sq_nonneg v.y]

/-- Small changes of the angles turn a camera by no more than their sum. -/
theorem lip_camera {C : Mat3 ℝ} (hC : IsOrthogonal C) (a b c a' b' c' : ℝ) (v : Vec3 ℝ) :
    ((((C.mul (Rot3.Ry c)).mul (Rot3.Rx b)).mul (Rot3.Rz a)).mulVec v -
      (((C.mul (Rot3.Ry c')).mul (Rot3.Rx b')).mul (Rot3.Rz a')).mulVec v).norm ≤ (|a - a'| + |b - b'| + |c - c'|) * v.norm := by
  simp only [mulVec_mul]
  rw [← mulVec_sub, norm_rotate hC]
  have e1 := lip_Ry c c' ((Rot3.Rx b).mulVec ((Rot3.Rz a).mulVec v))
  have e2 := lip_Rx b b' ((Rot3.Rz a).mulVec v)
  have e3 := lip_Rz a a' v
  rw [norm_rotate (isRotation_Rx b).1, norm_rotate (isRotation_Rz a).1] at e1
  rw [norm_rotate (isRotation_Rz a).1] at e2
  rw [← norm_rotate (isRotation_Ry c').1 (_ - _), mulVec_sub] at e2
  rw [← norm_rotate (isRotation_Rx b').1 (_ - _), mulVec_sub, ← norm_rotate (isRotation_Ry c').1 (_ - _), mulVec_sub] at e3
  have t1 := vnorm_tri ((Rot3.Ry c).mulVec ((Rot3.Rx b).mulVec ((Rot3.Rz a).mulVec v)))
    ((Rot3.Ry c').mulVec ((Rot3.Rx b).mulVec ((Rot3.Rz a).mulVec v))) ((Rot3.Ry c').mulVec ((Rot3.Rx b').mulVec ((Rot3.Rz a').mulVec v)))
  have t2 := vnorm_tri ((Rot3.Ry c').mulVec ((Rot3.Rx b).mulVec ((Rot3.Rz a).mulVec v)))
    ((Rot3.Ry c').mulVec ((Rot3.Rx b').mulVec ((Rot3.Rz a).mulVec v))) ((Rot3.Ry c').mulVec ((Rot3.Rx b').mulVec ((Rot3.Rz a').mulVec v)))
  linarith

theorem single_errR (x : ℚ) : |(single x : ℝ) - x| ≤ |(x : ℝ)| / 2 ^ 24 := by
  have h := single_err x
  have h' : (((|single x - x| : ℚ)) : ℝ) ≤ ((|x| / 2 ^ 24 : ℚ) : ℝ) := by exact_mod_cast h
  push_cast at h'
  linarith

/-- C156: the cameras of `Pose3` have the angles given up to single precision only: `2^-24` of each angle, and rounding.  The position
is the one given. -/
theorem C156_partial (hD : GoodProducts D) (hT : GoodTrig T) (roll pitch yaw : ℚ) (position : Vec3 ℚ) :
    Near (6 / 2 ^ 47 + (|(roll : ℝ)| + |(pitch : ℝ)| + |(yaw : ℝ)|) / 2 ^ 24) (Fl.Pose3.ENU_camera D T roll pitch yaw position).R
      (Rot3.ENU_camera roll pitch yaw) ∧
    Near (6 / 2 ^ 47 + (|(roll : ℝ)| + |(pitch : ℝ)| + |(yaw : ℝ)|) / 2 ^ 24) (Fl.Pose3.Maya_camera D T roll pitch yaw position).R
      (Rot3.Maya_camera roll pitch yaw) ∧
    (Fl.Pose3.ENU_camera D T roll pitch yaw position).t = position ∧
    (Fl.Pose3.Maya_camera D T roll pitch yaw position).t = position := by
  obtain ⟨a, b⟩ := C156_rot3 hD hT (single roll) (single pitch) (single yaw)
  have s1 := single_errR roll
  have s2 := single_errR pitch
  have s3 := single_errR yaw
  refine ⟨fun v => ?_, fun v => ?_, rfl, rfl⟩
  · have h := lip_camera (C := Rot3.ENU_R_CAMERA) (rot_spec hD hT .enu |>.1.1 |> fun h => by
      convert h using 1; ext <;> simp [Rot3.ENU_R_CAMERA, Mat3.transpose, RotE.ideal]) (single roll) (single pitch) (single yaw) roll pitch yaw v
    have t := vnorm_tri ((rm (Fl.Pose3.ENU_camera D T roll pitch yaw position).R).mulVec v)
      ((Rot3.ENU_camera (single roll : ℚ) (single pitch : ℚ) (single yaw : ℚ)).mulVec v) ((Rot3.ENU_camera roll pitch yaw).mulVec v)
    have := a v
    have := vnorm_nonneg v
    have h' : ((Rot3.ENU_camera (single roll : ℚ) (single pitch : ℚ) (single yaw : ℚ)).mulVec v - (Rot3.ENU_camera roll pitch yaw).mulVec v).norm
      ≤ (|(roll : ℝ)| / 2 ^ 24 + |(pitch : ℝ)| / 2 ^ 24 + |(yaw : ℝ)| / 2 ^ 24) * v.norm := h.trans (mul_le_mul_of_nonneg_right (by linarith) this)
    simp only [Fl.Pose3.ENU_camera] at *
    linarith
  · have h := lip_camera (C := Rot3.MAYA_R_CAMERA) (rot_spec hD hT .maya |>.1.1 |> fun h => by
      convert h using 1; ext <;> simp [Rot3.MAYA_R_CAMERA, Mat3.transpose, RotE.ideal]) (single roll) (single pitch) (single yaw) roll pitch yaw v
    have t := vnorm_tri ((rm (Fl.Pose3.Maya_camera D T roll pitch yaw position).R).mulVec v)
      ((Rot3.Maya_camera (single roll : ℚ) (single pitch : ℚ) (single yaw : ℚ)).mulVec v) ((Rot3.Maya_camera roll pitch yaw).mulVec v)
    have := b v
    have := vnorm_nonneg v
    have h' : ((Rot3.Maya_camera (single roll : ℚ) (single pitch : ℚ) (single yaw : ℚ)).mulVec v - (Rot3.Maya_camera roll pitch yaw).mulVec v).norm
      ≤ (|(roll : ℝ)| / 2 ^ 24 + |(pitch : ℝ)| / 2 ^ 24 + |(yaw : ℝ)| / 2 ^ 24) * v.norm := h.trans (mul_le_mul_of_nonneg_right (by linarith) this)
    simp only [Fl.Pose3.Maya_camera] at *
    linarith

theorem single_tenth : single (double (1 / 10)) = 13421773 / 2 ^ 27 := by decide +kernel
theorem double_tenth : double (1 / 10) = 3602879701896397 / 2 ^ 55 := by decide +kernel

theorem sin_gap : 1 / 2 ^ 30 + 6 / 2 ^ 47 < Real.sin ((13421773 / 2 ^ 27 : ℚ) : ℝ) - Real.sin ((3602879701896397 / 2 ^ 55 : ℚ) : ℝ) := by
  rw [Real.sin_sub_sin]
  push_cast
  have s := Real.sin_gt_sub_cube (x := ((13421773 / 2 ^ 27 : ℝ) - 3602879701896397 / 2 ^ 55) / 2) (by norm_num)
  have c := Real.one_sub_sq_div_two_le_cos (x := ((13421773 / 2 ^ 27 : ℝ) + 3602879701896397 / 2 ^ 55) / 2)
  have c' : (9 / 10 : ℝ) ≤ Real.cos (((13421773 / 2 ^ 27 : ℝ) + 3602879701896397 / 2 ^ 55) / 2) := le_trans (by norm_num) c
  have s' : (14 / 10 ^ 10 / 2 : ℝ) < Real.sin (((13421773 / 2 ^ 27 : ℝ) - 3602879701896397 / 2 ^ 55) / 2) := lt_of_le_of_lt (by norm_num) s
  have := mul_lt_mul'' s' (lt_of_lt_of_le (by norm_num : (8 / 10 : ℝ) < 9 / 10) c') (by norm_num) (by norm_num)
  nlinarith

theorem camera_far {C : Mat3 ℝ} (hC : IsOrthogonal C) {A : Mat3 ℚ} {a a' b c : ℝ}
    (hA : Near (6 / 2 ^ 47) A (((C.mul (Rot3.Ry c)).mul (Rot3.Rx b)).mul (Rot3.Rz a))) (hg : 1 / 2 ^ 30 + 6 / 2 ^ 47 < Real.sin a - Real.sin a') :
    ¬ Near (1 / 2 ^ 30) A (((C.mul (Rot3.Ry c)).mul (Rot3.Rx b)).mul (Rot3.Rz a')) := by
  intro h
  set v : Vec3 ℝ := ⟨1, 0, 0⟩ with hv
  have n1 : v.norm = 1 := by simp [hv, Vec3.norm, Vec3.normSq, Vec3.dot]
  have h1 := hA v
  have h2 := h v
  have t := vnorm_tri ((((C.mul (Rot3.Ry c)).mul (Rot3.Rx b)).mul (Rot3.Rz a)).mulVec v) ((rm A).mulVec v)
    ((((C.mul (Rot3.Ry c)).mul (Rot3.Rx b)).mul (Rot3.Rz a')).mulVec v)
  rw [vnorm_sub_comm (Mat3.mulVec _ v) ((rm A).mulVec v)] at t
  have e : ((((C.mul (Rot3.Ry c)).mul (Rot3.Rx b)).mul (Rot3.Rz a)).mulVec v -
      (((C.mul (Rot3.Ry c)).mul (Rot3.Rx b)).mul (Rot3.Rz a')).mulVec v).norm = ((Rot3.Rz a).mulVec v - (Rot3.Rz a').mulVec v).norm := by
    rw [mulVec_mul _ (Rot3.Rz a), mulVec_mul _ (Rot3.Rz a'), ← mulVec_sub,
      norm_rotate ((hC.mul (isRotation_Ry c).1).mul (isRotation_Rx b).1)]
  rw [e] at t
  have s : Real.sin a - Real.sin a' ≤ ((Rot3.Rz a).mulVec v - (Rot3.Rz a').mulVec v).norm := by
    refine (abs_le_of_sq_le_sq' ?_ (vnorm_nonneg _)).2
    rw [vnorm_sq]
    simp only [hv, Rot3.Rz, Rot3.fromScalars, Mat3.mulVec, Vec3.sub_x, Vec3.sub_y, Vec3.sub_z]
    nlinarith [sq_nonneg (Real.cos a - Real.cos a')]
  rw [n1] at h1 h2
  linarith

/-- C156 is false for the cameras of `Pose3`: a roll of 0.1 is off by more than `2^-30`, a million times the rounding error, whatever
the library does. -/
theorem C156_false (hD : GoodProducts D) (hT : GoodTrig T) : ∃ roll, IsDouble roll ∧ ∀ position,
    ¬ Near (1 / 2 ^ 30) (Fl.Pose3.ENU_camera D T roll 0 0 position).R (Rot3.ENU_camera roll 0 0) ∧
    ¬ Near (1 / 2 ^ 30) (Fl.Pose3.Maya_camera D T roll 0 0 position).R (Rot3.Maya_camera roll 0 0) := by
  refine ⟨double (1 / 10), double_isDouble _, fun position => ?_⟩
  obtain ⟨a, b⟩ := C156_rot3 hD hT (single (double (1 / 10))) (single 0) (single 0)
  have z : single 0 = 0 := by decide +kernel
  have g := sin_gap
  rw [← single_tenth, ← double_tenth] at g
  have cast0 : ((0 : ℚ) : ℝ) = 0 := Rat.cast_zero
  constructor
  · refine camera_far (C := Rot3.ENU_R_CAMERA) (rot_spec hD hT .enu |>.1.1 |> fun h => by
      convert h using 1; ext <;> simp [Rot3.ENU_R_CAMERA, Mat3.transpose, RotE.ideal]) ?_ g
    rw [z, cast0] at a
    simp only [Fl.Pose3.ENU_camera, z]
    exact a
  · refine camera_far (C := Rot3.MAYA_R_CAMERA) (rot_spec hD hT .maya |>.1.1 |> fun h => by
      convert h using 1; ext <;> simp [Rot3.MAYA_R_CAMERA, Mat3.transpose, RotE.ideal]) ?_ g
    rw [z, cast0] at b
    simp only [Fl.Pose3.Maya_camera, z]
    exact b

end

namespace FloatRigidExample
open FloatPoseExample

/-- Products with every operation rounded, from left to right. -/
def D : Fl.Products where
  vec R p := ⟨dot R.m00 R.m01 R.m02 p, dot R.m10 R.m11 R.m12 p, dot R.m20 R.m21 R.m22 p⟩
  all := seq
  mat A B :=
    let f : Vec3 ℚ → Vec3 ℚ := fun p => ⟨dot A.m00 A.m01 A.m02 p, dot A.m10 A.m11 A.m12 p, dot A.m20 A.m21 A.m22 p⟩
    Mat3.ofColumns (f B.col0) (f B.col1) (f B.col2)

theorem good_D : GoodProducts D :=
  ⟨fun _ _ => ⟨dotted_dot .., dotted_dot .., dotted_dot ..⟩, accurate_seq,
    fun _ _ => ⟨⟨dotted_dot .., dotted_dot .., dotted_dot ..⟩, ⟨dotted_dot .., dotted_dot .., dotted_dot ..⟩,
      dotted_dot .., dotted_dot .., dotted_dot ..⟩⟩

/-- A number rounded down to a multiple of `2^-53`. -/
noncomputable def down (x : ℝ) : ℚ := ⌊x * 2 ^ 53⌋ / 2 ^ 53

theorem down_err (x : ℝ) : |((down x : ℚ) : ℝ) - x| ≤ 1 / 2 ^ 53 := by
  have h1 := Int.floor_le (x * 2 ^ 53)
  have h2 := Int.lt_floor_add_one (x * 2 ^ 53)
  have e : ((down x : ℚ) : ℝ) = (⌊x * 2 ^ 53⌋ : ℝ) / 2 ^ 53 := by simp [down]
  have e2' : (⌊x * 2 ^ 53⌋ : ℝ) / 2 ^ 53 - x = (⌊x * 2 ^ 53⌋ : ℝ) / 2 ^ 53 - x * 2 ^ 53 / 2 ^ 53 := by
    rw [mul_div_cancel_right₀ x (by positivity : (2 : ℝ) ^ 53 ≠ 0)]
  rw [e, e2', abs_le]
  generalize (⌊x * 2 ^ 53⌋ : ℝ) = f at *
  rw [← sub_div, neg_eq_neg_one_mul, ← mul_div_assoc, mul_one, div_le_div_iff_of_pos_right (by positivity),
    div_le_div_iff_of_pos_right (by positivity)]
  constructor <;> linarith

/-- Sines and cosines rounded down. -/
noncomputable def T : Fl.Trig := ⟨fun t => down (Real.sin t), fun t => down (Real.cos t)⟩

theorem good_T : GoodTrig T := ⟨fun _ => down_err _, fun _ => down_err _⟩

/-- A camera turned and moved, and back again. -/
def trip : PoseE := .compose (.inverse (.make (.mul .maya (.ry (1 / 4))) ⟨1, 2, 3⟩)) (.make (.rx 2) ⟨0, 0, 1⟩)

example : trip.rotSteps = 4 ∧ trip.steps = 4 := by decide

/-- The hypotheses are met: a point a metre away ends within `2^-41` metres of the place it should, since the translations are
shorter than seven metres. -/
example (p : Vec3 ℚ) (hp : (rv p).norm ≤ 1) :
    (rv (Fl.Pose3.transformFrom D (trip.run D T) p) - trip.move (rv p)).norm ≤ 1 / 2 ^ 41 := by
  refine ((C155_points good_D good_T trip).1 p).trans ?_
  have hs : trip.size ≤ 7 := by
    have h1 : (rv ⟨1, 2, 3⟩).norm ≤ 4 := vnorm_le (by norm_num) (by simp [rv]; norm_num)
    have h2 : (rv ⟨0, 0, 1⟩).norm ≤ 1 := vnorm_le (by norm_num) (by simp [rv])
    simp only [trip, PoseE.size]
    linarith
  have h := C155_growth (n := 5) (by norm_num)
  have e : max trip.rotSteps trip.steps + 1 = 5 := by decide
  rw [e]
  have h6 := err_nonneg 5
  have := mul_le_mul h (show (rv p).norm + trip.size ≤ 8 by linarith) (add_nonneg (vnorm_nonneg _)
    ((vnorm_nonneg _).trans (C155_poses good_D good_T trip).2.1)) (by positivity)
  refine this.trans ?_
  norm_num

/-- An actual camera whose roll is wrong. -/
example : ∃ roll, IsDouble roll ∧ ¬ Near (1 / 2 ^ 30) (Fl.Pose3.ENU_camera D T roll 0 0 0).R (Rot3.ENU_camera roll 0 0) := by
  obtain ⟨r, h, h'⟩ := C156_false good_D good_T
  exact ⟨r, h, (h' 0).1⟩

end FloatRigidExample
end Sumo
