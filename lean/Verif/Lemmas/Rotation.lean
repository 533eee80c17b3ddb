import Verif.Model.Rotation
import Verif.Lemmas.Geometry
import Mathlib.Tactic.FieldSimp
import Mathlib.Tactic.Linarith
import Mathlib.Tactic.NormNum

/-! # Helper lemmas: quaternions and Euler angles of rotations -/

set_option linter.unusedVariables false

namespace Sumo

/-- `q` is a quaternion of the matrix `M`: all products of two components are the linear combinations of entries of `M`
that a unit quaternion of a rotation satisfies. -/
structure IsQuatOf (q : Quat ℝ) (M : Mat3 ℝ) : Prop where
  ww : 4 * (q.w * q.w) = 1 + M.m00 + M.m11 + M.m22
  wx : 4 * (q.w * q.x) = M.m21 - M.m12
  wy : 4 * (q.w * q.y) = M.m02 - M.m20
  wz : 4 * (q.w * q.z) = M.m10 - M.m01
  xx : 4 * (q.x * q.x) = 1 + M.m00 - M.m11 - M.m22
  xy : 4 * (q.x * q.y) = M.m01 + M.m10
  xz : 4 * (q.x * q.z) = M.m02 + M.m20
  yy : 4 * (q.y * q.y) = 1 + M.m11 - M.m00 - M.m22
  yz : 4 * (q.y * q.z) = M.m12 + M.m21
  zz : 4 * (q.z * q.z) = 1 + M.m22 - M.m00 - M.m11

theorem quat_row (s Qaa Qab Qac Qbc : ℝ) (hs : 0 < s) (h : s ^ 2 = Qaa) (hr : Qaa * Qbc = Qab * Qac) :
    4 * (Qab / (2 * s) * (Qac / (2 * s))) = Qbc := by
  have := hs.ne'
  field_simp
  rw [h]; linarith

theorem quat_row_self (s Qab : ℝ) (hs : 0 < s) : 4 * (s / 2 * (Qab / (2 * s))) = Qab := by
  have := hs.ne'
  field_simp; ring

theorem quat_row_self' (s Qab : ℝ) (hs : 0 < s) : 4 * (Qab / (2 * s) * (s / 2)) = Qab := by
  have := hs.ne'
  field_simp; ring

/-- The quadratic relations between the entries of a rotation: cofactors, columns, rows. -/
theorem IsRotation.rels {M : Mat3 ℝ} (h : IsRotation M) :
    (M.m00 = M.m11 * M.m22 - M.m12 * M.m21 ∧ M.m01 = M.m12 * M.m20 - M.m10 * M.m22 ∧
     M.m02 = M.m10 * M.m21 - M.m11 * M.m20 ∧ M.m10 = M.m02 * M.m21 - M.m01 * M.m22 ∧
     M.m11 = M.m00 * M.m22 - M.m02 * M.m20 ∧ M.m12 = M.m01 * M.m20 - M.m00 * M.m21 ∧
     M.m20 = M.m01 * M.m12 - M.m02 * M.m11 ∧ M.m21 = M.m02 * M.m10 - M.m00 * M.m12 ∧
     M.m22 = M.m00 * M.m11 - M.m01 * M.m10) := by
  have e := h.cofactor
  exact ⟨congrArg Mat3.m00 e, congrArg Mat3.m01 e, congrArg Mat3.m02 e, congrArg Mat3.m10 e,
    congrArg Mat3.m11 e, congrArg Mat3.m12 e, congrArg Mat3.m20 e, congrArg Mat3.m21 e, congrArg Mat3.m22 e⟩

theorem isQuatOf_row0 {M : Mat3 ℝ} (h : IsRotation M) (s : ℝ) (hs : 0 < s) (hq : s ^ 2 = 1 + M.m00 + M.m11 + M.m22) :
    IsQuatOf ⟨s / 2, (M.m21 - M.m12) / (2 * s), (M.m02 - M.m20) / (2 * s), (M.m10 - M.m01) / (2 * s)⟩ M := by
  obtain ⟨k00, k01, k02, k10, k11, k12, k20, k21, k22⟩ := h.rels
  obtain ⟨c1, c2, c3, c4, c5, c6⟩ := h.1.cols
  obtain ⟨r1, r2, r3, r4, r5, r6⟩ := h.1.rows
  constructor
  · linear_combination hq
  · exact quat_row_self s _ hs
  · exact quat_row_self s _ hs
  · exact quat_row_self s _ hs
  · exact quat_row s _ _ _ _ hs hq (by linear_combination (2) * k00 + (-1) * c2 + (-1) * c3 + (1) * r1)
  · exact quat_row s _ _ _ _ hs hq (by linear_combination (1) * k01 + (1) * k10 + (1) * c4 + (1) * r4)
  · exact quat_row s _ _ _ _ hs hq (by linear_combination (1) * k02 + (1) * k20 + (1) * c5 + (1) * r5)
  · exact quat_row s _ _ _ _ hs hq (by linear_combination (2) * k11 + (-1) * c1 + (-1) * c3 + (1) * r2)
  · exact quat_row s _ _ _ _ hs hq (by linear_combination (1) * k12 + (1) * k21 + (1) * c6 + (1) * r6)
  · exact quat_row s _ _ _ _ hs hq (by linear_combination (2) * k22 + (1) * c3 + (-1) * r1 + (-1) * r2)

theorem isQuatOf_row1 {M : Mat3 ℝ} (h : IsRotation M) (s : ℝ) (hs : 0 < s) (hq : s ^ 2 = 1 + M.m00 - M.m11 - M.m22) :
    IsQuatOf ⟨(M.m21 - M.m12) / (2 * s), s / 2, (M.m01 + M.m10) / (2 * s), (M.m02 + M.m20) / (2 * s)⟩ M := by
  obtain ⟨k00, k01, k02, k10, k11, k12, k20, k21, k22⟩ := h.rels
  obtain ⟨c1, c2, c3, c4, c5, c6⟩ := h.1.cols
  obtain ⟨r1, r2, r3, r4, r5, r6⟩ := h.1.rows
  constructor
  · exact quat_row s _ _ _ _ hs hq (by linear_combination (2) * k00 + (-1) * c2 + (-1) * c3 + (1) * r1)
  · exact quat_row_self' s _ hs
  · exact quat_row s _ _ _ _ hs hq (by linear_combination (1) * k02 + (-1) * k20 + (1) * c5 + (-1) * r5)
  · exact quat_row s _ _ _ _ hs hq (by linear_combination (-1) * k01 + (1) * k10 + (-1) * c4 + (1) * r4)
  · linear_combination hq
  · exact quat_row_self s _ hs
  · exact quat_row_self s _ hs
  · exact quat_row s _ _ _ _ hs hq (by linear_combination (-2) * k22 + (1) * c3 + (-1) * r1 + (-1) * r2)
  · exact quat_row s _ _ _ _ hs hq (by linear_combination (1) * k12 + (1) * k21 + (-1) * c6 + (-1) * r6)
  · exact quat_row s _ _ _ _ hs hq (by linear_combination (-2) * k11 + (-1) * c1 + (-1) * c3 + (1) * r2)

theorem isQuatOf_row2 {M : Mat3 ℝ} (h : IsRotation M) (s : ℝ) (hs : 0 < s) (hq : s ^ 2 = 1 + M.m11 - M.m00 - M.m22) :
    IsQuatOf ⟨(M.m02 - M.m20) / (2 * s), (M.m01 + M.m10) / (2 * s), s / 2, (M.m12 + M.m21) / (2 * s)⟩ M := by
  obtain ⟨k00, k01, k02, k10, k11, k12, k20, k21, k22⟩ := h.rels
  obtain ⟨c1, c2, c3, c4, c5, c6⟩ := h.1.cols
  obtain ⟨r1, r2, r3, r4, r5, r6⟩ := h.1.rows
  constructor
  · exact quat_row s _ _ _ _ hs hq (by linear_combination (2) * k11 + (-1) * c1 + (-1) * c3 + (1) * r2)
  · exact quat_row s _ _ _ _ hs hq (by linear_combination (-1) * k12 + (1) * k21 + (-1) * c6 + (1) * r6)
  · exact quat_row_self' s _ hs
  · exact quat_row s _ _ _ _ hs hq (by linear_combination (-1) * k01 + (1) * k10 + (1) * c4 + (-1) * r4)
  · exact quat_row s _ _ _ _ hs hq (by linear_combination (-2) * k22 + (1) * c3 + (-1) * r1 + (-1) * r2)
  · exact quat_row_self' s _ hs
  · exact quat_row s _ _ _ _ hs hq (by linear_combination (1) * k02 + (1) * k20 + (-1) * c5 + (-1) * r5)
  · linear_combination hq
  · exact quat_row_self s _ hs
  · exact quat_row s _ _ _ _ hs hq (by linear_combination (-2) * k00 + (-1) * c2 + (-1) * c3 + (1) * r1)

theorem isQuatOf_row3 {M : Mat3 ℝ} (h : IsRotation M) (s : ℝ) (hs : 0 < s) (hq : s ^ 2 = 1 + M.m22 - M.m00 - M.m11) :
    IsQuatOf ⟨(M.m10 - M.m01) / (2 * s), (M.m02 + M.m20) / (2 * s), (M.m12 + M.m21) / (2 * s), s / 2⟩ M := by
  obtain ⟨k00, k01, k02, k10, k11, k12, k20, k21, k22⟩ := h.rels
  obtain ⟨c1, c2, c3, c4, c5, c6⟩ := h.1.cols
  obtain ⟨r1, r2, r3, r4, r5, r6⟩ := h.1.rows
  constructor
  · exact quat_row s _ _ _ _ hs hq (by linear_combination (2) * k22 + (1) * c3 + (-1) * r1 + (-1) * r2)
  · exact quat_row s _ _ _ _ hs hq (by linear_combination (-1) * k12 + (1) * k21 + (1) * c6 + (-1) * r6)
  · exact quat_row s _ _ _ _ hs hq (by linear_combination (1) * k02 + (-1) * k20 + (-1) * c5 + (1) * r5)
  · exact quat_row_self' s _ hs
  · exact quat_row s _ _ _ _ hs hq (by linear_combination (-2) * k11 + (-1) * c1 + (-1) * c3 + (1) * r2)
  · exact quat_row s _ _ _ _ hs hq (by linear_combination (1) * k01 + (1) * k10 + (-1) * c4 + (-1) * r4)
  · exact quat_row_self' s _ hs
  · exact quat_row s _ _ _ _ hs hq (by linear_combination (-2) * k00 + (-1) * c2 + (-1) * c3 + (1) * r1)
  · exact quat_row_self' s _ hs
  · linear_combination hq

theorem IsQuatOf.unit {q : Quat ℝ} {M : Mat3 ℝ} (h : IsQuatOf q M) :
    q.w ^ 2 + q.x ^ 2 + q.y ^ 2 + q.z ^ 2 = 1 := by
  linear_combination (h.ww + h.xx + h.yy + h.zz) / 4

theorem IsQuatOf.normalize {q : Quat ℝ} {M : Mat3 ℝ} (h : IsQuatOf q M) : quatNormalize q = q := by
  simp [quatNormalize, h.unit]

theorem IsQuatOf.toMatrix {q : Quat ℝ} {M : Mat3 ℝ} (h : IsQuatOf q M) : quatToMatrix q = M := by
  have h2 : Real.sqrt 2.0 * Real.sqrt 2.0 = 2 := by
    rw [Real.mul_self_sqrt (by norm_num)]; norm_num
  obtain ⟨ww, wx, wy, wz, xx, xy, xz, yy, yz, zz⟩ := h
  ext <;> simp only [quatToMatrix] <;> generalize Real.sqrt 2.0 = s at h2 ⊢
  · linear_combination -(q.y * q.y + q.z * q.z) * h2 - (yy + zz) / 2
  · linear_combination (q.x * q.y - q.z * q.w) * h2 + (xy - wz) / 2
  · linear_combination (q.x * q.z + q.y * q.w) * h2 + (xz + wy) / 2
  · linear_combination (q.x * q.y + q.z * q.w) * h2 + (xy + wz) / 2
  · norm_num
    linear_combination -(q.x * q.x + q.z * q.z) * h2 - (xx + zz) / 2
  · linear_combination (q.y * q.z - q.x * q.w) * h2 + (yz - wx) / 2
  · linear_combination (q.x * q.z - q.y * q.w) * h2 + (xz - wy) / 2
  · linear_combination (q.y * q.z + q.x * q.w) * h2 + (yz + wx) / 2
  · norm_num
    linear_combination -(q.x * q.x + q.y * q.y) * h2 - (xx + yy) / 2

theorem IsQuatOf.eigenMatrix {q : Quat ℝ} {M : Mat3 ℝ} (h : IsQuatOf q M) : eigenMatrixOfQuat q = M := by
  have hu := h.unit
  obtain ⟨ww, wx, wy, wz, xx, xy, xz, yy, yz, zz⟩ := h
  have e : ∀ a : ℝ, a / Real.sqrt (q.w ^ 2 + q.x ^ 2 + q.y ^ 2 + q.z ^ 2) = a := by simp [hu]
  ext <;> simp only [eigenMatrixOfQuat, hu, zero_lt_one, gt_iff_lt, if_true, Real.sqrt_one, div_one]
  · linear_combination - (yy + zz) / 2
  · linear_combination (xy - wz) / 2
  · linear_combination (xz + wy) / 2
  · linear_combination (xy + wz) / 2
  · linear_combination - (xx + zz) / 2
  · linear_combination (yz - wx) / 2
  · linear_combination (xz - wy) / 2
  · linear_combination (yz + wx) / 2
  · linear_combination - (xx + yy) / 2

/-- Some quaternion with a non-zero component: the largest diagonal entry of `M` is large enough. -/
theorem isQuatOf_normalize {q q' : Quat ℝ} {M : Mat3 ℝ} (e : q = q') (h : IsQuatOf q' M) :
    IsQuatOf (quatNormalize q) M := by
  rw [e, h.normalize]; exact h

/-- Every rotation gets one of its quaternions. -/
theorem matrixToQuat_isQuatOf {M : Mat3 ℝ} (h : IsRotation M) : IsQuatOf (matrixToQuat M) M := by
  unfold matrixToQuat
  simp only [gt_iff_lt]
  split_ifs with h1 h2 h3
  · have hp : 0 < 1 + M.m00 + M.m11 + M.m22 := by linarith
    refine isQuatOf_normalize ?_ (isQuatOf_row0 h _ (Real.sqrt_pos.2 hp) (Real.sq_sqrt hp.le))
    rw [show M.m00 + M.m11 + M.m22 + 1.0 = 1 + M.m00 + M.m11 + M.m22 by norm_num; ring]
    ext <;> simp only <;> norm_num <;> ring
  · have hp : 0 < 1 + M.m00 - M.m11 - M.m22 := by linarith
    refine isQuatOf_normalize ?_ (isQuatOf_row1 h _ (Real.sqrt_pos.2 hp) (Real.sq_sqrt hp.le))
    rw [show 1.0 + M.m00 - M.m11 - M.m22 = 1 + M.m00 - M.m11 - M.m22 by norm_num]
    ext <;> simp only <;> norm_num <;> ring
  · have hp : 0 < 1 + M.m11 - M.m00 - M.m22 := by
      have : M.m00 ≤ M.m11 := by
        by_contra hc
        push Not at hc
        exact h2 ⟨hc, h3.trans hc⟩
      linarith
    refine isQuatOf_normalize ?_ (isQuatOf_row2 h _ (Real.sqrt_pos.2 hp) (Real.sq_sqrt hp.le))
    rw [show 1.0 + M.m11 - M.m00 - M.m22 = 1 + M.m11 - M.m00 - M.m22 by norm_num]
    ext <;> simp only <;> norm_num <;> ring
  · have hp : 0 < 1 + M.m22 - M.m00 - M.m11 := by
      have : M.m00 ≤ M.m22 := by
        by_contra hc
        push Not at hc h3
        exact h2 ⟨h3.trans_lt hc, hc⟩
      linarith
    refine isQuatOf_normalize ?_ (isQuatOf_row3 h _ (Real.sqrt_pos.2 hp) (Real.sq_sqrt hp.le))
    rw [show 1.0 + M.m22 - M.m00 - M.m11 = 1 + M.m22 - M.m00 - M.m11 by norm_num]
    ext <;> simp only <;> norm_num <;> ring

theorem eigenQuat_isQuatOf {M : Mat3 ℝ} (h : IsRotation M) : IsQuatOf (eigenQuatOfMatrix M) M := by
  unfold eigenQuatOfMatrix
  simp only [gt_iff_lt]
  split_ifs with h1 h2 h3 h3
  · have hp : 0 < 1 + M.m00 + M.m11 + M.m22 := by linarith
    have e := isQuatOf_row0 h _ (Real.sqrt_pos.2 hp) (Real.sq_sqrt hp.le)
    convert e using 1
    rw [show M.m00 + M.m11 + M.m22 + 1 = 1 + M.m00 + M.m11 + M.m22 by ring]
    ext <;> simp only <;> norm_num <;> ring
  · have hp : 0 < 1 + M.m22 - M.m00 - M.m11 := by linarith
    have e := isQuatOf_row3 h _ (Real.sqrt_pos.2 hp) (Real.sq_sqrt hp.le)
    convert e using 1
    rw [show M.m22 - M.m00 - M.m11 + 1 = 1 + M.m22 - M.m00 - M.m11 by ring]
    ext <;> simp only <;> norm_num <;> ring
  · have hp : 0 < 1 + M.m11 - M.m00 - M.m22 := by linarith
    have e := isQuatOf_row2 h _ (Real.sqrt_pos.2 hp) (Real.sq_sqrt hp.le)
    convert e using 1
    rw [show M.m11 - M.m22 - M.m00 + 1 = 1 + M.m11 - M.m00 - M.m22 by ring]
    ext <;> simp only <;> norm_num <;> ring
  · have hp : 0 < 1 + M.m22 - M.m00 - M.m11 := by linarith
    have e := isQuatOf_row3 h _ (Real.sqrt_pos.2 hp) (Real.sq_sqrt hp.le)
    convert e using 1
    rw [show M.m22 - M.m00 - M.m11 + 1 = 1 + M.m22 - M.m00 - M.m11 by ring]
    ext <;> simp only <;> norm_num <;> ring
  · have hp : 0 < 1 + M.m00 - M.m11 - M.m22 := by linarith
    have e := isQuatOf_row1 h _ (Real.sqrt_pos.2 hp) (Real.sq_sqrt hp.le)
    convert e using 1
    rw [show M.m00 - M.m11 - M.m22 + 1 = 1 + M.m00 - M.m11 - M.m22 by ring]
    ext <;> simp only <;> norm_num <;> ring

/-- Euler angles of a rotation, read off the matrix. -/
theorem matrixToEuler_eq {M : Mat3 ℝ} (h : IsRotation M) :
    matrixToEuler M = ⟨atan2 M.m10 M.m00, Real.arcsin (-M.m20), atan2 M.m21 M.m22⟩ := by
  obtain ⟨ww, wx, wy, wz, xx, xy, xz, yy, yz, zz⟩ := matrixToQuat_isQuatOf h
  unfold matrixToEuler quatToEuler
  ext <;> simp only
  · congr 1
    · linear_combination (xy + wz) / 2
    · linear_combination (ww + xx - yy - zz) / 4
  · congr 1
    linear_combination -(xz - wy) / 2
  · congr 1
    · linear_combination (yz + wx) / 2
    · linear_combination (ww - xx - yy + zz) / 4

theorem cos_atan2 (y x r : ℝ) (hr : 0 < r) (h : x ^ 2 + y ^ 2 = r ^ 2) : Real.cos (atan2 y x) = x / r := by
  have hn : ‖(⟨x, y⟩ : ℂ)‖ = r := by
    rw [Complex.norm_def, Complex.normSq_mk, show x * x + y * y = r ^ 2 by linarith, Real.sqrt_sq hr.le]
  have h0 : (⟨x, y⟩ : ℂ) ≠ 0 := by
    intro e; rw [e, norm_zero] at hn; exact hr.ne hn
  rw [atan2, Complex.cos_arg h0, hn]

theorem sin_atan2 (y x r : ℝ) (hr : 0 < r) (h : x ^ 2 + y ^ 2 = r ^ 2) : Real.sin (atan2 y x) = y / r := by
  have hn : ‖(⟨x, y⟩ : ℂ)‖ = r := by
    rw [Complex.norm_def, Complex.normSq_mk, show x * x + y * y = r ^ 2 by linarith, Real.sqrt_sq hr.le]
  rw [atan2, Complex.sin_arg, hn]

theorem atan2_zero : atan2 0 0 = 0 := by
  rw [atan2, show (⟨0, 0⟩ : ℂ) = 0 from rfl, Complex.arg_zero]

theorem eulerToMatrix_entries (e : Euler) : eulerToMatrix e =
    ⟨Real.cos e.z * Real.cos e.y,
     Real.cos e.z * Real.sin e.y * Real.sin e.x - Real.sin e.z * Real.cos e.x,
     Real.cos e.z * Real.sin e.y * Real.cos e.x + Real.sin e.z * Real.sin e.x,
     Real.sin e.z * Real.cos e.y,
     Real.sin e.z * Real.sin e.y * Real.sin e.x + Real.cos e.z * Real.cos e.x,
     Real.sin e.z * Real.sin e.y * Real.cos e.x - Real.cos e.z * Real.sin e.x,
     -Real.sin e.y, Real.cos e.y * Real.sin e.x, Real.cos e.y * Real.cos e.x⟩ := by
  ext <;> simp only [eulerToMatrix, Rot3.compose, Mat3.mul, Rot3.Rz, Rot3.Ry, Rot3.Rx, Rot3.fromScalars] <;> ring

theorem isRotation_eulerToMatrix (e : Euler) : IsRotation (eulerToMatrix e) :=
  ((isRotation_Rz _).mul (isRotation_Ry _)).mul (isRotation_Rx _)

/-- Away from gimbal lock the Euler angles of a rotation give back the rotation. -/
theorem eulerToMatrix_matrixToEuler {M : Mat3 ℝ} (h : IsRotation M) (hg : M.m20 ^ 2 ≠ 1) :
    eulerToMatrix (matrixToEuler M) = M := by
  obtain ⟨k00, k01, k02, k10, k11, k12, k20, k21, k22⟩ := h.rels
  obtain ⟨c1, c2, c3, c4, c5, c6⟩ := h.1.cols
  obtain ⟨r1, r2, r3, r4, r5, r6⟩ := h.1.rows
  have hlt : M.m20 ^ 2 < 1 := by
    have a := sq_nonneg M.m00
    have b := sq_nonneg M.m10
    exact lt_of_le_of_ne (by linarith) hg
  set r := Real.sqrt (1 - M.m20 ^ 2) with hr
  have hr0 : 0 < r := Real.sqrt_pos.2 (by linarith)
  have hr2 : r ^ 2 = 1 - M.m20 ^ 2 := Real.sq_sqrt (by linarith)
  have hz : M.m00 ^ 2 + M.m10 ^ 2 = r ^ 2 := by rw [hr2]; linarith
  have hx : M.m22 ^ 2 + M.m21 ^ 2 = r ^ 2 := by rw [hr2]; linarith
  have hb : -1 ≤ -M.m20 ∧ -M.m20 ≤ 1 := by
    have := abs_le.1 ((sq_le_one_iff_abs_le_one _).1 hlt.le)
    exact ⟨by linarith [this.2], by linarith [this.1]⟩
  have hsy : Real.sin (Real.arcsin (-M.m20)) = -M.m20 := Real.sin_arcsin hb.1 hb.2
  have hcy : Real.cos (Real.arcsin (-M.m20)) = r := by
    rw [Real.cos_arcsin, hr]; congr 1; ring
  rw [eulerToMatrix_entries, matrixToEuler_eq h]
  simp only [hsy, hcy, cos_atan2 _ _ r hr0 hz, sin_atan2 _ _ r hr0 hz, cos_atan2 _ _ r hr0 hx,
    sin_atan2 _ _ r hr0 hx]
  have hrn := hr0.ne'
  ext <;> simp only
  · field_simp
  · field_simp
    linear_combination -k01 - M.m20 * k12 - M.m01 * hr2
  · field_simp
    linear_combination -k02 + M.m20 * k11 - M.m02 * hr2
  · field_simp
  · field_simp
    linear_combination -k11 + M.m20 * k02 - M.m11 * hr2
  · field_simp
    linear_combination -k12 - M.m20 * k01 - M.m12 * hr2
  · ring
  · field_simp
  · field_simp

theorem eulerToQuat_toMatrix (e : Euler) : quatToMatrix (eulerToQuat e) = eulerToMatrix e := by
  have hz := Real.cos_sq_add_sin_sq (0.5 * e.z)
  have hy := Real.cos_sq_add_sin_sq (0.5 * e.y)
  have hx := Real.cos_sq_add_sin_sq (0.5 * e.x)
  have ez : e.z = 2 * (0.5 * e.z) := by norm_num; ring
  have ey : e.y = 2 * (0.5 * e.y) := by norm_num; ring
  have ex : e.x = 2 * (0.5 * e.x) := by norm_num; ring
  have h2 : Real.sqrt 2.0 * Real.sqrt 2.0 = 2 := by
    rw [Real.mul_self_sqrt (by norm_num)]; norm_num
  have ha : ∀ p q : ℝ, Real.sqrt 2.0 * p * (Real.sqrt 2.0 * q) = 2 * p * q := by
    intro p q; linear_combination p * q * h2
  have e1 : (1.0 : ℝ) = 1 := by norm_num
  rw [eulerToMatrix_entries]
  have cz : Real.cos e.z = Real.cos (0.5 * e.z) ^ 2 - Real.sin (0.5 * e.z) ^ 2 := by
    conv_lhs => rw [ez, Real.cos_two_mul']
  have cy : Real.cos e.y = Real.cos (0.5 * e.y) ^ 2 - Real.sin (0.5 * e.y) ^ 2 := by
    conv_lhs => rw [ey, Real.cos_two_mul']
  have cx : Real.cos e.x = Real.cos (0.5 * e.x) ^ 2 - Real.sin (0.5 * e.x) ^ 2 := by
    conv_lhs => rw [ex, Real.cos_two_mul']
  have sz : Real.sin e.z = 2 * Real.sin (0.5 * e.z) * Real.cos (0.5 * e.z) := by
    conv_lhs => rw [ez, Real.sin_two_mul]
  have sy : Real.sin e.y = 2 * Real.sin (0.5 * e.y) * Real.cos (0.5 * e.y) := by
    conv_lhs => rw [ey, Real.sin_two_mul]
  have sx : Real.sin e.x = 2 * Real.sin (0.5 * e.x) * Real.cos (0.5 * e.x) := by
    conv_lhs => rw [ex, Real.sin_two_mul]
  simp only [cz, cy, cx, sz, sy, sx, quatToMatrix, eulerToQuat, ha, e1]
  generalize Real.cos (0.5 * e.z) = c1 at *
  generalize Real.sin (0.5 * e.z) = s1 at *
  generalize Real.cos (0.5 * e.y) = c2 at *
  generalize Real.sin (0.5 * e.y) = s2 at *
  generalize Real.cos (0.5 * e.x) = c3 at *
  generalize Real.sin (0.5 * e.x) = s3 at *
  have hp : (c1 ^ 2 + s1 ^ 2) * (c2 ^ 2 + s2 ^ 2) * (c3 ^ 2 + s3 ^ 2) = 1 := by rw [hz, hy, hx]; norm_num
  ext <;> simp only
  · linear_combination -hp + (c1 ^ 2 - s1 ^ 2) * (c2 ^ 2 - s2 ^ 2) * hx
  · linear_combination -2 * c1 * s1 * (c3 ^ 2 - s3 ^ 2) * hy
  · linear_combination 4 * c1 * s1 * c3 * s3 * hy
  · linear_combination 2 * s1 * c1 * (c2 ^ 2 - s2 ^ 2) * hx
  · linear_combination -hp + (c1 ^ 2 - s1 ^ 2) * (c3 ^ 2 - s3 ^ 2) * hy
  · linear_combination -(c1 ^ 2 - s1 ^ 2) * 2 * s3 * c3 * hy
  · linear_combination -2 * s2 * c2 * (hz * (c3 ^ 2 + s3 ^ 2) + hx)
  · linear_combination (c2 ^ 2 - s2 ^ 2) * 2 * s3 * c3 * hz
  · linear_combination -hp + (c2 ^ 2 - s2 ^ 2) * (c3 ^ 2 - s3 ^ 2) * hz

theorem atan2_cos_sin {r t : ℝ} (hr : 0 < r) (h1 : -Real.pi < t) (h2 : t ≤ Real.pi) :
    atan2 (r * Real.sin t) (r * Real.cos t) = t := by
  have := Complex.arg_mul_cos_add_sin_mul_I hr ⟨h1, h2⟩
  rw [atan2]
  convert this using 2
  apply Complex.ext <;> simp [Complex.cos_ofReal_re, Complex.sin_ofReal_re]

end Sumo
