import Verif.Lemmas.Rotation

/-!
# Rotation representations (C37)
-/

namespace Sumo

/-- **C37** `matrix_to_quat` of a rotation is a unit quaternion and `quat_to_matrix` gives the rotation back. -/
theorem C37_quat_round_trip {M : Mat3 ℝ} (h : IsRotation M) :
    quatToMatrix (matrixToQuat M) = M ∧
    (matrixToQuat M).w ^ 2 + (matrixToQuat M).x ^ 2 + (matrixToQuat M).y ^ 2 + (matrixToQuat M).z ^ 2 = 1 :=
  ⟨(matrixToQuat_isQuatOf h).toMatrix, (matrixToQuat_isQuatOf h).unit⟩

/-- **C37** going from Euler angles to a matrix directly or through a quaternion is the same, and gives a
rotation. -/
theorem C37_euler_to_quat (e : Euler) :
    quatToMatrix (eulerToQuat e) = eulerToMatrix e ∧ IsRotation (eulerToMatrix e) :=
  ⟨eulerToQuat_toMatrix e, isRotation_eulerToMatrix e⟩

/-- **C37** (partial) `euler_to_matrix(matrix_to_euler(M)) = M` for every rotation away from gimbal lock
(`|M[2,0]| = 1`). Missing: gimbal lock, where it is false, see `C37_euler_gimbal_lock`. -/
theorem C37_euler_round_trip_partial {M : Mat3 ℝ} (h : IsRotation M) (hg : M.m20 ^ 2 ≠ 1) :
    eulerToMatrix (matrixToEuler M) = M := eulerToMatrix_matrixToEuler h hg

/-- **C37** in the principal range the other round trip holds too. -/
theorem C37_euler_of_matrix (e : Euler) (hz : -Real.pi < e.z ∧ e.z ≤ Real.pi)
    (hx : -Real.pi < e.x ∧ e.x ≤ Real.pi) (hy : -(Real.pi / 2) < e.y ∧ e.y < Real.pi / 2) :
    matrixToEuler (eulerToMatrix e) = e := by
  have hc : 0 < Real.cos e.y := Real.cos_pos_of_mem_Ioo hy
  rw [matrixToEuler_eq (isRotation_eulerToMatrix e), eulerToMatrix_entries]
  ext
  · change atan2 (Real.sin e.z * Real.cos e.y) (Real.cos e.z * Real.cos e.y) = e.z
    rw [mul_comm (Real.sin e.z), mul_comm (Real.cos e.z)]
    exact atan2_cos_sin hc hz.1 hz.2
  · simp only [neg_neg]
    exact Real.arcsin_sin hy.1.le hy.2.le
  · exact atan2_cos_sin hc hx.1 hx.2

/-- **C37** at gimbal lock the code returns `(0, ±π/2, 0)` whatever the rotation: the round trip always gives
`Ry(±π/2)`. -/
theorem C37_euler_gimbal_value {M : Mat3 ℝ} (h : IsRotation M) (hg : M.m20 ^ 2 = 1) :
    matrixToEuler M = ⟨0, -M.m20 * (Real.pi / 2), 0⟩ ∧
    eulerToMatrix (matrixToEuler M) = ⟨0, 0, -M.m20, 0, 1, 0, M.m20, 0, 0⟩ := by
  obtain ⟨c1, -, -, -, -, -⟩ := h.1.cols
  obtain ⟨-, -, r3, -, -, -⟩ := h.1.rows
  have a := sq_nonneg M.m00
  have b := sq_nonneg M.m10
  have c := sq_nonneg M.m21
  have d := sq_nonneg M.m22
  have e00 : M.m00 = 0 := pow_eq_zero_iff (two_ne_zero) |>.1 (by nlinarith)
  have e10 : M.m10 = 0 := pow_eq_zero_iff (two_ne_zero) |>.1 (by nlinarith)
  have e21 : M.m21 = 0 := pow_eq_zero_iff (two_ne_zero) |>.1 (by nlinarith)
  have e22 : M.m22 = 0 := pow_eq_zero_iff (two_ne_zero) |>.1 (by nlinarith)
  have key : matrixToEuler M = ⟨0, -M.m20 * (Real.pi / 2), 0⟩ := by
    rw [matrixToEuler_eq h, e00, e10, e21, e22, atan2_zero]
    rcases eq_or_eq_neg_of_sq_eq_sq _ 1 (hg.trans (one_pow 2).symm) with h1 | h1 <;> rw [h1] <;> simp
  refine ⟨key, ?_⟩
  rw [key, eulerToMatrix_entries]
  rcases eq_or_eq_neg_of_sq_eq_sq _ 1 (hg.trans (one_pow 2).symm) with h1 | h1 <;> rw [h1] <;> simp

/-- **C37** is false at gimbal lock: a rotation that its Euler angles do not give back. -/
theorem C37_euler_gimbal_lock : ∃ M : Mat3 ℝ, IsRotation M ∧ eulerToMatrix (matrixToEuler M) ≠ M := by
  have hM : IsRotation (⟨0, 1, 0, 0, 0, -1, -1, 0, 0⟩ : Mat3 ℝ) := by
    rw [isRotation_iff]
    constructor
    · ext <;> norm_num [Mat3.mul, Mat3.transpose, Mat3.one]
    · norm_num [Mat3.det]
  refine ⟨_, hM, fun h => ?_⟩
  rw [(C37_euler_gimbal_value hM (by norm_num)).2] at h
  have := congrArg Mat3.m01 h
  norm_num at this

/-- Every branch of `matrix_to_quat` is met by a rotation away from gimbal lock. -/
example : IsRotation (⟨1, 0, 0, 0, -1, 0, 0, 0, -1⟩ : Mat3 ℝ) ∧ (0 : ℝ) ^ 2 ≠ 1 := by
  refine ⟨?_, by norm_num⟩
  rw [isRotation_iff]
  constructor
  · ext <;> norm_num [Mat3.mul, Mat3.transpose, Mat3.one]
  · norm_num [Mat3.det]

example : IsRotation (eulerToMatrix ⟨1, 0.5, 2⟩) := isRotation_eulerToMatrix _

end Sumo
