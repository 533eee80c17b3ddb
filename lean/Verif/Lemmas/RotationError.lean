import Verif.Spec.RotationError
import Verif.Lemmas.Rotation
import Mathlib.Geometry.Euclidean.Angle.Unoriented.TriangleInequality
import Mathlib.Analysis.InnerProductSpace.PiL2

/-! # Helper lemmas: rotation error -/

set_option linter.unusedVariables false

namespace Sumo
open RotSpec

/-! ### The angle of a rotation -/

theorem IsQuatOf.entries {q : Quat ℝ} {M : Mat3 ℝ} (h : IsQuatOf q M) :
    M = ⟨q.w * q.w + q.x * q.x - q.y * q.y - q.z * q.z, 2 * (q.x * q.y - q.w * q.z), 2 * (q.x * q.z + q.w * q.y),
      2 * (q.x * q.y + q.w * q.z), q.w * q.w - q.x * q.x + q.y * q.y - q.z * q.z, 2 * (q.y * q.z - q.w * q.x),
      2 * (q.x * q.z - q.w * q.y), 2 * (q.y * q.z + q.w * q.x), q.w * q.w - q.x * q.x - q.y * q.y + q.z * q.z⟩ := by
  obtain ⟨ww, wx, wy, wz, xx, xy, xz, yy, yz, zz⟩ := h
  ext <;> simp only <;> linarith

/-- The scalar product of two quaternions. -/
def Quat.dot (p q : Quat ℝ) : ℝ := p.w * q.w + p.x * q.x + p.y * q.y + p.z * q.z

theorem trace_quat {p q : Quat ℝ} {A B : Mat3 ℝ} (hp : IsQuatOf p A) (hq : IsQuatOf q B) :
    (A.transpose.mul B).trace = 4 * (p.dot q) ^ 2 - 1 := by
  have up := hp.unit
  have uq := hq.unit
  rw [hp.entries, hq.entries]
  simp only [Mat3.trace, Mat3.mul, Mat3.transpose, Quat.dot]
  linear_combination -(q.w ^ 2 + q.x ^ 2 + q.y ^ 2 + q.z ^ 2) * up - uq

theorem trace_range {A : Mat3 ℝ} (h : IsRotation A) : -1 ≤ A.trace ∧ A.trace ≤ 3 := by
  have hq := matrixToQuat_isQuatOf h
  have hu := hq.unit
  have hw := hq.ww
  set q := matrixToQuat A
  have e : A.trace = 4 * q.w ^ 2 - 1 := by simp only [Mat3.trace]; linarith
  rw [e]
  constructor <;> nlinarith [sq_nonneg q.w, sq_nonneg q.x, sq_nonneg q.y, sq_nonneg q.z]

theorem trace_eq_three {A : Mat3 ℝ} (h : IsRotation A) (ht : 3 ≤ A.trace) : A = Mat3.one := by
  obtain ⟨c1, c2, c3, c4, c5, c6⟩ := h.1.cols
  simp only [Mat3.trace] at ht
  have b : ∀ a b c : ℝ, a * a + b * b + c * c = 1 → a ≤ 1 := by
    intro a b c e; nlinarith [mul_self_nonneg b, mul_self_nonneg c, mul_self_nonneg (a - 1)]
  have h0 : A.m00 ≤ 1 := b _ _ _ c1
  have h1 : A.m11 ≤ 1 := b A.m11 A.m01 A.m21 (by linarith)
  have h2 : A.m22 ≤ 1 := b A.m22 A.m02 A.m12 (by linarith)
  have e0 : A.m00 = 1 := by linarith
  have e1 : A.m11 = 1 := by linarith
  have e2 : A.m22 = 1 := by linarith
  have z : ∀ a b : ℝ, a * a + b * b = 0 → a = 0 ∧ b = 0 := by
    intro a b e
    exact ⟨mul_self_eq_zero.1 (by nlinarith [mul_self_nonneg a, mul_self_nonneg b]),
      mul_self_eq_zero.1 (by nlinarith [mul_self_nonneg a, mul_self_nonneg b])⟩
  rw [e0] at c1; rw [e1] at c2; rw [e2] at c3
  obtain ⟨z1, z2⟩ := z A.m10 A.m20 (by linarith)
  obtain ⟨z3, z4⟩ := z A.m01 A.m21 (by linarith)
  obtain ⟨z5, z6⟩ := z A.m02 A.m12 (by linarith)
  ext <;> simp only [Mat3.one] <;> assumption

theorem geodesic_nonneg (A B : Mat3 ℝ) : 0 ≤ geodesic A B := Real.arccos_nonneg _
theorem geodesic_le_pi (A B : Mat3 ℝ) : geodesic A B ≤ Real.pi := Real.arccos_le_pi _

theorem geodesic_comm (A B : Mat3 ℝ) : geodesic A B = geodesic B A := by
  unfold geodesic
  congr 3
  simp only [Mat3.trace, Mat3.mul, Mat3.transpose]; ring

theorem geodesic_eq_zero {A B : Mat3 ℝ} (hA : IsRotation A) (hB : IsRotation B) : geodesic A B = 0 ↔ A = B := by
  unfold geodesic
  rw [Real.arccos_eq_zero]
  constructor
  · intro h
    have := trace_eq_three (hA.transpose.mul hB) (by linarith)
    have e : A.mul (A.transpose.mul B) = A.mul Mat3.one := by rw [this]
    rw [← mul_assoc3, hA.1.right, one_mul3, mul_one3] at e
    exact e.symm
  · rintro rfl
    rw [hA.1.left]
    norm_num [Mat3.trace, Mat3.one]

/-- The angle is twice the angle between the quaternions. -/
theorem geodesic_quat {p q : Quat ℝ} {A B : Mat3 ℝ} (hp : IsQuatOf p A) (hq : IsQuatOf q B) :
    geodesic A B = 2 * Real.arccos |p.dot q| := by
  unfold geodesic
  rw [trace_quat hp hq]
  have hc : |p.dot q| ≤ 1 := by
    rw [← sq_le_one_iff_abs_le_one]
    have up := hp.unit
    have uq := hq.unit
    unfold Quat.dot
    nlinarith [sq_nonneg (p.w * q.x - p.x * q.w), sq_nonneg (p.w * q.y - p.y * q.w),
      sq_nonneg (p.w * q.z - p.z * q.w), sq_nonneg (p.x * q.y - p.y * q.x), sq_nonneg (p.x * q.z - p.z * q.x),
      sq_nonneg (p.y * q.z - p.z * q.y),
      show (p.w ^ 2 + p.x ^ 2 + p.y ^ 2 + p.z ^ 2) * (q.w ^ 2 + q.x ^ 2 + q.y ^ 2 + q.z ^ 2) = 1 by
        rw [up, uq]; norm_num]
  have hn := abs_nonneg (p.dot q)
  have e : (4 * p.dot q ^ 2 - 1 - 1) / 2 = Real.cos (2 * Real.arccos |p.dot q|) := by
    rw [Real.cos_two_mul, Real.cos_arccos (by linarith) hc, sq_abs]; ring
  rw [e, Real.arccos_cos (by linarith [Real.arccos_nonneg |p.dot q|])]
  have := Real.arccos_le_pi_div_two.2 hn
  linarith

/-- A quaternion as a vector. -/
noncomputable def Quat.vec (p : Quat ℝ) : EuclideanSpace ℝ (Fin 4) := !₂[p.w, p.x, p.y, p.z]

theorem Quat.inner_vec (p q : Quat ℝ) : inner ℝ p.vec q.vec = p.dot q := by
  simp [Quat.vec, Quat.dot, PiLp.inner_apply, Fin.sum_univ_four, mul_comm]

theorem Quat.norm_vec {p : Quat ℝ} (h : p.w ^ 2 + p.x ^ 2 + p.y ^ 2 + p.z ^ 2 = 1) : ‖p.vec‖ = 1 := by
  have : inner ℝ p.vec p.vec = (1 : ℝ) := by rw [Quat.inner_vec, Quat.dot]; linarith
  rw [real_inner_self_eq_norm_sq] at this
  nlinarith [norm_nonneg p.vec]

theorem Quat.angle_vec {p q : Quat ℝ} (hp : ‖p.vec‖ = 1) (hq : ‖q.vec‖ = 1) :
    InnerProductGeometry.angle p.vec q.vec = Real.arccos (p.dot q) := by
  rw [InnerProductGeometry.angle, hp, hq, Quat.inner_vec]; norm_num

/-- The opposite quaternion. -/
def Quat.neg (p : Quat ℝ) : Quat ℝ := ⟨-p.w, -p.x, -p.y, -p.z⟩

theorem IsQuatOf.neg {q : Quat ℝ} {M : Mat3 ℝ} (h : IsQuatOf q M) : IsQuatOf q.neg M := by
  obtain ⟨ww, wx, wy, wz, xx, xy, xz, yy, yz, zz⟩ := h
  constructor <;> simp only [Quat.neg] <;> linarith

theorem exists_quat_near {M : Mat3 ℝ} (h : IsRotation M) (p : Quat ℝ) : ∃ q, IsQuatOf q M ∧ 0 ≤ p.dot q := by
  have hq := matrixToQuat_isQuatOf h
  rcases le_total 0 (p.dot (matrixToQuat M)) with h0 | h0
  · exact ⟨_, hq, h0⟩
  · refine ⟨_, hq.neg, ?_⟩
    have : p.dot (matrixToQuat M).neg = -p.dot (matrixToQuat M) := by simp only [Quat.dot, Quat.neg]; ring
    rw [this]; linarith

theorem geodesic_triangle {A B C : Mat3 ℝ} (hA : IsRotation A) (hB : IsRotation B) (hC : IsRotation C) :
    geodesic A C ≤ geodesic A B + geodesic B C := by
  have hp := matrixToQuat_isQuatOf hA
  obtain ⟨q, hq, hpq⟩ := exists_quat_near hB (matrixToQuat A)
  obtain ⟨r, hr, hqr⟩ := exists_quat_near hC q
  set p := matrixToQuat A
  rw [geodesic_quat hp hr, geodesic_quat hp hq, geodesic_quat hq hr, abs_of_nonneg hpq, abs_of_nonneg hqr]
  have np := Quat.norm_vec hp.unit
  have nq := Quat.norm_vec hq.unit
  have nr := Quat.norm_vec hr.unit
  have ht := InnerProductGeometry.angle_le_angle_add_angle p.vec q.vec r.vec
  rw [Quat.angle_vec np nr, Quat.angle_vec np nq, Quat.angle_vec nq nr] at ht
  have := Real.arccos_le_arccos (le_abs_self (p.dot r))
  linarith

theorem geodesic_axisAngle {A : Mat3 ℝ} (hA : IsRotation A) {d : Vec3 ℝ} (hd : d.normSq = 1) {a : ℝ}
    (ha : |a| ≤ Real.pi) : geodesic A (Rot3.compose A (Rot3.axisAngle d a)) = |a| := by
  unfold geodesic Rot3.compose
  rw [← mul_assoc3, hA.1.left, one_mul3]
  have e : ((Rot3.axisAngle d a).trace - 1) / 2 = Real.cos |a| := by
    rw [Real.cos_abs]
    simp only [Vec3.normSq, Vec3.dot] at hd
    simp only [Rot3.axisAngle, Mat3.trace]
    linear_combination (1 - Real.cos a) / 2 * hd
  rw [e, Real.arccos_cos (abs_nonneg a) ha]

theorem geodesic_axisRot {A : Mat3 ℝ} (hA : IsRotation A) (axis : Fin 3) {a : ℝ}
    (ha : |a| ≤ Real.pi) : geodesic A (Rot3.compose A (axisRot axis a)) = |a| := by
  unfold geodesic Rot3.compose
  rw [← mul_assoc3, hA.1.left, one_mul3]
  have e : ((axisRot axis a).trace - 1) / 2 = Real.cos |a| := by
    rw [Real.cos_abs]
    fin_cases axis <;> simp only [axisRot, Rot3.Rx, Rot3.Ry, Rot3.Rz, Rot3.fromScalars, Mat3.trace] <;> ring
  rw [e, Real.arccos_cos (abs_nonneg a) ha]

theorem geodesic_mul_right (A B h : Mat3 ℝ) : geodesic (A.mul h) B = geodesic A (B.mul h.transpose) := by
  unfold geodesic
  congr 3
  simp only [Mat3.trace, Mat3.mul, Mat3.transpose]; ring

theorem geodesic_mul_left {R : Mat3 ℝ} (hR : IsOrthogonal R) (A B : Mat3 ℝ) :
    geodesic (R.mul A) (R.mul B) = geodesic A B := by
  unfold geodesic
  rw [transpose_mul3, mul_assoc3, ← mul_assoc3 R.transpose, hR.left, one_mul3]

/-! ### `min` -/

theorem foldl_min_mem (l : List ℝ) (a : ℝ) : l.foldl min a ∈ a :: l := by
  induction l generalizing a with
  | nil => simp
  | cons b l ih =>
    have := ih (min a b)
    rw [List.foldl_cons]
    rcases List.mem_cons.1 this with h | h
    · rw [h]; rcases min_choice a b with e | e <;> rw [e] <;> simp
    · simp [h]

theorem foldl_pyMin_le (l : List ℝ) (a : ℝ) : ∀ x ∈ a :: l, l.foldl min a ≤ x := by
  induction l generalizing a with
  | nil => intro x hx; simp at hx; simp [hx]
  | cons b l ih =>
    intro x hx
    rw [List.foldl_cons]
    have h0 := ih (min a b) (min a b) (by simp)
    simp only [List.mem_cons] at hx
    rcases hx with rfl | rfl | hx
    · exact h0.trans (min_le_left _ _)
    · exact h0.trans (min_le_right _ _)
    · exact ih _ x (by simp [hx])

theorem pyMin_isLeast {l : List ℝ} (h : l ≠ []) : ∃ m, pyMin l = .ok m ∧ IsLeast {x | x ∈ l} m := by
  cases l with
  | nil => exact absurd rfl h
  | cons a l => exact ⟨_, rfl, foldl_min_mem l a, fun x hx => foldl_pyMin_le l a x hx⟩

theorem pyMin_of_isLeast {l : List ℝ} {m : ℝ} (h : IsLeast {x | x ∈ l} m) : pyMin l = .ok m := by
  obtain ⟨m', h1, h2⟩ := pyMin_isLeast (List.ne_nil_of_mem h.1)
  rw [h1, h2.unique h]

theorem pyMin_congr {l l' : List ℝ} (h : ∀ x, x ∈ l ↔ x ∈ l') (hne : l ≠ []) : pyMin l = pyMin l' := by
  obtain ⟨m, h1, h2⟩ := pyMin_isLeast hne
  rw [h1]
  have : {x | x ∈ l'} = {x | x ∈ l} := by ext x; exact (h x).symm
  exact (pyMin_of_isLeast (this ▸ h2)).symm

/-! ### Quarter turns as integer matrices -/

/-- The integer matrices as real ones. -/
def castR (M : Mat3 ℤ) : Mat3 ℝ :=
  ⟨M.m00, M.m01, M.m02, M.m10, M.m11, M.m12, M.m20, M.m21, M.m22⟩

theorem castR_mul (A B : Mat3 ℤ) : castR (A.mul B) = (castR A).mul (castR B) := by
  ext <;> simp [castR, Mat3.mul]

theorem castR_one : castR Mat3.one = Mat3.one := by ext <;> simp [castR, Mat3.one]

theorem castR_transpose (A : Mat3 ℤ) : castR A.transpose = (castR A).transpose := rfl

/-- The quarter turn about an axis. -/
def quarter : Fin 3 → Mat3 ℤ
  | 0 => ⟨1, 0, 0, 0, 0, -1, 0, 1, 0⟩
  | 1 => ⟨0, 0, 1, 0, 1, 0, -1, 0, 0⟩
  | 2 => ⟨0, -1, 0, 1, 0, 0, 0, 0, 1⟩

theorem axisRot_quarter (axis : Fin 3) : axisRot axis (Real.pi / 2) = castR (quarter axis) := by
  fin_cases axis <;> ext <;> simp [axisRot, Rot3.Rx, Rot3.Ry, Rot3.Rz, Rot3.fromScalars, castR, quarter]

theorem axisRot_quarter' (axis : Fin 3) : axisRot axis (0.5 * Real.pi) = castR (quarter axis) := by
  rw [← axisRot_quarter]; congr 1; norm_num; ring

theorem axisRot_half (axis : Fin 3) : axisRot axis Real.pi = castR ((quarter axis).mul (quarter axis)) := by
  fin_cases axis <;> ext <;>
    norm_num [axisRot, Rot3.Rx, Rot3.Ry, Rot3.Rz, Rot3.fromScalars, castR, quarter, Mat3.mul]

theorem axisRot_three (axis : Fin 3) :
    axisRot axis (1.5 * Real.pi) = castR (((quarter axis).mul (quarter axis)).mul (quarter axis)) := by
  have c : Real.cos (1.5 * Real.pi) = 0 := by
    rw [show (1.5 : ℝ) * Real.pi = Real.pi / 2 + Real.pi by norm_num; ring, Real.cos_add_pi, Real.cos_pi_div_two,
      neg_zero]
  have s : Real.sin (1.5 * Real.pi) = -1 := by
    rw [show (1.5 : ℝ) * Real.pi = Real.pi / 2 + Real.pi by norm_num; ring, Real.sin_add_pi, Real.sin_pi_div_two]
  generalize 1.5 * Real.pi = a at c s ⊢
  fin_cases axis <;> ext <;>
    norm_num [axisRot, Rot3.Rx, Rot3.Ry, Rot3.Rz, Rot3.fromScalars, castR, quarter, Mat3.mul, c, s]

/-- The loop on integer matrices (no cylindrical or spherical axis). -/
def symList : List (Fin 3 × SymmetryType) → List (Mat3 ℤ) → List (Mat3 ℤ)
  | [], L => L
  | (axis, sym) :: rest, L =>
    match sym with
    | .twoFold => symList rest (L ++ L.map (fun r => r.mul ((quarter axis).mul (quarter axis))))
    | .fourFold => symList rest (L ++ (L.map (fun r => r.mul (quarter axis)) ++
        L.map (fun r => r.mul ((quarter axis).mul (quarter axis))) ++
        L.map (fun r => r.mul (((quarter axis).mul (quarter axis)).mul (quarter axis)))))
    | _ => symList rest L

theorem rotsToCheck_symList (det gt : Mat3 ℝ) : ∀ (l : List (Fin 3 × SymmetryType)) (L : List (Mat3 ℤ)),
    (∀ p ∈ l, p.2 ≠ .cylindrical ∧ p.2 ≠ .spherical) →
    rotsToCheck det l (L.map (fun g => gt.mul (castR g))) =
      some ((symList l L).map (fun g => gt.mul (castR g))) := by
  intro l
  induction l with
  | nil => intro L _; rfl
  | cons p l ih =>
    intro L h
    obtain ⟨axis, sym⟩ := p
    have hl := fun q hq => h q (List.mem_cons_of_mem _ hq)
    cases sym with
    | none => exact ih L hl
    | cylindrical => exact absurd rfl (h _ List.mem_cons_self).1
    | spherical => exact absurd rfl (h _ List.mem_cons_self).2
    | twoFold =>
      rw [rotsToCheck, symList, ← ih _ hl]
      congr 1
      simp [symmetricRot, Rot3.compose, axisRot_half, castR_mul, mul_assoc3, Function.comp_def]
    | fourFold =>
      rw [rotsToCheck, symList, ← ih _ hl]
      congr 1
      simp [symmetricRot, Rot3.compose, axisRot_half, axisRot_three, axisRot_quarter', castR_mul, mul_assoc3,
        Function.comp_def]

theorem rotsToCheck_spherical (det : Mat3 ℝ) : ∀ (l : List (Fin 3 × SymmetryType)) (rots : List (Mat3 ℝ)),
    (∃ p ∈ l, p.2 = .spherical) → rotsToCheck det l rots = none := by
  intro l
  induction l with
  | nil => simp
  | cons p l ih =>
    rintro rots ⟨q, hq, h⟩
    obtain ⟨axis, sym⟩ := p
    rcases List.mem_cons.1 hq with hq' | hq'
    · subst hq'; simp only at h; subst h; rfl
    · clear hq
      cases sym <;> first | rfl | exact ih _ ⟨q, hq', h⟩

/-- Whatever the symmetry, the first rotation checked is the ground truth with the cylindrical axes adjusted. -/
noncomputable def headRot (det : Mat3 ℝ) : List (Fin 3 × SymmetryType) → Mat3 ℝ → Mat3 ℝ
  | [], r => r
  | (axis, .cylindrical) :: l, r => headRot det l (cylindricalSymmetricRot det r axis)
  | (_, .none) :: l, r => headRot det l r
  | (_, .twoFold) :: l, r => headRot det l r
  | (_, .fourFold) :: l, r => headRot det l r
  | (_, .spherical) :: l, r => headRot det l r

theorem rotsToCheck_head (det : Mat3 ℝ) : ∀ (l : List (Fin 3 × SymmetryType)) (r : Mat3 ℝ) (rots : List (Mat3 ℝ)),
    (∀ p ∈ l, p.2 ≠ .spherical) →
    ∃ rest, rotsToCheck det l (r :: rots) = some (headRot det l r :: rest) := by
  intro l
  induction l with
  | nil => intro r rots _; exact ⟨rots, rfl⟩
  | cons p l ih =>
    intro r rots h
    obtain ⟨axis, sym⟩ := p
    have hl := fun q hq => h q (List.mem_cons_of_mem _ hq)
    cases sym with
    | none => exact ih _ _ hl
    | cylindrical => exact ih _ _ hl
    | spherical => exact absurd rfl (h _ List.mem_cons_self)
    | twoFold => exact ih _ _ hl
    | fourFold => exact ih _ _ hl

theorem rotationError1_cases (det gt : Mat3 ℝ) (sym : ObjectSymmetry) :
    (Spherical sym ∧ rotationError1 det gt sym = .ok 0) ∨
    (¬ Spherical sym ∧ ∃ rest e, rotationError1 det gt sym = .ok e ∧
      rotsToCheck det [(0, sym.x), (1, sym.y), (2, sym.z)] [gt] =
        some (headRot det [(0, sym.x), (1, sym.y), (2, sym.z)] gt :: rest) ∧
      IsLeast {x | x ∈ (headRot det [(0, sym.x), (1, sym.y), (2, sym.z)] gt :: rest).map
        (fun r => geodesic det r)} e) := by
  by_cases hs : Spherical sym
  · refine .inl ⟨hs, ?_⟩
    obtain ⟨axis, ha⟩ := hs
    rw [rotationError1, rotsToCheck_spherical]
    fin_cases axis
    · exact ⟨(0, sym.x), by simp, ha⟩
    · exact ⟨(1, sym.y), by simp, ha⟩
    · exact ⟨(2, sym.z), by simp, ha⟩
  · refine .inr ⟨hs, ?_⟩
    have hp : ∀ p ∈ [((0 : Fin 3), sym.x), (1, sym.y), (2, sym.z)], p.2 ≠ SymmetryType.spherical := by
      intro p hp h
      simp only [List.mem_cons, List.not_mem_nil, or_false] at hp
      rcases hp with rfl | rfl | rfl
      · exact hs ⟨0, h⟩
      · exact hs ⟨1, h⟩
      · exact hs ⟨2, h⟩
    obtain ⟨rest, hr⟩ := rotsToCheck_head det _ gt [] hp
    obtain ⟨e, he1, he2⟩ := pyMin_isLeast (l := (headRot det [(0, sym.x), (1, sym.y), (2, sym.z)] gt :: rest).map
      (fun r => geodesic det r)) (by simp)
    exact ⟨rest, e, by rw [rotationError1, hr]; exact he1, hr, he2⟩

/-- If the first rotation checked is the one of the detection, the error is 0. -/
theorem rotationError1_zero {det gt : Mat3 ℝ} (hd : IsRotation det) (sym : ObjectSymmetry)
    (h : headRot det [(0, sym.x), (1, sym.y), (2, sym.z)] gt = det) : rotationError1 det gt sym = .ok 0 := by
  rcases rotationError1_cases det gt sym with ⟨-, h0⟩ | ⟨-, rest, e, he, -, hl⟩
  · exact h0
  · rw [he]
    congr 1
    apply le_antisymm
    · have : geodesic det det = 0 := (geodesic_eq_zero hd hd).2 rfl
      rw [← this]
      exact hl.2 (by simp [h])
    · obtain ⟨r, -, hr⟩ := List.mem_map.1 hl.1
      rw [← hr]; exact geodesic_nonneg _ _

end Sumo
