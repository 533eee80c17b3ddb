import Verif.Lemmas.RotationError
import Verif.Props.Symmetry

/-!
# Rotation error (C26, C27, C28)
-/

namespace Sumo
open RotSpec

/-- **C26** the angle used is a distance on rotations with values in `[0, π]`, does not depend on the frame, and
is the amount of the rotation between its arguments. -/
theorem C26_geodesic_distance {A B C : Mat3 ℝ} (hA : IsRotation A) (hB : IsRotation B) (hC : IsRotation C) :
    0 ≤ geodesic A B ∧ geodesic A B ≤ Real.pi ∧ geodesic A B = geodesic B A ∧ (geodesic A B = 0 ↔ A = B) ∧
    geodesic A C ≤ geodesic A B + geodesic B C ∧ geodesic (C.mul A) (C.mul B) = geodesic A B ∧
    (∀ (d : Vec3 ℝ) (a : ℝ), d.normSq = 1 → |a| ≤ Real.pi →
      geodesic A (Rot3.compose A (Rot3.axisAngle d a)) = |a|) :=
  ⟨geodesic_nonneg A B, geodesic_le_pi A B, geodesic_comm A B, geodesic_eq_zero hA hB, geodesic_triangle hA hB hC,
    geodesic_mul_left hC.1 A B, fun _ _ hd ha => geodesic_axisAngle hA hd ha⟩

/-- **C26** `rotation_error_1` always returns a number in `[0, π]`. -/
theorem C26_range (det gt : Mat3 ℝ) (sym : ObjectSymmetry) :
    ∃ e, rotationError1 det gt sym = .ok e ∧ 0 ≤ e ∧ e ≤ Real.pi := by
  rcases rotationError1_cases det gt sym with ⟨-, h0⟩ | ⟨-, rest, e, he, -, hl⟩
  · exact ⟨0, h0, le_rfl, Real.pi_pos.le⟩
  · obtain ⟨r, -, hr⟩ := List.mem_map.1 hl.1
    exact ⟨e, he, hr ▸ geodesic_nonneg _ _, hr ▸ geodesic_le_pi _ _⟩

/-- **C26** a spherical ground truth element has rotation error 0. -/
theorem C26_spherical (det gt : Mat3 ℝ) (sym : ObjectSymmetry) (h : Spherical sym) :
    rotationError1 det gt sym = .ok 0 := by
  rcases rotationError1_cases det gt sym with ⟨-, h0⟩ | ⟨hn, -⟩
  · exact h0
  · exact absurd h hn

theorem headRot_noCylinder (det gt : Mat3 ℝ) (sym : ObjectSymmetry) (h : NoCylinder sym) :
    headRot det [(0, sym.x), (1, sym.y), (2, sym.z)] gt = gt := by
  have h0 : sym.x ≠ .cylindrical := h 0
  have h1 : sym.y ≠ .cylindrical := h 1
  have h2 : sym.z ≠ .cylindrical := h 2
  obtain ⟨x, y, z⟩ := sym
  cases x <;> cases y <;> cases z <;> first | rfl | (simp at h0 h1 h2)

/-- **C26** the ground truth rotation has error 0 when no axis is cylindrical. -/
theorem C26_self {R : Mat3 ℝ} (hR : IsRotation R) (sym : ObjectSymmetry) (h : NoCylinder sym) :
    rotationError1 R R sym = .ok 0 :=
  rotationError1_zero hR sym (headRot_noCylinder R R sym h)

/-- **C26** without symmetry the error is the angle between the two rotations, and 0 only for equal rotations. -/
theorem C26_no_symmetry {det gt : Mat3 ℝ} (hd : IsRotation det) (hg : IsRotation gt) :
    rotationError1 det gt ⟨.none, .none, .none⟩ = .ok (geodesic det gt) ∧
    (rotationError1 det gt ⟨.none, .none, .none⟩ = .ok 0 ↔ det = gt) := by
  have e : rotationError1 det gt ⟨.none, .none, .none⟩ = .ok (geodesic det gt) := rfl
  refine ⟨e, ?_⟩
  rw [e, ← geodesic_eq_zero hd hg]
  simp

/-- The hypotheses of C26 are met. -/
example : IsRotation (Rot3.Ry 1) ∧ NoCylinder ⟨.twoFold, .fourFold, .twoFold⟩ ∧
    Spherical ⟨.spherical, .spherical, .spherical⟩ := by
  refine ⟨isRotation_Ry 1, ?_, ⟨0, rfl⟩⟩
  intro axis; fin_cases axis <;> simp [symAbout]

/-! ### C27 -/

/-- The symmetric equivalents that the loop lists, as integer matrices. -/
def symMats (sym : ObjectSymmetry) : List (Mat3 ℤ) := symList [(0, sym.x), (1, sym.y), (2, sym.z)] [Mat3.one]

/-- The generators as integer matrices. -/
def gens (sym : ObjectSymmetry) : List (Mat3 ℤ) :=
  [((0 : Fin 3), sym.x), (1, sym.y), (2, sym.z)].filterMap (fun p => match p.2 with
    | .twoFold => some ((quarter p.1).mul (quarter p.1))
    | .fourFold => some (quarter p.1)
    | _ => none)

/-- The admitted symmetries without cylinder or sphere. -/
def foldSyms : List ObjectSymmetry :=
  (validSymmetries.map (fun t => ObjectSymmetry.mk t.1 t.2.1 t.2.2)).filter (fun s =>
    [s.x, s.y, s.z].all (fun t => t ≠ .cylindrical ∧ t ≠ .spherical))

/-- For every admitted symmetry the listed matrices are closed under the generators on both sides. -/
theorem symMats_closed : ∀ s ∈ foldSyms, ∀ h ∈ gens s, ∀ g ∈ symMats s,
    g.mul h ∈ symMats s ∧ g.mul h.transpose ∈ symMats s ∧ h.mul g ∈ symMats s ∧ h.transpose.mul g ∈ symMats s ∧
    h.mul h.transpose = Mat3.one ∧ h.transpose.mul h = Mat3.one := by
  decide +kernel

theorem admitted_iff (sym : ObjectSymmetry) :
    Admitted sym ↔ (sym.x, sym.y, sym.z) ∈ validSymmetries := by
  obtain ⟨x, y, z⟩ := sym
  unfold Admitted
  cases x <;> cases y <;> cases z <;> decide +kernel

theorem mem_foldSyms {sym : ObjectSymmetry} (ha : Admitted sym) (hc : NoCylinder sym) (hs : ¬ Spherical sym) :
    sym ∈ foldSyms := by
  have h0 : sym.x ≠ .cylindrical := hc 0
  have h1 : sym.y ≠ .cylindrical := hc 1
  have h2 : sym.z ≠ .cylindrical := hc 2
  have s0 : sym.x ≠ .spherical := fun h => hs ⟨0, h⟩
  have s1 : sym.y ≠ .spherical := fun h => hs ⟨1, h⟩
  have s2 : sym.z ≠ .spherical := fun h => hs ⟨2, h⟩
  unfold foldSyms
  rw [List.mem_filter]
  refine ⟨List.mem_map.2 ⟨_, (admitted_iff sym).1 ha, rfl⟩, ?_⟩
  simp [h0, h1, h2, s0, s1, s2]

theorem unitTurn_gen {sym : ObjectSymmetry} {axis : Fin 3} {a : ℝ} (h : unitTurn (symAbout sym axis) = some a) :
    ∃ g ∈ gens sym, axisRot axis a = castR g := by
  obtain ⟨x, y, z⟩ := sym
  fin_cases axis
  all_goals
    simp only [symAbout] at h
  · cases x <;> simp only [unitTurn, Option.some.injEq, reduceCtorEq] at h <;> subst h
    · exact ⟨(quarter 0).mul (quarter 0), by simp [gens], axisRot_half 0⟩
    · exact ⟨quarter 0, by simp [gens], axisRot_quarter 0⟩
  · cases y <;> simp only [unitTurn, Option.some.injEq, reduceCtorEq] at h <;> subst h
    · exact ⟨(quarter 1).mul (quarter 1), by simp [gens], axisRot_half 1⟩
    · exact ⟨quarter 1, by simp [gens], axisRot_quarter 1⟩
  · cases z <;> simp only [unitTurn, Option.some.injEq, reduceCtorEq] at h <;> subst h
    · exact ⟨(quarter 2).mul (quarter 2), by simp [gens], axisRot_half 2⟩
    · exact ⟨quarter 2, by simp [gens], axisRot_quarter 2⟩

theorem symList_equivalent {sym : ObjectSymmetry} : ∀ (l : List (Fin 3 × SymmetryType)) (L : List (Mat3 ℤ)),
    (∀ p ∈ l, p.2 = symAbout sym p.1) → (∀ g ∈ L, Equivalent sym (castR g)) →
    ∀ g ∈ symList l L, Equivalent sym (castR g) := by
  intro l
  induction l with
  | nil => intro L _ h g hg; exact h g hg
  | cons p l ih =>
    intro L hl hL g hg
    have hl' := fun q hq => hl q (List.mem_cons_of_mem _ hq)
    have hp := hl p List.mem_cons_self
    obtain ⟨axis, t⟩ := p
    simp only at hp
    cases t with
    | none => exact ih L hl' hL g hg
    | cylindrical => exact ih L hl' hL g hg
    | spherical => exact ih L hl' hL g hg
    | twoFold =>
      have ht : ∀ r, Equivalent sym (castR r) → Equivalent sym (castR (r.mul ((quarter axis).mul (quarter axis)))) := by
        intro r hr
        rw [castR_mul, ← axisRot_half]
        exact hr.turn (by rw [← hp]; rfl)
      refine ih _ hl' ?_ g hg
      intro g hg
      simp only [List.mem_append, List.mem_map] at hg
      rcases hg with hg | ⟨r, hr, rfl⟩
      · exact hL g hg
      · exact ht r (hL r hr)
    | fourFold =>
      have ht : ∀ r, Equivalent sym (castR r) → Equivalent sym (castR (r.mul (quarter axis))) := by
        intro r hr
        rw [castR_mul, ← axisRot_quarter]
        exact hr.turn (by rw [← hp]; rfl)
      refine ih _ hl' ?_ g hg
      intro g hg
      simp only [List.mem_append, List.mem_map] at hg
      rcases hg with hg | (⟨r, hr, rfl⟩ | ⟨r, hr, rfl⟩) | ⟨r, hr, rfl⟩
      · exact hL g hg
      · exact ht r (hL r hr)
      · rw [← mul_assoc3]
        exact ht _ (ht r (hL r hr))
      · rw [← mul_assoc3, ← mul_assoc3]
        exact ht _ (ht _ (ht r (hL r hr)))

theorem one_mem_symMats : ∀ s ∈ foldSyms, (Mat3.one : Mat3 ℤ) ∈ symMats s := by decide +kernel

/-- The loop lists exactly the rotations generated by the declared symmetries. -/
theorem equivalent_iff {sym : ObjectSymmetry} (ha : Admitted sym) (hc : NoCylinder sym) (hs : ¬ Spherical sym)
    (h : Rot3 ℝ) : Equivalent sym h ↔ ∃ g ∈ symMats sym, h = castR g := by
  have hm := mem_foldSyms ha hc hs
  constructor
  · intro he
    induction he with
    | one => exact ⟨_, one_mem_symMats _ hm, castR_one.symm⟩
    | turn _ ht ih =>
      obtain ⟨g, hg, rfl⟩ := ih
      obtain ⟨k, hk, e⟩ := unitTurn_gen ht
      exact ⟨_, (symMats_closed sym hm k hk g hg).1, by rw [e, castR_mul]; rfl⟩
  · rintro ⟨g, hg, rfl⟩
    refine symList_equivalent _ _ ?_ ?_ g hg
    · intro p hp
      simp only [List.mem_cons, List.not_mem_nil, or_false] at hp
      rcases hp with rfl | rfl | rfl <;> rfl
    · intro g hg
      simp only [List.mem_cons, List.not_mem_nil, or_false] at hg
      subst hg
      rw [castR_one]; exact .one

theorem rotationError1_fold {sym : ObjectSymmetry} (hc : NoCylinder sym) (hs : ¬ Spherical sym)
    (det gt : Mat3 ℝ) : rotationError1 det gt sym =
      pyMin ((symMats sym).map (fun g => geodesic det (gt.mul (castR g)))) := by
  have hp : ∀ p ∈ [((0 : Fin 3), sym.x), (1, sym.y), (2, sym.z)],
      p.2 ≠ SymmetryType.cylindrical ∧ p.2 ≠ SymmetryType.spherical := by
    intro p hp
    simp only [List.mem_cons, List.not_mem_nil, or_false] at hp
    rcases hp with rfl | rfl | rfl
    · exact ⟨hc 0, fun h => hs ⟨0, h⟩⟩
    · exact ⟨hc 1, fun h => hs ⟨1, h⟩⟩
    · exact ⟨hc 2, fun h => hs ⟨2, h⟩⟩
  have h1 := rotsToCheck_symList det gt _ [Mat3.one] hp
  rw [List.map_cons, List.map_nil, castR_one, mul_one3] at h1
  rw [rotationError1, h1]
  simp [symMats, Function.comp_def]

/-- **C27** for a non-cylindrical, non-spherical symmetry the error is the smallest angle between the detection
and a rotation equivalent to the ground truth under the declared symmetries. -/
theorem C27_least_equivalent {sym : ObjectSymmetry} (ha : Admitted sym) (hc : NoCylinder sym) (hs : ¬ Spherical sym)
    (det gt : Mat3 ℝ) : ∃ e, rotationError1 det gt sym = .ok e ∧
      IsLeast {x | ∃ h, Equivalent sym h ∧ x = geodesic det (Rot3.compose gt h)} e := by
  rw [rotationError1_fold hc hs]
  have hm := mem_foldSyms ha hc hs
  obtain ⟨e, h1, h2⟩ := pyMin_isLeast (l := (symMats sym).map (fun g => geodesic det (gt.mul (castR g)))) (by
    simpa using List.ne_nil_of_mem (one_mem_symMats sym hm))
  refine ⟨e, h1, ?_⟩
  convert h2 using 1
  ext x
  simp only [Set.mem_ofPred_eq, List.mem_map]
  constructor
  · rintro ⟨h, he, rfl⟩
    obtain ⟨g, hg, rfl⟩ := (equivalent_iff ha hc hs h).1 he
    exact ⟨g, hg, rfl⟩
  · rintro ⟨g, hg, rfl⟩
    exact ⟨castR g, (equivalent_iff ha hc hs _).2 ⟨g, hg, rfl⟩, rfl⟩

/-- **C27** turning the detection, or the ground truth, by any rotation generated by the declared two- and
four-fold symmetries does not change the rotation error. -/
theorem C27_invariant {sym : ObjectSymmetry} (ha : Admitted sym) (hc : NoCylinder sym) (det gt h : Mat3 ℝ)
    (he : Equivalent sym h) :
    rotationError1 (Rot3.compose det h) gt sym = rotationError1 det gt sym ∧
    rotationError1 det (Rot3.compose gt h) sym = rotationError1 det gt sym := by
  by_cases hs : Spherical sym
  · simp only [C26_spherical _ _ _ hs, and_self]
  have hm := mem_foldSyms ha hc hs
  have hne : ∀ f : Mat3 ℤ → ℝ, (symMats sym).map f ≠ [] := by
    intro f
    simpa using List.ne_nil_of_mem (one_mem_symMats sym hm)
  induction he generalizing det gt with
  | one => exact ⟨by rw [Rot3.compose, Rot3.identity, mul_one3], by rw [Rot3.compose, Rot3.identity, mul_one3]⟩
  | @turn h axis a _ ht ih =>
    obtain ⟨k, hk, e⟩ := unitTurn_gen ht
    have step1 : ∀ det gt : Mat3 ℝ, rotationError1 (det.mul (castR k)) gt sym = rotationError1 det gt sym := by
      intro det gt
      rw [rotationError1_fold hc hs, rotationError1_fold hc hs]
      refine pyMin_congr (fun x => ?_) (hne _)
      simp only [List.mem_map, geodesic_mul_right, mul_assoc3, ← castR_transpose, ← castR_mul]
      constructor
      · rintro ⟨g, hg, rfl⟩
        exact ⟨_, (symMats_closed sym hm k hk g hg).2.1, rfl⟩
      · rintro ⟨g, hg, rfl⟩
        refine ⟨_, (symMats_closed sym hm k hk g hg).1, ?_⟩
        rw [mul_assoc3, (symMats_closed sym hm k hk g hg).2.2.2.2.1, mul_one3]
    have step2 : ∀ det gt : Mat3 ℝ, rotationError1 det (gt.mul (castR k)) sym = rotationError1 det gt sym := by
      intro det gt
      rw [rotationError1_fold hc hs, rotationError1_fold hc hs]
      refine pyMin_congr (fun x => ?_) (hne _)
      simp only [List.mem_map, mul_assoc3, ← castR_mul]
      constructor
      · rintro ⟨g, hg, rfl⟩
        exact ⟨_, (symMats_closed sym hm k hk g hg).2.2.1, rfl⟩
      · rintro ⟨g, hg, rfl⟩
        refine ⟨_, (symMats_closed sym hm k hk g hg).2.2.2.1, ?_⟩
        rw [← mul_assoc3, (symMats_closed sym hm k hk g hg).2.2.2.2.1, one_mul3]
    constructor
    · rw [e, Rot3.compose, Rot3.compose, ← mul_assoc3, step1]
      exact (ih det gt).1
    · rw [e, Rot3.compose, Rot3.compose, ← mul_assoc3, step2]
      exact (ih det gt).2

/-- The hypotheses of C27 are met by a cube turned by a quarter about `y`. -/
example : Admitted ⟨.fourFold, .fourFold, .fourFold⟩ ∧ NoCylinder ⟨.fourFold, .fourFold, .fourFold⟩ ∧
    ¬ Spherical ⟨.fourFold, .fourFold, .fourFold⟩ ∧
    Equivalent ⟨.fourFold, .fourFold, .fourFold⟩ (Rot3.compose Rot3.identity (axisRot 1 (Real.pi / 2))) := by
  refine ⟨by unfold Admitted; decide +kernel, ?_, ?_, .turn .one rfl⟩
  · intro axis; fin_cases axis <;> simp [symAbout]
  · rintro ⟨axis, h⟩; fin_cases axis <;> simp [symAbout] at h

/-! ### C28 -/

/-- An admitted symmetry has at most one cylindrical axis and then no spherical one, so the first rotation
checked is the ground truth adjusted once. -/
theorem headRot_cylinder {sym : ObjectSymmetry} (ha : Admitted sym) (axis : Fin 3)
    (h : symAbout sym axis = .cylindrical) (det gt : Mat3 ℝ) :
    headRot det [(0, sym.x), (1, sym.y), (2, sym.z)] gt = cylindricalSymmetricRot det gt axis := by
  rw [admitted_iff] at ha
  obtain ⟨x, y, z⟩ := sym
  fin_cases axis <;> simp only [symAbout] at h <;> subst h
  · cases y <;> cases z <;> first | rfl | (exfalso; revert ha; decide +kernel)
  · cases x <;> cases z <;> first | rfl | (exfalso; revert ha; decide +kernel)
  · cases x <;> cases y <;> first | rfl | (exfalso; revert ha; decide +kernel)

theorem setAxis_of_agree {d g : Euler} (axis : Fin 3) (h : ∀ b, b ≠ axis → g.getAxis b = d.getAxis b) :
    g.setAxis axis (d.getAxis axis) = d := by
  fin_cases axis
  · have h1 : g.y = d.y := h 1 (by decide)
    have h2 : g.z = d.z := h 2 (by decide)
    ext <;> simp [Euler.setAxis, Euler.getAxis, h1, h2]
  · have h1 : g.x = d.x := h 0 (by decide)
    have h2 : g.z = d.z := h 2 (by decide)
    ext <;> simp [Euler.setAxis, Euler.getAxis, h1, h2]
  · have h1 : g.x = d.x := h 0 (by decide)
    have h2 : g.y = d.y := h 1 (by decide)
    ext <;> simp [Euler.setAxis, Euler.getAxis, h1, h2]

/-- **C28** (partial) the error is 0 if the two rotations have the same Euler angles about the two other axes and
the detection is not in gimbal lock.  Missing: for the `y` and `z` axes a rotation about the axis of the object in
general changes the other two Euler angles; the claim is then false, see `C28_false_y`, `C28_false_z`; and at gimbal
lock, `C28_false_x`. -/
theorem C28_cylinder_partial {sym : ObjectSymmetry} (ha : Admitted sym) (axis : Fin 3)
    (h : symAbout sym axis = .cylindrical) {det gt : Mat3 ℝ} (hd : IsRotation det) (hg : det.m20 ^ 2 ≠ 1)
    (he : ∀ b, b ≠ axis → (matrixToEuler gt).getAxis b = (matrixToEuler det).getAxis b) :
    rotationError1 det gt sym = .ok 0 := by
  apply rotationError1_zero hd
  rw [headRot_cylinder ha axis h, cylindricalSymmetricRot]
  rw [setAxis_of_agree axis he, eulerToMatrix_matrixToEuler hd hg]

/-- **C28** (partial) for the `x` axis the claim holds for every ground truth rotation not in gimbal lock and every
angle. -/
theorem C28_x_axis_partial {sym : ObjectSymmetry} (ha : Admitted sym) (h : sym.x = .cylindrical) {gt : Mat3 ℝ}
    (hR : IsRotation gt) (hg : gt.m20 ^ 2 ≠ 1) (a : ℝ) :
    rotationError1 (Rot3.compose gt (Rot3.Rx a)) gt sym = .ok 0 := by
  have hd : IsRotation (Rot3.compose gt (Rot3.Rx a)) := hR.mul (isRotation_Rx a)
  have e0 : (Rot3.compose gt (Rot3.Rx a)).m00 = gt.m00 := by
    simp [Rot3.compose, Mat3.mul, Rot3.Rx, Rot3.fromScalars]
  have e1 : (Rot3.compose gt (Rot3.Rx a)).m10 = gt.m10 := by
    simp [Rot3.compose, Mat3.mul, Rot3.Rx, Rot3.fromScalars]
  have e2 : (Rot3.compose gt (Rot3.Rx a)).m20 = gt.m20 := by
    simp [Rot3.compose, Mat3.mul, Rot3.Rx, Rot3.fromScalars]
  refine C28_cylinder_partial ha 0 h hd (by rw [e2]; exact hg) ?_
  intro b hb
  rw [matrixToEuler_eq hR, matrixToEuler_eq hd, e0, e1, e2]
  fin_cases b
  · exact absurd rfl hb
  · rfl
  · rfl

/-- **C28** (partial) for the vertical `y` axis: upright objects, both turned by less than a quarter turn. -/
theorem C28_y_axis_partial {sym : ObjectSymmetry} (ha : Admitted sym) (h : sym.y = .cylindrical) (a b : ℝ)
    (h1 : |a| < Real.pi / 2) (h2 : |b| < Real.pi / 2) :
    rotationError1 (Rot3.Ry b) (Rot3.Ry a) sym = .ok 0 := by
  have key : ∀ a : ℝ, |a| < Real.pi / 2 → matrixToEuler (Rot3.Ry a) = ⟨0, a, 0⟩ := by
    intro a ha
    rw [matrixToEuler_eq (isRotation_Ry a)]
    have hc : 0 < Real.cos a := Real.cos_pos_of_mem_Ioo (abs_lt.1 ha)
    have e : atan2 0 (Real.cos a) = 0 := by
      have := atan2_cos_sin (t := 0) hc (by linarith [Real.pi_pos]) Real.pi_pos.le
      simpa using this
    simp only [Rot3.Ry, Rot3.fromScalars, e, neg_neg]
    rw [Real.arcsin_sin (abs_lt.1 ha).1.le (abs_lt.1 ha).2.le]
  refine C28_cylinder_partial ha 1 h (isRotation_Ry b) ?_ ?_
  · have hc : 0 < Real.cos b := Real.cos_pos_of_mem_Ioo (abs_lt.1 h2)
    have := Real.sin_sq_add_cos_sq b
    simp only [Rot3.Ry, Rot3.fromScalars]
    nlinarith
  · intro c hc
    rw [key a h1, key b h2]
    fin_cases c
    · rfl
    · exact absurd rfl hc
    · rfl

/-- **C28** (partial) for the `z` axis: objects turned about `z` only, by any angles. -/
theorem C28_z_axis_partial {sym : ObjectSymmetry} (ha : Admitted sym) (h : sym.z = .cylindrical) (a b : ℝ) :
    rotationError1 (Rot3.Rz b) (Rot3.Rz a) sym = .ok 0 := by
  refine C28_cylinder_partial ha 2 h (isRotation_Rz b) ?_ ?_
  · simp [Rot3.Rz, Rot3.fromScalars]
  · intro c hc
    rw [matrixToEuler_eq (isRotation_Rz a), matrixToEuler_eq (isRotation_Rz b)]
    fin_cases c
    · rfl
    · rfl
    · exact absurd rfl hc

theorem atan2_neg_one : atan2 0 (-1) = Real.pi := by
  rw [atan2, show (⟨-1, 0⟩ : ℂ) = -1 by apply Complex.ext <;> simp, Complex.arg_neg_one]

theorem atan2_one : atan2 0 1 = 0 := by
  rw [atan2, show (⟨1, 0⟩ : ℂ) = 1 from rfl, Complex.arg_one]

theorem atan2_one_zero : atan2 1 0 = Real.pi / 2 := by
  rw [atan2, show (⟨0, 1⟩ : ℂ) = Complex.I from rfl, Complex.arg_I]

/-- **C28** is false for the `y` axis: a cylinder turned by half a turn about its own axis gets the largest
possible rotation error. -/
theorem C28_false_y : rotationError1 (Rot3.compose Rot3.identity (Rot3.Ry Real.pi)) Rot3.identity
    ⟨.none, .cylindrical, .none⟩ = .ok Real.pi := by
  have hd : Rot3.compose Rot3.identity (Rot3.Ry Real.pi) = ⟨-1, 0, 0, 0, 1, 0, 0, 0, -1⟩ := by
    rw [Rot3.compose, Rot3.identity, one_mul3]
    ext <;> simp [Rot3.Ry, Rot3.fromScalars]
  have hr : IsRotation (⟨-1, 0, 0, 0, 1, 0, 0, 0, -1⟩ : Mat3 ℝ) := hd ▸ isRotation_one.mul (isRotation_Ry _)
  have hc : cylindricalSymmetricRot (⟨-1, 0, 0, 0, 1, 0, 0, 0, -1⟩ : Mat3 ℝ) Rot3.identity 1 = Mat3.one := by
    unfold cylindricalSymmetricRot
    rw [Rot3.identity, matrixToEuler_eq hr, matrixToEuler_eq isRotation_one, eulerToMatrix_entries]
    ext <;> simp [Euler.setAxis, Euler.getAxis, Mat3.one, atan2_one]
  rw [hd]
  have : rotationError1 (⟨-1, 0, 0, 0, 1, 0, 0, 0, -1⟩ : Mat3 ℝ) Rot3.identity ⟨.none, .cylindrical, .none⟩ =
    .ok (geodesic ⟨-1, 0, 0, 0, 1, 0, 0, 0, -1⟩
      (cylindricalSymmetricRot ⟨-1, 0, 0, 0, 1, 0, 0, 0, -1⟩ Rot3.identity 1)) := rfl
  rw [this, hc, geodesic]
  norm_num [Mat3.trace, Mat3.mul, Mat3.transpose, Mat3.one]

/-- **C28** is false for the `z` axis. -/
theorem C28_false_z : rotationError1 (Rot3.compose (Rot3.Rx (Real.pi / 2)) (Rot3.Rz Real.pi)) (Rot3.Rx (Real.pi / 2))
    ⟨.none, .none, .cylindrical⟩ = .ok Real.pi := by
  have hg : Rot3.Rx (Real.pi / 2) = ⟨1, 0, 0, 0, 0, -1, 0, 1, 0⟩ := by
    ext <;> simp [Rot3.Rx, Rot3.fromScalars]
  have hd : Rot3.compose (Rot3.Rx (Real.pi / 2)) (Rot3.Rz Real.pi) = ⟨-1, 0, 0, 0, 0, -1, 0, -1, 0⟩ := by
    rw [hg]
    ext <;> simp [Rot3.Rz, Rot3.fromScalars, Rot3.compose, Mat3.mul]
  have hr : IsRotation (⟨-1, 0, 0, 0, 0, -1, 0, -1, 0⟩ : Mat3 ℝ) := hd ▸ (isRotation_Rx _).mul (isRotation_Rz _)
  have hr' : IsRotation (⟨1, 0, 0, 0, 0, -1, 0, 1, 0⟩ : Mat3 ℝ) := hg ▸ isRotation_Rx _
  have hc : cylindricalSymmetricRot (⟨-1, 0, 0, 0, 0, -1, 0, -1, 0⟩ : Mat3 ℝ) ⟨1, 0, 0, 0, 0, -1, 0, 1, 0⟩ 2 =
      ⟨-1, 0, 0, 0, 0, 1, 0, 1, 0⟩ := by
    unfold cylindricalSymmetricRot
    rw [matrixToEuler_eq hr, matrixToEuler_eq hr', eulerToMatrix_entries]
    ext <;> simp [Euler.setAxis, Euler.getAxis, atan2_one_zero, atan2_neg_one]
  rw [hd, hg]
  have : rotationError1 (⟨-1, 0, 0, 0, 0, -1, 0, -1, 0⟩ : Mat3 ℝ) ⟨1, 0, 0, 0, 0, -1, 0, 1, 0⟩
      ⟨.none, .none, .cylindrical⟩ =
    .ok (geodesic ⟨-1, 0, 0, 0, 0, -1, 0, -1, 0⟩
      (cylindricalSymmetricRot ⟨-1, 0, 0, 0, 0, -1, 0, -1, 0⟩ ⟨1, 0, 0, 0, 0, -1, 0, 1, 0⟩ 2)) := rfl
  rw [this, hc, geodesic]
  norm_num [Mat3.trace, Mat3.mul, Mat3.transpose]

/-- **C28** is false for the `x` axis at gimbal lock, even for a detection with exactly the ground truth
rotation. -/
theorem C28_false_x : ∃ gt : Mat3 ℝ, IsRotation gt ∧
    rotationError1 gt gt ⟨.cylindrical, .none, .none⟩ = .ok (Real.pi / 2) := by
  have hM : IsRotation (⟨0, 1, 0, 0, 0, -1, -1, 0, 0⟩ : Mat3 ℝ) := by
    rw [isRotation_iff]
    constructor
    · ext <;> norm_num [Mat3.mul, Mat3.transpose, Mat3.one]
    · norm_num [Mat3.det]
  refine ⟨_, hM, ?_⟩
  have : rotationError1 (⟨0, 1, 0, 0, 0, -1, -1, 0, 0⟩ : Mat3 ℝ) ⟨0, 1, 0, 0, 0, -1, -1, 0, 0⟩
      ⟨.cylindrical, .none, .none⟩ =
    .ok (geodesic ⟨0, 1, 0, 0, 0, -1, -1, 0, 0⟩
      (cylindricalSymmetricRot ⟨0, 1, 0, 0, 0, -1, -1, 0, 0⟩ ⟨0, 1, 0, 0, 0, -1, -1, 0, 0⟩ 0)) := rfl
  rw [this]
  have hc : cylindricalSymmetricRot (⟨0, 1, 0, 0, 0, -1, -1, 0, 0⟩ : Mat3 ℝ) ⟨0, 1, 0, 0, 0, -1, -1, 0, 0⟩ 0 =
      ⟨0, 0, 1, 0, 1, 0, -1, 0, 0⟩ := by
    unfold cylindricalSymmetricRot
    rw [matrixToEuler_eq hM, eulerToMatrix_entries]
    ext <;> simp [Euler.setAxis, Euler.getAxis, atan2_zero]
  rw [hc, geodesic]
  norm_num [Mat3.trace, Mat3.mul, Mat3.transpose]

/-- The hypotheses of C28 are met by a cylinder. -/
example : Admitted ⟨.twoFold, .cylindrical, .twoFold⟩ ∧ |(0.1 : ℝ)| < Real.pi / 2 := by
  refine ⟨by unfold Admitted; decide +kernel, ?_⟩
  rw [abs_of_pos (by norm_num)]
  linarith [Real.two_le_pi]

end Sumo
