import Verif.Lemmas.FloatSafe
import Verif.Lemmas.Pairs
import Verif.Spec.RotationError

/-!
# Rotations and pose error in double precision (C141, C142)
-/

set_option linter.unusedSectionVars false

namespace Sumo
open AssocSpec RotSpec

/-- **C141** `matrix_to_quat` returns a quaternion of length 1 up to `12/2^53` in the square, for every matrix with a diagonal in
`[-2, 2]`, a rotation or not.  It never divides by zero or takes the root of a negative number: the quaternion would not have
length 1. -/
theorem C141_unit_quaternion (M : Mat3 ℚ) (h0 : |M.m00| ≤ 2) (h1 : |M.m11| ≤ 2) (h2 : |M.m22| ≤ 2) :
    |(Fl.matrixToQuat M).w ^ 2 + (Fl.matrixToQuat M).x ^ 2 + (Fl.matrixToQuat M).y ^ 2 + (Fl.matrixToQuat M).z ^ 2 - 1| ≤ 12 / 2 ^ 53 := by
  obtain ⟨a, b⟩ := matrixToQuat_unit M h0 h1 h2
  rw [abs_le]
  constructor <;> linarith

/-- **C141** the components are doubles. -/
theorem C141_doubles (M : Mat3 ℚ) : IsDouble (Fl.matrixToQuat M).w ∧ IsDouble (Fl.matrixToQuat M).x ∧
    IsDouble (Fl.matrixToQuat M).y ∧ IsDouble (Fl.matrixToQuat M).z :=
  ⟨double_isDouble _, double_isDouble _, double_isDouble _, double_isDouble _⟩

/-- A half turn about a diagonal: the trace is not positive and the quaternion has irrational components. -/
example : |(Fl.matrixToQuat ⟨0, 1, 0, 1, 0, 0, 0, 0, -1⟩).w ^ 2 + (Fl.matrixToQuat ⟨0, 1, 0, 1, 0, 0, 0, 0, -1⟩).x ^ 2 +
    (Fl.matrixToQuat ⟨0, 1, 0, 1, 0, 0, 0, 0, -1⟩).y ^ 2 + (Fl.matrixToQuat ⟨0, 1, 0, 1, 0, 0, 0, 0, -1⟩).z ^ 2 - 1| ≤ 12 / 2 ^ 53 :=
  C141_unit_quaternion _ (by norm_num) (by norm_num) (by norm_num)

theorem pyAsin_ok_iff (L : Fl.Libm) (x : ℚ) : (∃ v, Fl.pyAsin L x = .ok v) ↔ |x| ≤ 1 := by
  unfold Fl.pyAsin
  split_ifs with h <;> simp [h]

theorem matrixToEuler_ok_iff (L : Fl.Libm) (M : Mat3 ℚ) :
    (∃ e, Fl.matrixToEuler L M = .ok e) ↔ |Fl.asinArg (Fl.matrixToQuat M)| ≤ 1 := by
  rw [← pyAsin_ok_iff L]
  unfold Fl.matrixToEuler Fl.quatToEuler
  simp only [bind, Except.bind, pure, Except.pure]
  cases Fl.pyAsin L (Fl.asinArg (Fl.matrixToQuat M)) <;> simp

/-- **C142** `matrix_to_euler` (partial): the sine it computes is that of its quaternion up to `2^-51`, exceeds 1 by at most `2^-49`,
and it raises `ValueError` exactly when the sine exceeds 1.  Missing: that it does not exceed 1, which is false, see `C142_false`. -/
theorem C142_sine_partial (L : Fl.Libm) (M : Mat3 ℚ) (h0 : |M.m00| ≤ 2) (h1 : |M.m11| ≤ 2) (h2 : |M.m22| ≤ 2) :
    |Fl.asinArg (Fl.matrixToQuat M) - 2 * ((Fl.matrixToQuat M).w * (Fl.matrixToQuat M).y - (Fl.matrixToQuat M).x * (Fl.matrixToQuat M).z)| ≤
      1 / 2 ^ 51 ∧
    |Fl.asinArg (Fl.matrixToQuat M)| ≤ 1 + 1 / 2 ^ 49 ∧
    ((∃ e, Fl.matrixToEuler L M = .ok e) ↔ |Fl.asinArg (Fl.matrixToQuat M)| ≤ 1) ∧
    (∀ err, Fl.matrixToEuler L M = .error err → err = .valueError) := by
  refine ⟨asinArg_near _ (matrixToQuat_unit M h0 h1 h2).2, asinArg_le _ (matrixToQuat_unit M h0 h1 h2).2, matrixToEuler_ok_iff L M, fun err h => ?_⟩
  unfold Fl.matrixToEuler Fl.quatToEuler Fl.pyAsin at h
  simp only [bind, Except.bind, pure, Except.pure] at h
  split_ifs at h with hc
  cases h
  rfl

/-- `M` stores the rotation `X`: every entry is off by at most `2^-50`, eight times the error of rounding to the nearest double. -/
def Stores (M : Mat3 ℚ) (X : Mat3 ℝ) : Prop :=
  |(M.m00 : ℝ) - X.m00| ≤ 1 / 2 ^ 50 ∧ |(M.m01 : ℝ) - X.m01| ≤ 1 / 2 ^ 50 ∧ |(M.m02 : ℝ) - X.m02| ≤ 1 / 2 ^ 50 ∧
  |(M.m10 : ℝ) - X.m10| ≤ 1 / 2 ^ 50 ∧ |(M.m11 : ℝ) - X.m11| ≤ 1 / 2 ^ 50 ∧ |(M.m12 : ℝ) - X.m12| ≤ 1 / 2 ^ 50 ∧
  |(M.m20 : ℝ) - X.m20| ≤ 1 / 2 ^ 50 ∧ |(M.m21 : ℝ) - X.m21| ≤ 1 / 2 ^ 50 ∧ |(M.m22 : ℝ) - X.m22| ≤ 1 / 2 ^ 50

/-- A pitch that differs from ±90° by more than about `5·10⁻⁶` radians. -/
def NotLocked (M : Mat3 ℚ) : Prop := ∃ X : Mat3 ℝ, IsRotation X ∧ Stores M X ∧ |X.m20| ≤ 1 - 1 / 2 ^ 36

theorem NotLocked.sine {M : Mat3 ℚ} (h : NotLocked M) : |Fl.asinArg (Fl.matrixToQuat M)| ≤ 1 := by
  obtain ⟨X, hX, ⟨h00, h01, h02, h10, h11, h12, h20, h21, h22⟩, hg⟩ := h
  exact asinArg_safe M X hX h00 h01 h02 h10 h11 h12 h20 h21 h22 hg

/-- **C142** (partial) `matrix_to_euler` returns for every stored rotation away from gimbal lock.  Missing: gimbal lock, where it is
false, see `C142_false`. -/
theorem C142_euler_partial (L : Fl.Libm) {M : Mat3 ℚ} (h : NotLocked M) : ∃ e, Fl.matrixToEuler L M = .ok e :=
  (matrixToEuler_ok_iff L M).2 h.sine

theorem cylindricalSymmetricRot_ok_iff (L : Fl.Libm) (det gt : Mat3 ℚ) (axis : Fin 3) :
    (∃ r, Fl.cylindricalSymmetricRot L det gt axis = .ok r) ↔
      |Fl.asinArg (Fl.matrixToQuat det)| ≤ 1 ∧ |Fl.asinArg (Fl.matrixToQuat gt)| ≤ 1 := by
  rw [← matrixToEuler_ok_iff L, ← matrixToEuler_ok_iff L]
  unfold Fl.cylindricalSymmetricRot
  simp only [bind, Except.bind, pure, Except.pure]
  cases Fl.matrixToEuler L det <;> cases Fl.matrixToEuler L gt <;> simp

/-- Without cylinders the loop returns, and never an empty list. -/
theorem rotsToCheck_ok (L : Fl.Libm) (det : Mat3 ℚ) (l : List (Fin 3 × SymmetryType)) (h : ∀ p ∈ l, p.2 ≠ .cylindrical)
    (rots : List (Mat3 ℚ)) (hr : rots ≠ []) : ∃ o, Fl.rotsToCheck L det l rots = .ok o ∧ o ≠ some [] := by
  induction l generalizing rots with
  | nil => exact ⟨_, rfl, by simpa using hr⟩
  | cons p l ih =>
    obtain ⟨axis, sym⟩ := p
    have hp := h (axis, sym) (by simp)
    have hl := fun p hp => h p (List.mem_cons_of_mem _ hp)
    cases sym with
    | spherical => exact ⟨none, rfl, by simp⟩
    | twoFold => exact ih hl _ (by simp [hr])
    | fourFold => exact ih hl _ (by simp [hr])
    | cylindrical => exact absurd rfl hp
    | none => exact ih hl _ hr

theorem rotationError1_of_rots {L : Fl.Libm} {det gt : Mat3 ℚ} {sym : ObjectSymmetry}
    (h : ∃ o, Fl.rotsToCheck L det [(0, sym.x), (1, sym.y), (2, sym.z)] [gt] = .ok o ∧ o ≠ some []) :
    ∃ r, Fl.rotationError1 L det gt sym = .ok r := by
  obtain ⟨o, ho, hne⟩ := h
  unfold Fl.rotationError1
  rw [ho]
  simp only [bind, Except.bind]
  cases o with
  | none => exact ⟨_, rfl⟩
  | some rots =>
    cases rots with
    | nil => exact absurd rfl hne
    | cons a l => exact ⟨_, rfl⟩

/-- **C142** the rotation error of elements that are not cylindrical never raises. -/
theorem C142_no_cylinder (L : Fl.Libm) (det gt : Mat3 ℚ) (sym : ObjectSymmetry) (h : NoCylinder sym) :
    ∃ r, Fl.rotationError1 L det gt sym = .ok r := by
  apply rotationError1_of_rots
  apply rotsToCheck_ok
  · have hx := h 0
    have hy := h 1
    have hz := h 2
    simp only [symAbout] at hx hy hz
    intro p hp
    simp only [List.mem_cons, List.not_mem_nil, or_false] at hp
    rcases hp with rfl | rfl | rfl <;> assumption
  · simp

/-- **C142** the rotation error of an element that is a cylinder about one axis without other symmetries raises exactly when the
sine exceeds 1 for one of the two rotations. -/
theorem C142_cylinder_iff (L : Fl.Libm) (det gt : Mat3 ℚ) (sym : ObjectSymmetry) (axis : Fin 3)
    (h : symAbout sym axis = .cylindrical) (ho : ∀ a, a ≠ axis → symAbout sym a = .none) :
    (∃ r, Fl.rotationError1 L det gt sym = .ok r) ↔
      |Fl.asinArg (Fl.matrixToQuat det)| ≤ 1 ∧ |Fl.asinArg (Fl.matrixToQuat gt)| ≤ 1 := by
  rw [← cylindricalSymmetricRot_ok_iff L det gt axis]
  obtain ⟨sx, sy, sz⟩ := sym
  have h0 := ho 0
  have h1 := ho 1
  have h2 := ho 2
  unfold Fl.rotationError1
  fin_cases axis <;> simp [symAbout] at h h0 h1 h2 <;> subst h <;> subst_vars <;>
    simp only [Fl.rotsToCheck, List.mapM_cons, List.mapM_nil, bind, Except.bind, pure, Except.pure]
  · change _ ↔ ∃ r, Fl.cylindricalSymmetricRot L det gt 0 = .ok r
    cases Fl.cylindricalSymmetricRot L det gt 0 <;> simp [Fl.pyMin]
  · change _ ↔ ∃ r, Fl.cylindricalSymmetricRot L det gt 1 = .ok r
    cases Fl.cylindricalSymmetricRot L det gt 1 <;> simp [Fl.pyMin]
  · change _ ↔ ∃ r, Fl.cylindricalSymmetricRot L det gt 2 = .ok r
    cases Fl.cylindricalSymmetricRot L det gt 2 <;> simp [Fl.pyMin]

variable {ι σ τ : Type} [DecidableEq ι] [LinearOrder σ] [LinearOrder τ]
  {sim : Obj ι σ Fl.Payload → Obj ι σ Fl.Payload → τ} {sub gt : Elements ι σ Fl.Payload} {s : AssocSettings τ}
  {ev : Evaluator ι σ τ Fl.Payload}

theorem foldlM_collect_ok_iff {α β : Type} {f : List β → α → Except PyErr (List β)} {good : α → Prop} (l : List α)
    (h : ∀ x ∈ l, ∀ acc, (∃ b, f acc x = .ok b) ↔ good x) (acc : List β) :
    (∃ b, l.foldlM f acc = .ok b) ↔ ∀ x ∈ l, good x := by
  induction l generalizing acc with
  | nil => simp [pure, Except.pure]
  | cons x l ih =>
    have hx := h x (by simp) acc
    rw [List.foldlM_cons, List.forall_mem_cons, ← hx]
    cases hf : f acc x with
    | error e => simp [bind, Except.bind]
    | ok b =>
      simp only [bind, Except.bind]
      rw [ih (fun y hy => h y (List.mem_cons_of_mem _ hy)) b]
      simp

theorem flPoseErrors1_ok_iff (L : Fl.Libm) (cs : List (Corr ι σ τ)) (hl : ∀ c ∈ cs, Linked ev.submission ev.groundTruth c) :
    (∃ v, Fl.poseErrors1 L ev cs = .ok v) ↔ ∀ p ∈ pairsOf ev.submission ev.groundTruth cs, p.2.evaluated = true →
      ∃ r, Fl.rotationError1 L p.1.payload.R p.2.payload.R p.2.payload.symmetry = .ok r := by
  unfold Fl.poseErrors1
  rw [foldlM_collect_ok_iff (good := fun c => ∀ p ∈ pairsOf ev.submission ev.groundTruth [c], p.2.evaluated = true →
      ∃ r, Fl.rotationError1 L p.1.payload.R p.2.payload.R p.2.payload.symmetry = .ok r)]
  · unfold pairsOf
    simp only [List.mem_filterMap, List.mem_singleton]
    constructor
    · rintro h p ⟨c, hc, e⟩
      exact h c hc p ⟨c, rfl, e⟩
    · rintro h c hc p ⟨c', rfl, e⟩
      exact h p ⟨_, hc, e⟩
  · intro c hc acc
    obtain ⟨d, g, h1, h2⟩ := hl c hc
    rw [Dict.get_eq_ok.2 h1, Dict.get_eq_ok.2 h2, pairsOf_cons _ _ _ h1 h2]
    by_cases he : g.evaluated
    · simp only [bind, Except.bind, he, if_true, pure, Except.pure, pairsOf, List.filterMap_nil, List.mem_singleton, forall_eq, true_imp_iff]
      cases Fl.rotationError1 L d.payload.R g.payload.R g.payload.symmetry <;> simp
    · simp [bind, Except.bind, he, pure, Except.pure, pairsOf]

/-- **C142** `pose_error` returns exactly when the rotation error of every matched evaluated pair returns. -/
theorem C142_returns_iff (L : Fl.Libm) (h : Evaluator.build sim sub gt s = .ok ev) (hs : WellKeyed sub) (hg : WellKeyed gt) :
    (∃ v, Fl.poseError L ev = .ok v) ↔ ∀ t ∈ s.thresholds, ∀ d g, MatchedAt sub gt ev t d g → g.evaluated = true →
      ∃ r, Fl.rotationError1 L d.payload.R g.payload.R g.payload.symmetry = .ok r := by
  obtain ⟨_, _, hsub, hgt, _, hset⟩ := build_ok h
  have key : (∃ v, Fl.poseError L ev = .ok v) ↔ ∀ t ∈ ev.settings.thresholds,
      ∀ p ∈ pairsOf ev.submission ev.groundTruth (assocAt ev.agnostic t).values, p.2.evaluated = true →
      ∃ r, Fl.rotationError1 L p.1.payload.R p.2.payload.R p.2.payload.symmetry = .ok r := by
    rw [← foldlM_collect_ok_iff (f := fun (acc : List (ℚ × ℚ)) t => (do
        let a ← ev.agnostic.get t
        let errs1 ← Fl.poseErrors1 L ev a.values
        if errs1.length > 0 then pure (acc ++ [(L.mean (errs1.map Prod.fst), L.mean (errs1.map Prod.snd))])
        else pure acc : Except PyErr (List (ℚ × ℚ)))) ev.settings.thresholds ?_ []]
    · unfold Fl.poseError
      simp only [bind, Except.bind]
      generalize (List.foldlM (m := Except PyErr) _ _ _ : Except PyErr (List (ℚ × ℚ))) = o
      cases o with
      | error e => simp
      | ok b =>
        simp only
        split_ifs <;> simp [pure, Except.pure]
    · intro t ht acc
      have ht' := (mem_settings h).1 ht
      rw [← flPoseErrors1_ok_iff L _ (by rw [hsub, hgt]; exact linked_values h hs hg ht'), agnostic_get h ht']
      simp only [bind, Except.bind]
      cases Fl.poseErrors1 L ev (assocAt ev.agnostic t).values with
      | error e => simp
      | ok b => simp only; split_ifs <;> simp [pure, Except.pure]
  rw [key]
  have hm : ∀ t ∈ s.thresholds, ∀ d g, MatchedAt sub gt ev t d g ↔ (d, g) ∈ pairsOf sub gt (assocAt ev.agnostic t).values := by
    intro t ht d g
    obtain ⟨a, ha⟩ := (C05_threshold_independent h h t).1.1 ht
    have e : assocAt ev.agnostic t = a := by unfold assocAt; rw [ha]; rfl
    rw [mem_pairsOf h hs hg ht, MatchedAt, e, ha]
    simp
  rw [hsub, hgt]
  constructor
  · intro hk t ht d g hmt he
    exact hk t ((mem_settings h).2 ht) (d, g) ((hm t ht d g).1 hmt) he
  · intro hk t ht p hp he
    have ht' := (mem_settings h).1 ht
    exact hk t ht' p.1 p.2 ((hm t ht' p.1 p.2).2 hp) he

/-- **C142** `pose_error` never raises if no evaluated ground truth element is cylindrical (partial).  Missing: cylindrical elements,
for which it is false, see `C142_false`. -/
theorem C142_pose_error_partial (L : Fl.Libm) (h : Evaluator.build sim sub gt s = .ok ev) (hs : WellKeyed sub) (hg : WellKeyed gt)
    (hc : ∀ g ∈ gt.values, g.evaluated = true → NoCylinder g.payload.symmetry) : ∃ v, Fl.poseError L ev = .ok v := by
  rw [C142_returns_iff L h hs hg]
  rintro t - d g ⟨a, -, hd, hg', -⟩ he
  exact C142_no_cylinder L _ _ _ (hc g hg' he)

/-- **C142** (partial) `pose_error` never raises if every matched evaluated pair has no cylindrical symmetry, or is a cylinder
about one axis, without other symmetries, and both rotations are away from gimbal lock.  Missing: cylinders in gimbal lock, for which it
is false, see `C142_false`, and elements that have other symmetries besides being cylinders. -/
theorem C142_pose_error_cylinder_partial (L : Fl.Libm) (h : Evaluator.build sim sub gt s = .ok ev) (hs : WellKeyed sub) (hg : WellKeyed gt)
    (hc : ∀ t ∈ s.thresholds, ∀ d g, MatchedAt sub gt ev t d g → g.evaluated = true → NoCylinder g.payload.symmetry ∨
      ((∃ axis, symAbout g.payload.symmetry axis = .cylindrical ∧ ∀ a, a ≠ axis → symAbout g.payload.symmetry a = .none) ∧
        NotLocked d.payload.R ∧ NotLocked g.payload.R)) : ∃ v, Fl.poseError L ev = .ok v := by
  rw [C142_returns_iff L h hs hg]
  intro t ht d g hm he
  rcases hc t ht d g hm he with hn | ⟨⟨axis, h1, h2⟩, hd, hg'⟩
  · exact C142_no_cylinder L _ _ _ hn
  · exact (C142_cylinder_iff L _ _ _ axis h1 h2).2 ⟨hd.sine, hg'.sine⟩

namespace FloatPoseExample

/-- A rotation with pitch 90°, stored with the doubles of 5/13 and 12/13. -/
def W : Mat3 ℚ := ⟨0, -double (5 / 13), double (12 / 13), 0, double (12 / 13), double (5 / 13), -1, 0, 0⟩

/-- The rotation that `W` stores. -/
def exactW : Mat3 ℚ := ⟨0, -(5 / 13), 12 / 13, 0, 12 / 13, 5 / 13, -1, 0, 0⟩

/-- An element at the origin. -/
def el (sym : ObjectSymmetry) (R : Mat3 ℚ) : Obj ℕ ℕ Fl.Payload := ⟨0, "lamp", 1, true, ⟨R, ⟨0, 0, 0⟩, sym⟩⟩

/-- A scene with one element. -/
def scene (sym : ObjectSymmetry) (R : Mat3 ℚ) : Elements ℕ ℕ Fl.Payload := [(0, el sym R)]

/-- All elements are similar. -/
def simAll (_ _ : Obj ℕ ℕ Fl.Payload) : ℕ := 1

/-- One threshold. -/
def settings : AssocSettings ℕ := ⟨[1], []⟩

theorem wk (sym : ObjectSymmetry) (R : Mat3 ℚ) : WellKeyed (scene sym R) := by
  unfold WellKeyed Dict.NodupKeys
  constructor
  · simp [scene, Dict.keys]
  · intro p hp
    simp [scene] at hp
    rw [hp]; rfl

/-- The evaluator of a scene against itself. -/
def evOf (sym : ObjectSymmetry) (R : Mat3 ℚ) : Evaluator ℕ ℕ ℕ Fl.Payload :=
  ⟨settings, scene sym R, scene sym R, [(0, [(0, ⟨0, 0, 1, 1, true⟩)])], [(1, [(0, ⟨0, 0, 1, 1, true⟩)])], []⟩

theorem build (sym : ObjectSymmetry) (R : Mat3 ℚ) :
    Evaluator.build simAll (scene sym R) (scene sym R) settings = .ok (evOf sym R) := rfl

theorem W_arg : Fl.asinArg (Fl.matrixToQuat W) = 1 + 1 / 2 ^ 52 := by decide +kernel

end FloatPoseExample

open FloatPoseExample in
/-- **C142** is false for cylindrical elements: a submission equal to the ground truth, with one lamp whose rotation is stored as the
nearest doubles, makes `pose_error` raise `ValueError`, whatever the library functions return. -/
theorem C142_false : ∃ (A : Elements ℕ ℕ Fl.Payload) (E : Evaluator ℕ ℕ ℕ Fl.Payload) (X : Mat3 ℚ),
    Evaluator.build simAll A A settings = .ok E ∧ WellKeyed A ∧ X.transpose.mul X = Mat3.one ∧ X.det = 1 ∧
    (∀ e ∈ A.values, Admitted e.payload.symmetry ∧
      e.payload.R = ⟨double X.m00, double X.m01, double X.m02, double X.m10, double X.m11, double X.m12, double X.m20, double X.m21, double X.m22⟩) ∧
    ∀ L, Fl.poseError L E = .error .valueError := by
  refine ⟨scene ⟨.none, .none, .cylindrical⟩ W, evOf ⟨.none, .none, .cylindrical⟩ W, exactW, build _ _, wk _ _, by decide +kernel,
    by decide +kernel, ?_, fun L => ?_⟩
  · intro e he
    simp [scene, Dict.values] at he
    subst he
    exact ⟨by unfold Admitted; decide +kernel, by decide +kernel⟩
  · have hM : Fl.matrixToEuler L W = .error .valueError := by
      unfold Fl.matrixToEuler Fl.quatToEuler Fl.pyAsin
      rw [W_arg, if_neg (by norm_num [abs_le])]
      rfl
    have hr : Fl.rotationError1 L W W ⟨.none, .none, .cylindrical⟩ = .error .valueError := by
      simp only [Fl.rotationError1, Fl.rotsToCheck, List.mapM_cons, Fl.cylindricalSymmetricRot, hM, bind, Except.bind]
    have hp : Fl.poseErrors1 L (evOf ⟨.none, .none, .cylindrical⟩ W) [⟨0, 0, 1, 1, true⟩] = .error .valueError := by
      simp only [Fl.poseErrors1, List.foldlM_cons, evOf, scene, el, Dict.get, Dict.get?, hr, bind, Except.bind, if_true]
    have hv : Dict.values [(0, (⟨0, 0, 1, 1, true⟩ : Corr ℕ ℕ ℕ))] = [⟨0, 0, 1, 1, true⟩] := rfl
    simp only [evOf, settings] at hp
    simp only [Fl.poseError, evOf, settings, List.foldlM_cons, Dict.get, Dict.get?, bind, Except.bind, if_true, hv, hp]

open FloatPoseExample in
/-- The hypotheses of C142 are met: a table with four-fold symmetry in the same pose. -/
example (L : Fl.Libm) : ∃ v, Fl.poseError L (evOf ⟨.none, .none, .fourFold⟩ W) = .ok v := by
  refine C142_pose_error_partial L (build _ _) (wk _ _) (wk _ _) ?_
  intro g hg _
  simp [scene, Dict.values] at hg
  subst hg
  intro axis
  fin_cases axis <;> simp [el, symAbout]

/-- An upright element is away from gimbal lock. -/
theorem notLocked_one : NotLocked ⟨0, -1, 0, 1, 0, 0, 0, 0, 1⟩ := by
  refine ⟨⟨0, -1, 0, 1, 0, 0, 0, 0, 1⟩, ?_, by simp [Stores], by norm_num⟩
  rw [isRotation_iff]
  constructor
  · ext <;> norm_num [Mat3.mul, Mat3.transpose, Mat3.one]
  · norm_num [Mat3.det]

open FloatPoseExample in
/-- The hypotheses of `C142_pose_error_cylinder_partial` are met: an upright lamp, turned by 90°. -/
example (L : Fl.Libm) : ∃ v, Fl.poseError L (evOf ⟨.none, .none, .cylindrical⟩ ⟨0, -1, 0, 1, 0, 0, 0, 0, 1⟩) = .ok v := by
  refine C142_pose_error_cylinder_partial L (build _ _) (wk _ _) (wk _ _) ?_
  rintro t - d g ⟨a, -, hd, hg, -⟩ -
  simp [scene, Dict.values] at hd hg
  subst hd; subst hg
  exact .inr ⟨⟨2, rfl, by intro a ha; fin_cases a <;> simp_all [symAbout, el]⟩, notLocked_one, notLocked_one⟩

open FloatPoseExample in
/-- A cylinder in a general pose does not raise. -/
example (L : Fl.Libm) : ∃ r, Fl.rotationError1 L ⟨1, 0, 0, 0, 0, -1, 0, 1, 0⟩ ⟨0, -1, 0, 1, 0, 0, 0, 0, 1⟩ ⟨.none, .none, .cylindrical⟩ = .ok r :=
  (C142_cylinder_iff L _ _ _ 2 rfl (by intro a ha; fin_cases a <;> simp_all [symAbout])).2 (by constructor <;> decide +kernel)

end Sumo
