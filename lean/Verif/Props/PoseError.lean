import Verif.Lemmas.PoseError

/-!
# Pose error (C25)
-/

set_option linter.unusedSectionVars false

namespace Sumo
open AssocSpec RotSpec

variable {ι σ τ : Type} [DecidableEq ι] [LinearOrder σ] [LinearOrder τ]
  {sim : Obj ι σ Payload → Obj ι σ Payload → τ} {sub gt : Elements ι σ Payload} {s : AssocSettings τ}
  {ev : Evaluator ι σ τ Payload}

/-- `d` and the evaluated element `g` are matched at threshold `t`. -/
def EvalMatched (sub gt : Elements ι σ Payload) (ev : Evaluator ι σ τ Payload) (t : τ) (d g : Obj ι σ Payload) : Prop :=
  (∃ a, ev.agnostic.get? t = some a ∧ Matched sub.values gt.values a d g) ∧ g.evaluated = true

theorem evalMatched_iff (h : Evaluator.build sim sub gt s = .ok ev) (hs : WellKeyed sub) (hg : WellKeyed gt)
    {t : τ} (ht : t ∈ s.thresholds) (d g : Obj ι σ Payload) :
    EvalMatched sub gt ev t d g ↔ (d, g) ∈ evalPairsAt ev t := by
  obtain ⟨a, ha⟩ := (C05_threshold_independent h h t).1.1 ht
  have e : assocAt ev.agnostic t = a := by unfold assocAt; rw [ha]; rfl
  rw [mem_evalPairsAt h hs hg ht, EvalMatched, e, ha]
  simp

theorem threshMeans_eq_nil (h : Evaluator.build sim sub gt s = .ok ev) (hs : WellKeyed sub) (hg : WellKeyed gt)
    (f : Obj ι σ Payload → Obj ι σ Payload → ℝ) :
    threshMeans ev f = [] ↔ ∀ t ∈ s.thresholds, ∀ d g, ¬ EvalMatched sub gt ev t d g := by
  unfold threshMeans
  rw [List.map_eq_nil_iff, List.filter_eq_nil_iff]
  constructor
  · intro hn t ht d g hm
    have := hn t ((mem_settings h).2 ht)
    simp only [ne_eq, decide_not, Bool.not_eq_true', decide_eq_false_iff_not, not_not] at this
    rw [evalMatched_iff h hs hg ht, this] at hm
    exact absurd hm (by simp)
  · intro hn t ht
    have ht' := (mem_settings h).1 ht
    simp only [ne_eq, decide_not, Bool.not_eq_true', decide_eq_false_iff_not, not_not]
    rw [List.eq_nil_iff_forall_not_mem]
    rintro ⟨d, g⟩ hp
    exact hn t ht' d g ((evalMatched_iff h hs hg ht' d g).2 hp)

theorem mem_threshMeans {f : Obj ι σ Payload → Obj ι σ Payload → ℝ} {x : ℝ}
    (hx : x ∈ threshMeans ev f) : ∃ t ∈ ev.settings.thresholds, evalPairsAt ev t ≠ [] ∧
      x = meanR ((evalPairsAt ev t).map (fun p => f p.1 p.2)) := by
  unfold threshMeans at hx
  obtain ⟨t, ht, rfl⟩ := List.mem_map.1 hx
  obtain ⟨h1, h2⟩ := List.mem_filter.1 ht
  exact ⟨t, h1, by simpa using h2, rfl⟩

theorem threshMeans_nonneg {f : Obj ι σ Payload → Obj ι σ Payload → ℝ} (hf : ∀ d g, 0 ≤ f d g) :
    ∀ x ∈ threshMeans ev f, 0 ≤ x := by
  intro x hx
  obtain ⟨t, -, -, rfl⟩ := mem_threshMeans hx
  apply meanR_nonneg
  intro y hy
  obtain ⟨p, -, rfl⟩ := List.mem_map.1 hy
  exact hf _ _

theorem mean_threshMeans_eq_zero (h : Evaluator.build sim sub gt s = .ok ev) (hs : WellKeyed sub) (hg : WellKeyed gt)
    {f : Obj ι σ Payload → Obj ι σ Payload → ℝ} (hf : ∀ d g, 0 ≤ f d g) (hne : threshMeans ev f ≠ []) :
    meanR (threshMeans ev f) = 0 ↔ ∀ t ∈ s.thresholds, ∀ d g, EvalMatched sub gt ev t d g → f d g = 0 := by
  rw [meanR_eq_zero hne (threshMeans_nonneg hf)]
  constructor
  · intro h0 t ht d g hm
    rw [evalMatched_iff h hs hg ht] at hm
    have hne' : evalPairsAt ev t ≠ [] := List.ne_nil_of_mem hm
    have hx : meanR ((evalPairsAt ev t).map (fun p => f p.1 p.2)) ∈ threshMeans ev f := by
      unfold threshMeans
      exact List.mem_map.2 ⟨t, List.mem_filter.2 ⟨(mem_settings h).2 ht, by simpa using hne'⟩, rfl⟩
    have := (meanR_eq_zero (by simpa using hne') (by
      intro y hy
      obtain ⟨p, -, rfl⟩ := List.mem_map.1 hy
      exact hf _ _)).1 (h0 _ hx)
    exact this _ (List.mem_map.2 ⟨(d, g), hm, rfl⟩)
  · intro h0 x hx
    obtain ⟨t, ht, hne', rfl⟩ := mem_threshMeans hx
    have ht' := (mem_settings h).1 ht
    rw [meanR_eq_zero (by simpa using hne') (by
      intro y hy
      obtain ⟨p, -, rfl⟩ := List.mem_map.1 hy
      exact hf _ _)]
    intro y hy
    obtain ⟨p, hp, rfl⟩ := List.mem_map.1 hy
    exact h0 t ht' p.1 p.2 ((evalMatched_iff h hs hg ht' _ _).2 hp)

/-- **C25** `pose_error` never raises; it is `(inf, inf)` exactly when no evaluated element is matched at any
threshold. Otherwise both errors are finite and non-negative, the rotation error is at most `π`; the translation error
is 0 exactly when all matched pairs have the same position and the rotation error exactly when all have rotation
error 0. -/
theorem C25_pose_error (h : Evaluator.build sim sub gt s = .ok ev) (hs : WellKeyed sub) (hg : WellKeyed gt) :
    (poseError ev = .ok none ↔ ∀ t ∈ s.thresholds, ∀ d g, ¬ EvalMatched sub gt ev t d g) ∧
    ((∃ t ∈ s.thresholds, ∃ d g, EvalMatched sub gt ev t d g) →
      ∃ r x, poseError ev = .ok (some (r, x)) ∧ 0 ≤ r ∧ r ≤ Real.pi ∧ 0 ≤ x ∧
        (x = 0 ↔ ∀ t ∈ s.thresholds, ∀ d g, EvalMatched sub gt ev t d g →
          d.payload.pose.t = g.payload.pose.t) ∧
        (r = 0 ↔ ∀ t ∈ s.thresholds, ∀ d g, EvalMatched sub gt ev t d g →
          rotationError1 d.payload.pose.R g.payload.pose.R g.payload.symmetry = .ok 0)) := by
  rw [poseError_eq h hs hg]
  constructor
  · rw [← threshMeans_eq_nil h hs hg rotErr]
    split_ifs with he
    · simp [he]
    · simp [he]
  · rintro ⟨t, ht, d, g, hm⟩
    have hne : ∀ f, threshMeans ev f ≠ [] := by
      intro f hn
      exact (threshMeans_eq_nil h hs hg f).1 hn t ht d g hm
    rw [if_neg (hne _)]
    refine ⟨_, _, rfl, meanR_nonneg (threshMeans_nonneg fun d g => (rotErr_spec d g).2.1), ?_,
      meanR_nonneg (threshMeans_nonneg transErr_nonneg), ?_, ?_⟩
    · apply meanR_le (hne _)
      intro x hx
      obtain ⟨t, -, hne', rfl⟩ := mem_threshMeans hx
      apply meanR_le (by simpa using hne')
      intro y hy
      obtain ⟨p, -, rfl⟩ := List.mem_map.1 hy
      exact (rotErr_spec _ _).2.2
    · rw [mean_threshMeans_eq_zero h hs hg transErr_nonneg (hne _)]
      simp only [transErr_eq_zero]
    · rw [mean_threshMeans_eq_zero h hs hg (fun d g => (rotErr_spec d g).2.1) (hne _)]
      simp only [(rotErr_spec _ _).1, Except.ok.injEq]

/-- **C25** (partial) exact poses have error `(0, 0)`, provided cylindrical elements are not in gimbal lock
(`|R[2,0]| = 1`).  Missing: cylindrical elements in gimbal lock, where it is false, see
`C25_exact_pose_gimbal_lock`. -/
theorem C25_exact_pose_partial (h : Evaluator.build sim sub gt s = .ok ev) (hs : WellKeyed sub) (hg : WellKeyed gt)
    (hex : ∃ t ∈ s.thresholds, ∃ d g, EvalMatched sub gt ev t d g)
    (hp : ∀ t ∈ s.thresholds, ∀ d g, EvalMatched sub gt ev t d g → d.payload.pose = g.payload.pose ∧
      IsRotation g.payload.pose.R ∧ Admitted g.payload.symmetry ∧
      (NoCylinder g.payload.symmetry ∨ g.payload.pose.R.m20 ^ 2 ≠ 1)) :
    poseError ev = .ok (some (0, 0)) := by
  obtain ⟨r, x, he, -, -, -, hx, hr⟩ := (C25_pose_error h hs hg).2 hex
  have hx0 : x = 0 := hx.2 fun t ht d g hm => by rw [(hp t ht d g hm).1]
  have hr0 : r = 0 := by
    refine hr.2 fun t ht d g hm => ?_
    obtain ⟨h1, h2, h3, h4⟩ := hp t ht d g hm
    rw [h1]
    by_cases hc : NoCylinder g.payload.symmetry
    · exact C26_self h2 _ hc
    · have hgim := h4.resolve_left hc
      unfold NoCylinder at hc
      push Not at hc
      obtain ⟨axis, ha⟩ := hc
      exact C28_cylinder_partial h3 axis ha h2 hgim (fun _ _ => rfl)
  rw [he, hx0, hr0]

namespace PoseExample

/-- A rotation in gimbal lock. -/
def R : Rot3 ℝ := ⟨0, 1, 0, 0, 0, -1, -1, 0, 0⟩

/-- An element with identity pose except for its rotation. -/
def el (sym : ObjectSymmetry) (R : Rot3 ℝ) : Obj ℕ ℕ Payload :=
  ⟨0, "lamp", 1, true, ⟨⟨0, 0⟩, ⟨R, 0⟩, sym⟩⟩

/-- A scene with one element. -/
def scene (sym : ObjectSymmetry) (R : Rot3 ℝ) : Elements ℕ ℕ Payload := [(0, el sym R)]

/-- All elements are similar. -/
def simAll (_ _ : Obj ℕ ℕ Payload) : ℕ := 1

/-- One threshold. -/
def settings : AssocSettings ℕ := ⟨[1], []⟩

theorem wk (sym : ObjectSymmetry) (R : Rot3 ℝ) : WellKeyed (scene sym R) := by
  unfold WellKeyed Dict.NodupKeys
  constructor
  · simp [scene, Dict.keys]
  · intro p hp
    simp [scene] at hp
    rw [hp]; rfl

/-- The evaluator of a scene against itself. -/
def evOf (sym : ObjectSymmetry) (R : Rot3 ℝ) : Evaluator ℕ ℕ ℕ Payload :=
  ⟨settings, scene sym R, scene sym R, [(0, [(0, ⟨0, 0, 1, 1, true⟩)])], [(1, [(0, ⟨0, 0, 1, 1, true⟩)])], []⟩

theorem build (sym : ObjectSymmetry) (R : Rot3 ℝ) :
    Evaluator.build simAll (scene sym R) (scene sym R) settings = .ok (evOf sym R) := rfl

theorem matched (sym : ObjectSymmetry) (R : Rot3 ℝ) (t : ℕ) (d g : Obj ℕ ℕ Payload) :
    EvalMatched (scene sym R) (scene sym R) (evOf sym R) t d g ↔ t = 1 ∧ d = el sym R ∧ g = el sym R := by
  unfold EvalMatched Matched
  constructor
  · rintro ⟨⟨a, ha, hd, hg, -⟩, -⟩
    refine ⟨?_, by simpa [scene, Dict.values] using hd, by simpa [scene, Dict.values] using hg⟩
    by_contra ht
    simp [evOf, Dict.get?, Ne.symm ht] at ha
  · rintro ⟨rfl, rfl, rfl⟩
    exact ⟨⟨_, rfl, by simp [scene, Dict.values], by simp [scene, Dict.values], _, rfl, rfl⟩, rfl⟩

end PoseExample

open PoseExample in
/-- **C25** is false for a cylindrical element in gimbal lock: the exact pose gets rotation error `π/2`. -/
theorem C25_exact_pose_gimbal_lock : ∃ (A : Elements ℕ ℕ Payload) (E : Evaluator ℕ ℕ ℕ Payload),
    Evaluator.build simAll A A settings = .ok E ∧ WellKeyed A ∧
    (∀ e ∈ A.values, IsRotation e.payload.pose.R ∧ Admitted e.payload.symmetry) ∧
    ∃ r x, poseError E = .ok (some (r, x)) ∧ r ≠ 0 := by
  have hR : IsRotation R ∧ rotationError1 R R ⟨.cylindrical, .none, .none⟩ ≠ .ok 0 := by
    have hM : IsRotation R := by
      rw [isRotation_iff]
      constructor
      · ext <;> norm_num [R, Mat3.mul, Mat3.transpose, Mat3.one]
      · norm_num [R, Mat3.det]
    refine ⟨hM, fun h0 => ?_⟩
    have : rotationError1 R R ⟨.cylindrical, .none, .none⟩ = .ok (geodesic R (cylindricalSymmetricRot R R 0)) := rfl
    rw [this] at h0
    injection h0 with h0
    have hc : cylindricalSymmetricRot R R 0 = ⟨0, 0, 1, 0, 1, 0, -1, 0, 0⟩ := by
      unfold cylindricalSymmetricRot
      rw [matrixToEuler_eq hM, eulerToMatrix_entries]
      ext <;> simp [Euler.setAxis, Euler.getAxis, atan2_zero, R]
    rw [hc, geodesic, Real.arccos_eq_zero] at h0
    norm_num [R, Mat3.trace, Mat3.mul, Mat3.transpose] at h0
  refine ⟨_, _, build ⟨.cylindrical, .none, .none⟩ R, wk _ _, ?_, ?_⟩
  · intro e he
    simp [scene, Dict.values] at he
    subst he
    exact ⟨hR.1, by unfold Admitted; decide +kernel⟩
  · obtain ⟨r, x, h1, -, -, -, -, h2⟩ := (C25_pose_error (build ⟨.cylindrical, .none, .none⟩ R) (wk _ _) (wk _ _)).2
      ⟨1, by simp [settings], _, _, (matched _ _ _ _ _).2 ⟨rfl, rfl, rfl⟩⟩
    refine ⟨r, x, h1, fun h0 => ?_⟩
    have := h2.1 h0 1 (by simp [settings]) _ _ ((matched _ _ _ _ _).2 ⟨rfl, rfl, rfl⟩)
    exact hR.2 this

open PoseExample in
/-- The hypotheses of C25 are met: an upright cylinder with its exact pose. -/
example : poseError (evOf ⟨.twoFold, .cylindrical, .twoFold⟩ Mat3.one) = .ok (some (0, 0)) := by
  refine C25_exact_pose_partial (build _ _) (wk _ _) (wk _ _)
    ⟨1, by simp [settings], _, _, (matched _ _ _ _ _).2 ⟨rfl, rfl, rfl⟩⟩ ?_
  intro t _ d g hm
  obtain ⟨-, rfl, rfl⟩ := (matched _ _ _ _ _).1 hm
  refine ⟨rfl, isRotation_one, by unfold Admitted; decide +kernel, .inr ?_⟩
  simp [el, Mat3.one]

end Sumo
