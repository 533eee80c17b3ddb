import Verif.Lemmas.Pairs
import Verif.Props.RotationError

/-! # Helper lemmas: pose error -/

set_option linter.unusedSectionVars false

namespace Sumo
open AssocSpec RotSpec

/-! ### Means -/

theorem sum_nonneg_list {l : List ℝ} (h : ∀ x ∈ l, 0 ≤ x) : 0 ≤ l.sum := List.sum_nonneg h

theorem sum_eq_zero_list {l : List ℝ} (h : ∀ x ∈ l, 0 ≤ x) : l.sum = 0 ↔ ∀ x ∈ l, x = 0 := by
  induction l with
  | nil => simp
  | cons a l ih =>
    have ha := h a (by simp)
    have hl := fun x hx => h x (List.mem_cons_of_mem _ hx)
    have hs := List.sum_nonneg hl
    rw [List.sum_cons]
    constructor
    · intro e x hx
      rcases List.mem_cons.1 hx with rfl | hx
      · linarith
      · exact (ih hl).1 (by linarith) x hx
    · intro e
      rw [e a (by simp), (ih hl).2 (fun x hx => e x (by simp [hx]))]; norm_num

theorem sum_le_list {l : List ℝ} {b : ℝ} (h : ∀ x ∈ l, x ≤ b) : l.sum ≤ l.length * b := by
  induction l with
  | nil => simp
  | cons a l ih =>
    have := ih (fun x hx => h x (List.mem_cons_of_mem _ hx))
    have := h a (by simp)
    rw [List.sum_cons, List.length_cons]; push_cast; linarith

theorem meanR_nonneg {l : List ℝ} (h : ∀ x ∈ l, 0 ≤ x) : 0 ≤ meanR l :=
  div_nonneg (List.sum_nonneg h) (Nat.cast_nonneg _)

theorem meanR_le {l : List ℝ} {b : ℝ} (hne : l ≠ []) (h : ∀ x ∈ l, x ≤ b) : meanR l ≤ b := by
  have hp : (0 : ℝ) < l.length := by
    exact_mod_cast List.length_pos_iff.2 hne
  unfold meanR
  rw [div_le_iff₀ hp, mul_comm]
  exact sum_le_list h

theorem meanR_eq_zero {l : List ℝ} (hne : l ≠ []) (h : ∀ x ∈ l, 0 ≤ x) : meanR l = 0 ↔ ∀ x ∈ l, x = 0 := by
  have hp : (0 : ℝ) < l.length := by
    exact_mod_cast List.length_pos_iff.2 hne
  unfold meanR
  rw [div_eq_zero_iff, sum_eq_zero_list h]
  constructor
  · rintro (h | h)
    · exact h
    · exact absurd h hp.ne'
  · exact Or.inl

variable {ι σ τ : Type} [DecidableEq ι] [LinearOrder σ] [LinearOrder τ]

/-- The rotation error as a number. -/
noncomputable def rotErr (d g : Obj ι σ Payload) : ℝ :=
  (rotationError1 d.payload.pose.R g.payload.pose.R g.payload.symmetry).toOption.getD 0

theorem rotErr_spec (d g : Obj ι σ Payload) :
    rotationError1 d.payload.pose.R g.payload.pose.R g.payload.symmetry = .ok (rotErr d g) ∧
    0 ≤ rotErr d g ∧ rotErr d g ≤ Real.pi := by
  obtain ⟨e, h1, h2, h3⟩ := C26_range d.payload.pose.R g.payload.pose.R g.payload.symmetry
  have : rotErr d g = e := by rw [rotErr, h1]; rfl
  rw [this]; exact ⟨h1, h2, h3⟩

/-- The translation error as a number. -/
noncomputable def transErr (d g : Obj ι σ Payload) : ℝ := (g.payload.pose.t - d.payload.pose.t).norm

theorem transErr_nonneg (d g : Obj ι σ Payload) : 0 ≤ transErr d g := Real.sqrt_nonneg _

theorem norm_eq_zero3 (v : Vec3 ℝ) : v.norm = 0 ↔ v = 0 := by
  unfold Vec3.norm Vec3.normSq Vec3.dot
  rw [Real.sqrt_eq_zero (by nlinarith [mul_self_nonneg v.x, mul_self_nonneg v.y, mul_self_nonneg v.z])]
  constructor
  · intro h
    have hx := mul_self_nonneg v.x
    have hy := mul_self_nonneg v.y
    have hz := mul_self_nonneg v.z
    ext
    · exact mul_self_eq_zero.1 (by linarith)
    · exact mul_self_eq_zero.1 (by linarith)
    · exact mul_self_eq_zero.1 (by linarith)
  · rintro rfl; simp

theorem transErr_eq_zero (d g : Obj ι σ Payload) : transErr d g = 0 ↔ d.payload.pose.t = g.payload.pose.t := by
  unfold transErr
  rw [norm_eq_zero3]
  constructor
  · intro h
    have hx := congrArg Vec3.x h
    have hy := congrArg Vec3.y h
    have hz := congrArg Vec3.z h
    simp at hx hy hz
    ext <;> linarith
  · intro h; rw [h]; ext <;> simp

/-- The evaluated pairs behind correspondences. -/
def evalPairs (sub gt : Elements ι σ Payload) (cs : List (Corr ι σ τ)) : List (Obj ι σ Payload × Obj ι σ Payload) :=
  (pairsOf sub gt cs).filter (fun p => p.2.evaluated)

theorem poseErrors1_eq {ev : Evaluator ι σ τ Payload} (cs : List (Corr ι σ τ))
    (hl : ∀ c ∈ cs, Linked ev.submission ev.groundTruth c) :
    poseErrors1 ev cs = .ok ((evalPairs ev.submission ev.groundTruth cs).map
      (fun p => (rotErr p.1 p.2, transErr p.1 p.2))) := by
  unfold poseErrors1
  rw [foldlM_append_ok (g := fun c => (evalPairs ev.submission ev.groundTruth [c]).map
      (fun p => (rotErr p.1 p.2, transErr p.1 p.2))) _ (by
    intro c hc acc
    obtain ⟨d, g, h1, h2⟩ := hl c hc
    rw [Dict.get_eq_ok.2 h1, Dict.get_eq_ok.2 h2, evalPairs, pairsOf_cons _ _ _ h1 h2]
    by_cases he : g.evaluated
    · simp [bind, Except.bind, he, (rotErr_spec d g).1, pure, Except.pure, pairsOf, transErr]
    · simp [bind, Except.bind, he, pure, Except.pure, pairsOf])]
  congr 1
  rw [List.nil_append]
  induction cs with
  | nil => rfl
  | cons c cs ih =>
    obtain ⟨d, g, h1, h2⟩ := hl c (by simp)
    rw [List.flatMap_cons, ih (fun c hc => hl c (List.mem_cons_of_mem _ hc))]
    unfold evalPairs
    rw [pairsOf_cons _ _ cs h1 h2, pairsOf_cons _ _ [] h1 h2, List.filter_cons, List.filter_cons]
    by_cases he : g.evaluated <;> simp [he, pairsOf]

/-- The evaluated pairs of an evaluator at a threshold. -/
def evalPairsAt (ev : Evaluator ι σ τ Payload) (t : τ) : List (Obj ι σ Payload × Obj ι σ Payload) :=
  evalPairs ev.submission ev.groundTruth (assocAt ev.agnostic t).values

variable {sim : Obj ι σ Payload → Obj ι σ Payload → τ} {sub gt : Elements ι σ Payload} {s : AssocSettings τ}
  {ev : Evaluator ι σ τ Payload}

theorem mem_evalPairsAt (h : Evaluator.build sim sub gt s = .ok ev) (hs : WellKeyed sub) (hg : WellKeyed gt)
    {t : τ} (ht : t ∈ s.thresholds) (d g : Obj ι σ Payload) :
    (d, g) ∈ evalPairsAt ev t ↔
      Matched sub.values gt.values (assocAt ev.agnostic t) d g ∧ g.evaluated = true := by
  obtain ⟨_, _, hsub, hgt, _, hset⟩ := build_ok h
  unfold evalPairsAt evalPairs
  rw [List.mem_filter, hsub, hgt, mem_pairsOf h hs hg ht]

/-- The means at the thresholds where something evaluated is matched. -/
noncomputable def threshMeans (ev : Evaluator ι σ τ Payload) (f : Obj ι σ Payload → Obj ι σ Payload → ℝ) : List ℝ :=
  (ev.settings.thresholds.filter (fun t => evalPairsAt ev t ≠ [])).map
    (fun t => meanR ((evalPairsAt ev t).map (fun p => f p.1 p.2)))

/-- `pose_error` in one formula: mean over thresholds of mean over evaluated matched pairs. -/
theorem poseError_eq (h : Evaluator.build sim sub gt s = .ok ev) (hs : WellKeyed sub) (hg : WellKeyed gt) :
    poseError ev = .ok (if threshMeans ev rotErr = [] then none else
      some (meanR (threshMeans ev rotErr), meanR (threshMeans ev transErr))) := by
  obtain ⟨_, _, hsub, hgt, _, hset⟩ := build_ok h
  unfold poseError
  rw [foldlM_append_ok (g := fun t => if evalPairsAt ev t ≠ [] then
      [(meanR ((evalPairsAt ev t).map (fun p => rotErr p.1 p.2)),
        meanR ((evalPairsAt ev t).map (fun p => transErr p.1 p.2)))] else []) _ (by
    intro t ht acc
    have ht' := (mem_settings h).1 ht
    rw [agnostic_get h ht']
    simp only [bind, Except.bind]
    rw [poseErrors1_eq _ (by rw [hsub, hgt]; exact linked_values h hs hg ht')]
    simp only
    change (if ((evalPairsAt ev t).map _).length > 0 then _ else _) = _
    by_cases he : evalPairsAt ev t = []
    · rw [he]; simp [pure, Except.pure]
    · rw [if_pos (by simpa [List.length_pos_iff] using he), if_pos he]
      simp only [List.map_map, pure, Except.pure]
      rfl)]
  simp only [bind, Except.bind, List.nil_append, pure, Except.pure]
  have e : ∀ l : List τ, (l.flatMap (fun t => if evalPairsAt ev t ≠ [] then
      [(meanR ((evalPairsAt ev t).map (fun p => rotErr p.1 p.2)),
        meanR ((evalPairsAt ev t).map (fun p => transErr p.1 p.2)))] else [])) =
      (l.filter (fun t => evalPairsAt ev t ≠ [])).map (fun t =>
        (meanR ((evalPairsAt ev t).map (fun p => rotErr p.1 p.2)),
         meanR ((evalPairsAt ev t).map (fun p => transErr p.1 p.2)))) := by
    intro l
    induction l with
    | nil => rfl
    | cons t l ih =>
      rw [List.flatMap_cons, ih]
      by_cases he : evalPairsAt ev t = []
      · simp [he]
      · simp [he]
  rw [e]
  unfold threshMeans
  simp only [List.length_map, List.map_eq_nil_iff, List.length_eq_zero_iff, List.map_map]
  split_ifs <;> rfl

end Sumo
