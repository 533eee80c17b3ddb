import Verif.Model.FloatPerceptual
import Verif.Lemmas.FloatVoxel
import Verif.Lemmas.FloatScores
import Verif.Lemmas.Pairs
import Verif.Props.FloatAp

/-! # Helper lemmas: perceptual score in machine precision -/

set_option linter.unusedSectionVars false

namespace Sumo
open AssocSpec

/-! ### Roundings -/

theorem single_nonneg {x : ℚ} (h : 0 ≤ x) : 0 ≤ single x := by
  have := single_err x
  rw [abs_le, abs_of_nonneg h] at this
  have h2 : x / 2 ^ 24 ≤ x := div_le_self h (by norm_num)
  linarith [this.1]

theorem single_pos {x : ℚ} (h : 0 < x) : 0 < single x := by
  have := single_err x
  rw [abs_le, abs_of_pos h] at this
  have h2 : x / 2 ^ 24 < x := div_lt_self h (by norm_num)
  linarith [this.1]

theorem single_isDouble (x : ℚ) : IsDouble (single x) := by
  by_cases h : x = 0
  · rw [h]; simpa [single] using isDouble_zero
  · have hx : 0 < |x| := abs_pos.2 h
    have hp : (0 : ℚ) < 2 ^ (Int.log 2 |x| - 23) := zpow_pos (by norm_num) _
    refine ⟨roundEven (x / 2 ^ (Int.log 2 |x| - 23)), Int.log 2 |x| - 23, ?_, by unfold single; rw [if_neg h]⟩
    have h1 : |x / 2 ^ (Int.log 2 |x| - 23)| ≤ 2 ^ 24 := by
      rw [abs_div, abs_of_pos hp, div_le_iff₀ hp]
      have := (Int.lt_zpow_succ_log_self (b := 2) (by norm_num) |x|).le
      have e : ((2 : ℕ) : ℚ) ^ (Int.log 2 |x| + 1) = 2 ^ 24 * 2 ^ (Int.log 2 |x| - 23) := by
        push_cast
        rw [← zpow_natCast, ← zpow_add₀ (by norm_num)]
        congr 1
        push_cast
        ring
      rwa [e] at this
    rw [abs_le] at h1
    have h2 := roundEven_mono h1.2
    have h3 := roundEven_mono h1.1
    rw [roundEven_neg, roundEven_pow 24] at h3
    rw [roundEven_pow 24] at h2
    rw [abs_le]
    constructor <;> omega

namespace Fl

theorem rnd_nonneg (b : Bool) {x : ℚ} (h : 0 ≤ x) : 0 ≤ rnd b x := by
  unfold rnd; split_ifs
  · exact single_nonneg h
  · exact double_nonneg h

theorem rnd_pos (b : Bool) {x : ℚ} (h : 0 < x) : 0 < rnd b x := by
  unfold rnd; split_ifs
  · exact single_pos h
  · exact double_pos h

theorem rnd_isDouble (b : Bool) (x : ℚ) : IsDouble (rnd b x) := by
  unfold rnd; split_ifs
  · exact single_isDouble x
  · exact double_isDouble x

theorem rnd_one (b : Bool) : rnd b 1 = 1 := by
  cases b <;> decide +kernel

/-! ### Folding with an invariant -/

theorem foldlM_invariant {α β : Type} (P : β → Prop) {f : β → α → Except PyErr β} (l : List α)
    (h : ∀ x ∈ l, ∀ b, P b → ∃ b', f b x = .ok b' ∧ P b') : ∀ b, P b → ∃ b', l.foldlM f b = .ok b' ∧ P b' := by
  induction l with
  | nil => exact fun b hb => ⟨b, rfl, hb⟩
  | cons x l ih =>
    intro b hb
    obtain ⟨b1, h1, h2⟩ := h x (by simp) b hb
    obtain ⟨b2, h3, h4⟩ := ih (fun y hy => h y (by simp [hy])) b1 h2
    exact ⟨b2, by rw [List.foldlM_cons, h1]; exact h3, h4⟩

/-! ### Gaussians -/

/-- What is assumed about the library: `exp` of a number that is not positive is in `[0, 1]`, `exp(0)` is 1, squares are not
negative, only the square of 0 is 0, and the zero vector has norm 0. -/
structure PerceptualLib.Lawful (L : PerceptualLib) : Prop where
  exp_range : ∀ x ≤ 0, 0 ≤ L.exp x ∧ L.exp x ≤ 1
  exp_zero : L.exp 0 = 1
  sq_nonneg : ∀ x, 0 ≤ L.sq x
  sq_zero : ∀ x, L.sq x = 0 ↔ x = 0
  norm_zero : L.norm2 0 0 = 0

theorem gaussian_range {L : PerceptualLib} (hL : L.Lawful) {s : GaussParams} (hw : 0 ≤ s.weight) (hd : IsDouble s.weight)
    (hs : s.stdDev ≠ 0) (x : ℚ) : ∃ y, gaussian L s x = .ok y ∧ 0 ≤ y ∧ y ≤ s.weight := by
  have h0 : L.sq s.stdDev ≠ 0 := fun e => hs ((hL.sq_zero _).1 e)
  refine ⟨_, by rw [gaussian, if_neg h0], ?_⟩
  have h1 : double (-0.5 * L.sq (double (x - s.mean))) ≤ 0 := by
    have h := hL.sq_nonneg (double (x - s.mean))
    have h2 : -(0.5 * L.sq (double (x - s.mean))) = -0.5 * L.sq (double (x - s.mean)) := by ring
    rw [← h2, double_neg]
    have := double_nonneg (x := 0.5 * L.sq (double (x - s.mean))) (by positivity)
    linarith
  have h2 : double (double (-0.5 * L.sq (double (x - s.mean))) / L.sq s.stdDev) ≤ 0 :=
    double_le (div_nonpos_of_nonpos_of_nonneg h1 (hL.sq_nonneg _)) isDouble_zero
  obtain ⟨h3, h4⟩ := hL.exp_range _ h2
  exact ⟨double_nonneg (mul_nonneg hw h3), double_le (mul_le_of_le_one_right hw h4) hd⟩

theorem gaussian_mean {L : PerceptualLib} (hL : L.Lawful) {s : GaussParams} (hd : IsDouble s.weight)
    (hs : s.stdDev ≠ 0) : gaussian L s s.mean = .ok s.weight := by
  have h0 : L.sq s.stdDev ≠ 0 := fun e => hs ((hL.sq_zero _).1 e)
  rw [gaussian, if_neg h0, sub_self, double_zero, (hL.sq_zero 0).2 rfl, mul_zero, double_zero, zero_div, double_zero,
    hL.exp_zero, mul_one, double_of_isDouble hd]

/-! ### Boxes -/

/-- The corners are in order. -/
def Ordered (p : PerceptualPayload) : Prop :=
  p.bounds.minCorner.x ≤ p.bounds.maxCorner.x ∧ p.bounds.minCorner.y ≤ p.bounds.maxCorner.y ∧
    p.bounds.minCorner.z ≤ p.bounds.maxCorner.z

theorem volume_nonneg {p : PerceptualPayload} (h : Ordered p) : 0 ≤ volume p := by
  obtain ⟨h1, h2, h3⟩ := h
  exact rnd_nonneg _ (mul_nonneg (rnd_nonneg _ (mul_nonneg (rnd_nonneg _ (by linarith)) (rnd_nonneg _ (by linarith))))
    (rnd_nonneg _ (by linarith)))

theorem volume_isDouble (p : PerceptualPayload) : IsDouble (volume p) := rnd_isDouble _ _

theorem floorSize_nonneg {p : PerceptualPayload} (h : p.bounds.minCorner.x ≤ p.bounds.maxCorner.x ∧
    p.bounds.minCorner.z ≤ p.bounds.maxCorner.z) : 0 ≤ floorSize p :=
  rnd_nonneg _ (mul_nonneg (rnd_nonneg _ (by linarith [h.1])) (rnd_nonneg _ (by linarith [h.2])))

theorem floorSize_pos {p : PerceptualPayload} (h : p.bounds.minCorner.x < p.bounds.maxCorner.x ∧
    p.bounds.minCorner.z < p.bounds.maxCorner.z) : 0 < floorSize p :=
  rnd_pos _ (mul_pos (rnd_pos _ (by linarith [h.1])) (rnd_pos _ (by linarith [h.2])))

/-! ### One correspondence -/

variable {ι σ τ : Type} [DecidableEq ι] [LinearOrder σ] [LinearOrder τ]

/-- Weights that are doubles and not negative, a positive one for the room scale, and non-zero standard deviations. -/
structure Sensible (p : PerceptualParams) : Prop where
  room : 0 < p.roomScale.weight ∧ IsDouble p.roomScale.weight ∧ p.roomScale.stdDev ≠ 0
  true' : 0 ≤ p.trueObjScale.weight ∧ IsDouble p.trueObjScale.weight ∧ p.trueObjScale.stdDev ≠ 0
  rel : 0 ≤ p.relativeObjScale.weight ∧ IsDouble p.relativeObjScale.weight ∧ p.relativeObjScale.stdDev ≠ 0
  trans : 0 ≤ p.translation.weight ∧ IsDouble p.translation.weight ∧ p.translation.stdDev ≠ 0
  elev : 0 ≤ p.elevation.weight ∧ IsDouble p.elevation.weight ∧ p.elevation.stdDev ≠ 0
  missed : 0 ≤ p.missedWeight
  extra : 0 ≤ p.extraWeight

theorem double_add_pos {a b : ℚ} (ha : 0 < a) (hb : 0 ≤ b) : 0 < double (a + b) := double_pos (by linarith)

theorem step_range {L : PerceptualLib} (hL : L.Lawful) {p : PerceptualParams} (hp : Sensible p)
    {sub gt : Elements ι σ PerceptualPayload} (rs : ℚ) {c : Corr ι σ τ} (hc : Linked sub gt c) (st : ℚ × ℚ)
    (h : st.1 ≤ st.2 ∧ 0 < st.2) :
    ∃ st', perceptualStep L p sub gt rs st c = .ok st' ∧ st'.1 ≤ st'.2 ∧ 0 < st'.2 := by
  obtain ⟨d, g, h1, h2⟩ := hc
  unfold perceptualStep
  rw [Dict.get_eq_ok.2 h1, Dict.get_eq_ok.2 h2]
  simp only [bind, Except.bind, pure, Except.pure]
  cases he : g.evaluated with
  | false => exact ⟨st, by simp, h⟩
  | true =>
    simp only [Bool.true_eq_false, if_false]
    obtain ⟨x1, e1, -, r1⟩ := gaussian_range hL hp.true'.1 hp.true'.2.1 hp.true'.2.2
      (rnd (d.payload.isSingle && g.payload.isSingle) (volume d.payload / volume g.payload))
    obtain ⟨x2, e2, -, r2⟩ := gaussian_range hL hp.rel.1 hp.rel.2.1 hp.rel.2.2
      (double (volume d.payload / double (volume g.payload * rs)))
    obtain ⟨x3, e3, -, r3⟩ := gaussian_range hL hp.trans.1 hp.trans.2.1 hp.trans.2.2
      (L.norm2 (double (d.payload.t.x - g.payload.t.x)) (double (d.payload.t.z - g.payload.t.z)))
    obtain ⟨x4, e4, -, r4⟩ := gaussian_range hL hp.elev.1 hp.elev.2.1 hp.elev.2.2
      (double (d.payload.t.y - g.payload.t.y))
    rw [e1, e2, e3, e4]
    have step : ∀ {a b x w : ℚ}, (a ≤ b ∧ 0 < b) → x ≤ w → 0 ≤ w → double (a + x) ≤ double (b + w) ∧ 0 < double (b + w) :=
      fun h hx hw => ⟨double_mono (add_le_add h.1 hx), double_add_pos h.2 hw⟩
    have k1 : ∀ {P : Prop} [Decidable P], ∃ s1 : ℚ × ℚ, (if P then (Except.ok (double (st.1 + x1), double (st.2 + p.trueObjScale.weight)) :
        Except PyErr (ℚ × ℚ)) else .ok st) = .ok s1 ∧ s1.1 ≤ s1.2 ∧ 0 < s1.2 := by
      intro P _
      split_ifs
      · exact ⟨_, rfl, step h r1 hp.true'.1⟩
      · exact ⟨_, rfl, h⟩
    obtain ⟨s1, hs1, h1'⟩ := k1 (P := volume g.payload > 0)
    rw [hs1]
    simp only
    have k2 : ∀ {P : Prop} [Decidable P], ∃ s2 : ℚ × ℚ, (if P then (Except.ok (double (s1.1 + x2), double (s1.2 + p.relativeObjScale.weight)) :
        Except PyErr (ℚ × ℚ)) else .ok s1) = .ok s2 ∧ s2.1 ≤ s2.2 ∧ 0 < s2.2 := by
      intro P _
      split_ifs
      · exact ⟨_, rfl, step h1' r2 hp.rel.1⟩
      · exact ⟨_, rfl, h1'⟩
    obtain ⟨s2, hs2, h2'⟩ := k2 (P := double (volume g.payload * rs) > 0)
    rw [hs2]
    exact ⟨_, rfl, step (step h2' r3 hp.trans.1) r4 hp.elev.1⟩

theorem step_isDouble {L : PerceptualLib} {p : PerceptualParams} {sub gt : Elements ι σ PerceptualPayload} {rs : ℚ} {c : Corr ι σ τ}
    (hc : Linked sub gt c) {st st' : ℚ × ℚ} (h : perceptualStep L p sub gt rs st c = .ok st')
    (hst : IsDouble st.1 ∧ IsDouble st.2) : IsDouble st'.1 ∧ IsDouble st'.2 := by
  obtain ⟨d, g, h1, h2⟩ := hc
  unfold perceptualStep at h
  rw [Dict.get_eq_ok.2 h1, Dict.get_eq_ok.2 h2] at h
  simp only [bind, Except.bind, pure, Except.pure] at h
  split_ifs at h
  · cases h; exact hst
  all_goals
    repeat' split at h
    all_goals first
      | (cases h; exact ⟨double_isDouble _, double_isDouble _⟩)
      | cases h

/-- What a pair with the same box and place adds to a number. -/
def addPerfect (p : PerceptualParams) (g : Obj ι σ PerceptualPayload) (a : ℚ) : ℚ :=
  let b := if volume g.payload > 0 then double (double (a + p.trueObjScale.weight) + p.relativeObjScale.weight) else a
  double (double (b + p.translation.weight) + p.elevation.weight)

/-- A pair with the same box and place adds the same to score and maximum. -/
theorem step_perfect_eq {L : PerceptualLib} (hL : L.Lawful) {p : PerceptualParams} (hp : Sensible p)
    (m1 : p.trueObjScale.mean = 1) (m2 : p.relativeObjScale.mean = 1) (m3 : p.translation.mean = 0) (m4 : p.elevation.mean = 0)
    {sub gt : Elements ι σ PerceptualPayload} {c : Corr ι σ τ} {d g : Obj ι σ PerceptualPayload}
    (h1 : sub.get? c.detId = some d) (h2 : gt.get? c.gtId = some g)
    (hv : g.evaluated = true → volume d.payload = volume g.payload ∧ d.payload.t = g.payload.t) (st : ℚ × ℚ) :
    perceptualStep L p sub gt 1 st c = .ok (if g.evaluated then (addPerfect p g st.1, addPerfect p g st.2) else st) := by
  unfold perceptualStep
  rw [Dict.get_eq_ok.2 h1, Dict.get_eq_ok.2 h2]
  simp only [bind, Except.bind, pure, Except.pure]
  cases he : g.evaluated with
  | false => simp
  | true =>
    simp only [Bool.true_eq_false, if_false]
    obtain ⟨hvol, ht⟩ := hv he
    rw [hvol, ht, sub_self, sub_self, sub_self, double_zero, hL.norm_zero, mul_one, double_of_isDouble (volume_isDouble _)]
    have e3 := gaussian_mean hL hp.trans.2.1 hp.trans.2.2
    have e4 := gaussian_mean hL hp.elev.2.1 hp.elev.2.2
    have e1 := gaussian_mean hL hp.true'.2.1 hp.true'.2.2
    have e2 := gaussian_mean hL hp.rel.2.1 hp.rel.2.2
    rw [m3] at e3
    rw [m4] at e4
    rw [m1] at e1
    rw [m2] at e2
    rw [e3, e4]
    unfold addPerfect
    by_cases hg : volume g.payload > 0
    · rw [if_pos hg, div_self hg.ne', rnd_one, double_one, e1]
      simp only [if_pos hg, e2, if_true]
    · simp only [if_neg hg, if_true]

theorem addPerfect_pos {p : PerceptualParams} (hp : Sensible p) (g : Obj ι σ PerceptualPayload) {a : ℚ} (h : 0 < a) :
    0 < addPerfect p g a := by
  unfold addPerfect
  apply double_add_pos _ hp.elev.1
  apply double_add_pos _ hp.trans.1
  split_ifs
  · exact double_add_pos (double_add_pos h hp.true'.1) hp.rel.1
  · exact h

/-! ### Penalties -/

/-- Subtracting one after the other. -/
def subtractAll (s : ℚ) (l : List ℚ) : ℚ := l.foldl (fun s x => double (s - x)) s

/-- The penalties, in order. -/
def missedPens (p : PerceptualParams) (gt : Elements ι σ PerceptualPayload) (ids : List ι) : List ℚ :=
  ((ids.filterMap gt.get?).filter (fun g => g.evaluated)).map (fun g => double (p.missedWeight * volume g.payload))

/-- The penalties, in order. -/
def extraPens (p : PerceptualParams) (sub : Elements ι σ PerceptualPayload) (ids : List ι) : List ℚ :=
  (ids.filterMap sub.get?).map (fun g => double (p.extraWeight * volume g.payload))

theorem foldlM_missedD (p : PerceptualParams) (gt : Elements ι σ PerceptualPayload) (ids : List ι)
    (hl : ∀ i ∈ ids, i ∈ gt.keys) (s : ℚ) :
    ids.foldlM (fun s i => do
      let g ← gt.get i
      pure (if g.evaluated then double (s - double (p.missedWeight * volume g.payload)) else s)) s =
    (.ok (subtractAll s (missedPens p gt ids)) : Except PyErr ℚ) := by
  induction ids generalizing s with
  | nil => rfl
  | cons i ids ih =>
    obtain ⟨e, he⟩ : ∃ e, gt.get? i = some e :=
      (Dict.has_iff _ _).1 ((Dict.has_iff_mem_keys _ _).2 (hl i List.mem_cons_self))
    rw [List.foldlM_cons, Dict.get_eq_ok.2 he]
    simp only [bind, Except.bind, pure, Except.pure] at ih ⊢
    rw [ih (fun c hc => hl c (List.mem_cons_of_mem _ hc))]
    unfold missedPens
    rw [List.filterMap_cons_some he, List.filter_cons]
    by_cases hv : e.evaluated <;> simp [hv, subtractAll]

theorem foldlM_extraD (p : PerceptualParams) (sub : Elements ι σ PerceptualPayload) (ids : List ι)
    (hl : ∀ i ∈ ids, i ∈ sub.keys) (s : ℚ) :
    ids.foldlM (fun s i => do
      let d ← sub.get i
      pure (double (s - double (p.extraWeight * volume d.payload)))) s =
    (.ok (subtractAll s (extraPens p sub ids)) : Except PyErr ℚ) := by
  induction ids generalizing s with
  | nil => rfl
  | cons i ids ih =>
    obtain ⟨e, he⟩ : ∃ e, sub.get? i = some e :=
      (Dict.has_iff _ _).1 ((Dict.has_iff_mem_keys _ _).2 (hl i List.mem_cons_self))
    rw [List.foldlM_cons, Dict.get_eq_ok.2 he]
    simp only [bind, Except.bind, pure, Except.pure] at ih ⊢
    rw [ih (fun c hc => hl c (List.mem_cons_of_mem _ hc))]
    unfold extraPens
    rw [List.filterMap_cons_some he]
    simp [subtractAll]

theorem subtractAll_append (s : ℚ) (l k : List ℚ) : subtractAll s (l ++ k) = subtractAll (subtractAll s l) k := by
  simp [subtractAll]

theorem subtractAll_mono (l : List ℚ) {s s' : ℚ} (h : s ≤ s') : subtractAll s l ≤ subtractAll s' l := by
  induction l generalizing s s' with
  | nil => exact h
  | cons x l ih => exact ih (double_mono (by linarith))

/-- Subtracting from a double never increases it. -/
theorem subtractAll_le {l : List ℚ} (hl : ∀ x ∈ l, 0 ≤ x) {s m : ℚ} (h : s ≤ m) (hm : IsDouble m) : subtractAll s l ≤ m := by
  induction l generalizing s with
  | nil => exact h
  | cons x l ih =>
    have := hl x (by simp)
    exact ih (fun y hy => hl y (by simp [hy])) (double_le (by linarith) hm)

/-- An additional subtraction anywhere never increases the result. -/
theorem subtractAll_insert {x : ℚ} (hx : 0 ≤ x) (l k : List ℚ) {s : ℚ} (hs : IsDouble s) :
    subtractAll s (l ++ x :: k) ≤ subtractAll s (l ++ k) := by
  rw [subtractAll_append, subtractAll_append]
  have hd : IsDouble (subtractAll s l) := by
    induction l using List.reverseRecOn with
    | nil => exact hs
    | append_singleton l y _ => rw [subtractAll_append]; exact double_isDouble _
  exact subtractAll_mono k (double_le (by linarith) hd)

/-- The error of subtracting: as long as the result is positive every partial result is at most `m`; and if it is not, the
exact result is at most the error. -/
theorem subtractAll_err {l : List ℚ} (hl : ∀ x ∈ l, 0 ≤ x) {s m : ℚ} (hm0 : 0 < m) (h : s ≤ m) (hm : IsDouble m) :
    (0 < subtractAll s l → |subtractAll s l - (s - l.sum)| ≤ l.length * (m / 2 ^ 53)) ∧
    (subtractAll s l ≤ 0 → s - l.sum ≤ l.length * (m / 2 ^ 53)) := by
  induction l generalizing s with
  | nil => simp [subtractAll]
  | cons x l ih =>
    have hx := hl x (by simp)
    have hl' := fun y hy => hl y (List.mem_cons_of_mem x hy)
    have hsum := List.sum_nonneg hl'
    obtain ⟨i1, i2⟩ := ih hl' (s := double (s - x)) (double_le (by linarith) hm)
    change (0 < subtractAll (double (s - x)) l → |subtractAll (double (s - x)) l - _| ≤ _) ∧
      (subtractAll (double (s - x)) l ≤ 0 → _)
    rw [List.sum_cons, List.length_cons]
    push_cast
    by_cases hp : 0 < s - x
    · have hm0 : 0 < m := by linarith
      have he := double_err (s - x)
      rw [abs_of_pos hp] at he
      have he2 : (s - x) / 2 ^ 53 ≤ m / 2 ^ 53 := by
        apply div_le_div_of_nonneg_right _ (by norm_num)
        linarith
      have he' := abs_le.1 (he.trans he2)
      constructor
      · intro h0
        have := abs_le.1 (i1 h0)
        rw [abs_le]
        constructor <;> nlinarith [this.1, this.2, he'.1, he'.2]
      · intro h0
        have := i2 h0
        nlinarith [he'.1]
    · have hn : double (s - x) ≤ 0 := double_le (by linarith) isDouble_zero
      have hfin : subtractAll (double (s - x)) l ≤ 0 := subtractAll_le hl' hn isDouble_zero
      constructor
      · intro h0; exact absurd hfin (not_le.2 h0)
      · intro h0
        have : 0 ≤ (l.length + 1 : ℚ) * (m / 2 ^ 53) := by positivity
        linarith

/-! ### The score at a threshold -/

/-- The normalised score. -/
def normalised (s m : ℚ) : ℚ := if s ≤ 0 then 0 else double (s / m)

theorem normalised_range {s m : ℚ} (h : s ≤ m) (hm : 0 < m) : 0 ≤ normalised s m ∧ normalised s m ≤ 1 := by
  unfold normalised
  split_ifs with h0
  · norm_num
  · exact ⟨double_nonneg (div_nonneg (by linarith) hm.le), double_le_one ((div_le_one hm).2 h)⟩

theorem normalised_mono {s s' m : ℚ} (h : s ≤ s') (hm : 0 < m) : normalised s m ≤ normalised s' m := by
  unfold normalised
  split_ifs with h0 h1 h1
  · exact le_rfl
  · exact double_nonneg (div_nonneg (by linarith) hm.le)
  · linarith
  · exact double_mono (by gcongr)

theorem score1_of_state {L : PerceptualLib} {p : PerceptualParams} {ev : Evaluator ι σ τ PerceptualPayload}
    {m : Dict ι (Corr ι σ τ)} {x : ℚ} {st : ℚ × ℚ}
    (hx : gaussian L p.roomScale (roomScale ev.submission ev.groundTruth) = .ok x)
    (h1 : m.values.foldlM (perceptualStep L p ev.submission ev.groundTruth (roomScale ev.submission ev.groundTruth))
      (x, p.roomScale.weight) = .ok st) (h3 : st.2 ≠ 0) {missed extra : List ι}
    (hm : ∀ i ∈ missed, i ∈ ev.groundTruth.keys) (he : ∀ i ∈ extra, i ∈ ev.submission.keys) (n : Bool) :
    perceptualScore1 L p ev m missed extra n =
      .ok (if n then normalised (subtractAll st.1 (missedPens p ev.groundTruth missed ++ extraPens p ev.submission extra)) st.2
        else subtractAll st.1 (missedPens p ev.groundTruth missed ++ extraPens p ev.submission extra)) := by
  have e1 := foldlM_missedD p ev.groundTruth missed hm
  have e2 := foldlM_extraD p ev.submission extra he
  unfold perceptualScore1
  simp only [bind, Except.bind, pure, Except.pure] at e1 e2
  simp only [bind, Except.bind, hx, h1, e1, e2, pure, Except.pure, ← subtractAll_append, if_neg h3]
  unfold normalised
  split_ifs <;> rfl

/-- The state after the correspondences. -/
theorem matched_state {L : PerceptualLib} (hL : L.Lawful) {p : PerceptualParams} (hp : Sensible p)
    {ev : Evaluator ι σ τ PerceptualPayload} {m : Dict ι (Corr ι σ τ)}
    (hl : ∀ c ∈ m.values, Linked ev.submission ev.groundTruth c) :
    ∃ st : ℚ × ℚ, st.1 ≤ st.2 ∧ 0 < st.2 ∧ IsDouble st.1 ∧ IsDouble st.2 ∧
      ∀ missed extra : List ι, (∀ i ∈ missed, i ∈ ev.groundTruth.keys) → (∀ i ∈ extra, i ∈ ev.submission.keys) →
        ∀ n, perceptualScore1 L p ev m missed extra n =
          .ok (if n then normalised (subtractAll st.1 (missedPens p ev.groundTruth missed ++ extraPens p ev.submission extra)) st.2
            else subtractAll st.1 (missedPens p ev.groundTruth missed ++ extraPens p ev.submission extra)) := by
  obtain ⟨x, hx, -, hxw⟩ := gaussian_range hL hp.room.1.le hp.room.2.1 hp.room.2.2 (roomScale ev.submission ev.groundTruth)
  have hxd : IsDouble x := by
    unfold gaussian at hx
    split_ifs at hx
    cases hx
    exact double_isDouble _
  obtain ⟨st, h1, ⟨h2, h3⟩, h4⟩ := foldlM_invariant
    (fun st : ℚ × ℚ => (st.1 ≤ st.2 ∧ 0 < st.2) ∧ IsDouble st.1 ∧ IsDouble st.2) m.values
    (f := perceptualStep L p ev.submission ev.groundTruth (roomScale ev.submission ev.groundTruth))
    (fun c hc st hst => by
      obtain ⟨st', e, r⟩ := step_range hL hp (roomScale ev.submission ev.groundTruth) (hl c hc) st hst.1
      refine ⟨st', e, r, ?_⟩
      exact step_isDouble (hl c hc) e hst.2)
    (x, p.roomScale.weight) ⟨⟨hxw, hp.room.1⟩, hxd, hp.room.2.1⟩
  exact ⟨st, h2, h3, h4.1, h4.2, fun missed extra hm he n => score1_of_state hx h1 h3.ne' hm he n⟩

end Fl
end Sumo
