import Verif.Model.Perceptual
import Verif.Lemmas.PoseError

/-! # Helper lemmas: perceptual score -/

set_option linter.unusedSectionVars false

namespace Sumo
open AssocSpec

variable {ι σ τ : Type} [DecidableEq ι] [LinearOrder σ] [LinearOrder τ]

/-! ### Room scale -/

theorem foldl_add_if {α : Type} (l : List α) (P : α → Bool) (f : α → ℝ) (a : ℝ) :
    l.foldl (fun a e => if P e = true then a + f e else a) a = a + ((l.filter P).map f).sum := by
  induction l generalizing a with
  | nil => simp
  | cons e l ih =>
    rw [List.foldl_cons, ih, List.filter_cons]
    by_cases h : P e <;> simp [h, add_assoc]

theorem roomScale_eq (sub gt : Elements ι σ Payload) :
    roomScale sub gt =
      if ((gt.values.filter (fun e => e.category = "floor" ∧ e.evaluated = true)).map
          (fun e => floorSize e.payload.bounds)).sum > 0 then
        ((sub.values.filter (fun e => e.category = "floor")).map (fun e => floorSize e.payload.bounds)).sum /
        ((gt.values.filter (fun e => e.category = "floor" ∧ e.evaluated = true)).map
          (fun e => floorSize e.payload.bounds)).sum
      else 0 := by
  unfold roomScale
  have h1 := foldl_add_if gt.values (fun e => decide (e.category = "floor" ∧ e.evaluated = true))
    (fun e => floorSize e.payload.bounds) 0
  have h2 := foldl_add_if sub.values (fun e => decide (e.category = "floor"))
    (fun e => floorSize e.payload.bounds) 0
  simp only [decide_eq_true_eq, zero_add] at h1 h2
  simp only [h1, h2]

/-! ### Gaussians -/

/-- Non-zero standard deviations. -/
structure StdOk (p : PerceptualParams) : Prop where
  room : p.roomScale.stdDev ≠ 0
  true' : p.trueObjScale.stdDev ≠ 0
  rel : p.relativeObjScale.stdDev ≠ 0
  trans : p.translation.stdDev ≠ 0
  elev : p.elevation.stdDev ≠ 0

/-- Value of a Gaussian. -/
noncomputable def gauss (s : GaussParams) (x : ℝ) : ℝ :=
  s.weight * Real.exp (-0.5 * (x - s.mean) ^ 2 / s.stdDev ^ 2)

theorem gaussian_eq {s : GaussParams} (h : s.stdDev ≠ 0) (x : ℝ) : gaussian s x = .ok (gauss s x) := by
  unfold gaussian gauss
  rw [if_neg (pow_ne_zero 2 h)]

theorem gauss_range {s : GaussParams} (h : 0 ≤ s.weight) (x : ℝ) : 0 ≤ gauss s x ∧ gauss s x ≤ s.weight := by
  unfold gauss
  constructor
  · exact mul_nonneg h (Real.exp_pos _).le
  · have : Real.exp (-0.5 * (x - s.mean) ^ 2 / s.stdDev ^ 2) ≤ 1 := by
      rw [Real.exp_le_one_iff, neg_mul, neg_div]
      have := div_nonneg (mul_nonneg (by norm_num : (0:ℝ) ≤ 0.5) (sq_nonneg (x - s.mean))) (sq_nonneg s.stdDev)
      linarith
    nlinarith

theorem gauss_mean {s : GaussParams} {x : ℝ} (h : x = s.mean) : gauss s x = s.weight := by
  unfold gauss; rw [h]; simp

/-! ### One correspondence -/

/-- What an evaluated pair adds to the score. -/
noncomputable def pairScore (p : PerceptualParams) (rs : ℝ) (d g : Obj ι σ Payload) : ℝ :=
  (if g.payload.bounds.volume > 0 then
    gauss p.trueObjScale (d.payload.bounds.volume / g.payload.bounds.volume) else 0) +
  (if g.payload.bounds.volume * rs > 0 then
    gauss p.relativeObjScale (d.payload.bounds.volume / (g.payload.bounds.volume * rs)) else 0) +
  gauss p.translation (Real.sqrt ((d.payload.pose.t.x - g.payload.pose.t.x) ^ 2 +
      (d.payload.pose.t.z - g.payload.pose.t.z) ^ 2)) +
  gauss p.elevation (d.payload.pose.t.y - g.payload.pose.t.y)

/-- What an evaluated pair adds to the maximum. -/
noncomputable def pairMax (p : PerceptualParams) (rs : ℝ) (g : Obj ι σ Payload) : ℝ :=
  (if g.payload.bounds.volume > 0 then p.trueObjScale.weight else 0) +
  (if g.payload.bounds.volume * rs > 0 then p.relativeObjScale.weight else 0) +
  p.translation.weight + p.elevation.weight

theorem perceptualStep_eq {p : PerceptualParams} (hp : StdOk p) {sub gt : Elements ι σ Payload} (rs : ℝ)
    (st : ℝ × ℝ) {c : Corr ι σ τ} {d g : Obj ι σ Payload}
    (h1 : sub.get? c.detId = some d) (h2 : gt.get? c.gtId = some g) :
    perceptualStep p sub gt rs st c = .ok (if g.evaluated then
      (st.1 + pairScore p rs d g, st.2 + pairMax p rs g) else st) := by
  unfold perceptualStep
  rw [Dict.get_eq_ok.2 h1, Dict.get_eq_ok.2 h2]
  simp only [gaussian_eq hp.true', gaussian_eq hp.rel, gaussian_eq hp.trans, gaussian_eq hp.elev, bind, Except.bind,
    pure, Except.pure]
  cases he : g.evaluated with
  | false => simp
  | true =>
    simp only [Bool.true_eq_false, if_false, if_true]
    unfold pairScore pairMax
    split_ifs <;> simp <;> constructor <;> ring

theorem foldlM_perceptualStep {p : PerceptualParams} (hp : StdOk p) {sub gt : Elements ι σ Payload} (rs : ℝ)
    (cs : List (Corr ι σ τ)) (hl : ∀ c ∈ cs, Linked sub gt c) (st : ℝ × ℝ) :
    cs.foldlM (perceptualStep p sub gt rs) st = .ok
      (st.1 + ((evalPairs sub gt cs).map (fun q => pairScore p rs q.1 q.2)).sum,
       st.2 + ((evalPairs sub gt cs).map (fun q => pairMax p rs q.2)).sum) := by
  induction cs generalizing st with
  | nil => simp [evalPairs, pairsOf, pure, Except.pure]
  | cons c cs ih =>
    obtain ⟨d, g, h1, h2⟩ := hl c List.mem_cons_self
    rw [List.foldlM_cons, perceptualStep_eq hp rs st h1 h2]
    simp only [bind, Except.bind]
    rw [ih (fun c hc => hl c (List.mem_cons_of_mem _ hc))]
    unfold evalPairs
    rw [pairsOf_cons _ _ cs h1 h2, List.filter_cons]
    by_cases he : g.evaluated
    · simp [he, add_assoc]
    · simp [he]

/-! ### Penalties -/

/-- Elements behind ids. -/
def elementsOf (els : Elements ι σ Payload) (ids : List ι) : List (Obj ι σ Payload) := ids.filterMap els.get?

theorem foldlM_missed (p : PerceptualParams) (gt : Elements ι σ Payload) (ids : List ι)
    (hl : ∀ i ∈ ids, i ∈ gt.keys) (s : ℝ) :
    ids.foldlM (fun s i => do
      let g ← gt.get i
      pure (if g.evaluated then s - p.missedWeight * g.payload.bounds.volume else s)) s =
    (.ok (s - p.missedWeight * (((elementsOf gt ids).filter (fun g => g.evaluated)).map
      (fun g => g.payload.bounds.volume)).sum) : Except PyErr ℝ) := by
  induction ids generalizing s with
  | nil => simp [elementsOf, pure, Except.pure]
  | cons i ids ih =>
    obtain ⟨e, he⟩ : ∃ e, gt.get? i = some e :=
      (Dict.has_iff _ _).1 ((Dict.has_iff_mem_keys _ _).2 (hl i List.mem_cons_self))
    rw [List.foldlM_cons, Dict.get_eq_ok.2 he]
    simp only [bind, Except.bind, pure, Except.pure] at ih ⊢
    rw [ih (fun c hc => hl c (List.mem_cons_of_mem _ hc))]
    unfold elementsOf
    rw [List.filterMap_cons_some he, List.filter_cons]
    by_cases hv : e.evaluated
    · simp only [hv, if_true, List.map_cons, List.sum_cons]; congr 1; ring
    · simp [hv]

theorem foldlM_extra (p : PerceptualParams) (sub : Elements ι σ Payload) (ids : List ι)
    (hl : ∀ i ∈ ids, i ∈ sub.keys) (s : ℝ) :
    ids.foldlM (fun s i => do
      let d ← sub.get i
      pure (s - p.extraWeight * d.payload.bounds.volume)) s =
    (.ok (s - p.extraWeight * ((elementsOf sub ids).map (fun g => g.payload.bounds.volume)).sum) :
      Except PyErr ℝ) := by
  induction ids generalizing s with
  | nil => simp [elementsOf, pure, Except.pure]
  | cons i ids ih =>
    obtain ⟨e, he⟩ : ∃ e, sub.get? i = some e :=
      (Dict.has_iff _ _).1 ((Dict.has_iff_mem_keys _ _).2 (hl i List.mem_cons_self))
    rw [List.foldlM_cons, Dict.get_eq_ok.2 he]
    simp only [bind, Except.bind, pure, Except.pure] at ih ⊢
    rw [ih (fun c hc => hl c (List.mem_cons_of_mem _ hc))]
    unfold elementsOf
    rw [List.filterMap_cons_some he]
    simp only [List.map_cons, List.sum_cons]; congr 1; ring

/-- The raw score. -/
noncomputable def rawScore (p : PerceptualParams) (ev : Evaluator ι σ τ Payload)
    (m : Dict ι (Corr ι σ τ)) (missed extra : List ι) : ℝ :=
  gauss p.roomScale (roomScale ev.submission ev.groundTruth) +
  ((evalPairs ev.submission ev.groundTruth m.values).map
    (fun q => pairScore p (roomScale ev.submission ev.groundTruth) q.1 q.2)).sum -
  p.missedWeight * (((elementsOf ev.groundTruth missed).filter (fun g => g.evaluated)).map
      (fun g => g.payload.bounds.volume)).sum -
  p.extraWeight * ((elementsOf ev.submission extra).map (fun g => g.payload.bounds.volume)).sum

/-- The maximum. -/
noncomputable def maxScore (p : PerceptualParams) (ev : Evaluator ι σ τ Payload)
    (m : Dict ι (Corr ι σ τ)) : ℝ :=
  p.roomScale.weight + ((evalPairs ev.submission ev.groundTruth m.values).map
    (fun q => pairMax p (roomScale ev.submission ev.groundTruth) q.2)).sum

/-- `_perceptual_score_1` in closed form. -/
theorem perceptualScore1_eq {p : PerceptualParams} (hp : StdOk p) {ev : Evaluator ι σ τ Payload}
    {m : Dict ι (Corr ι σ τ)} {missed extra : List ι}
    (hl : ∀ c ∈ m.values, Linked ev.submission ev.groundTruth c)
    (hm : ∀ i ∈ missed, i ∈ ev.groundTruth.keys) (he : ∀ i ∈ extra, i ∈ ev.submission.keys) (n : Bool) :
    perceptualScore1 p ev m missed extra n =
      if n then
        if rawScore p ev m missed extra ≤ 0 then .ok 0
        else if maxScore p ev m = 0 then .error .zeroDivisionError
        else .ok (rawScore p ev m missed extra / maxScore p ev m)
      else .ok (rawScore p ev m missed extra) := by
  unfold perceptualScore1
  simp only [gaussian_eq hp.room]
  have h1 := foldlM_perceptualStep (τ := τ) hp (sub := ev.submission) (gt := ev.groundTruth)
    (roomScale ev.submission ev.groundTruth) m.values hl
    (gauss p.roomScale (roomScale ev.submission ev.groundTruth), p.roomScale.weight)
  have h2 := foldlM_missed p ev.groundTruth missed hm
  have h3 := foldlM_extra p ev.submission extra he
  simp only [bind, Except.bind, pure, Except.pure] at h2 h3
  simp only [bind, Except.bind, h1, h2, h3, pure, Except.pure]
  rfl

theorem pairScore_range {p : PerceptualParams} (h1 : 0 ≤ p.trueObjScale.weight)
    (h2 : 0 ≤ p.relativeObjScale.weight) (h3 : 0 ≤ p.translation.weight) (h4 : 0 ≤ p.elevation.weight)
    (rs : ℝ) (d g : Obj ι σ Payload) : 0 ≤ pairScore p rs d g ∧ pairScore p rs d g ≤ pairMax p rs g := by
  unfold pairScore pairMax
  have a := gauss_range h1 (d.payload.bounds.volume / g.payload.bounds.volume)
  have b := gauss_range h2 (d.payload.bounds.volume / (g.payload.bounds.volume * rs))
  have c := gauss_range h3 (Real.sqrt ((d.payload.pose.t.x - g.payload.pose.t.x) ^ 2 +
      (d.payload.pose.t.z - g.payload.pose.t.z) ^ 2))
  have e := gauss_range h4 (d.payload.pose.t.y - g.payload.pose.t.y)
  split_ifs <;> constructor <;> linarith [a.1, a.2, b.1, b.2, c.1, c.2, e.1, e.2]

theorem sum_map_le {α : Type} (l : List α) (f g : α → ℝ) (h : ∀ a ∈ l, f a ≤ g a) :
    (l.map f).sum ≤ (l.map g).sum := by
  induction l with
  | nil => simp
  | cons a l ih =>
    simp only [List.map_cons, List.sum_cons]
    exact add_le_add (h a List.mem_cons_self) (ih fun x hx => h x (List.mem_cons_of_mem _ hx))

theorem sum_map_nonneg {α : Type} (l : List α) (f : α → ℝ) (h : ∀ a ∈ l, 0 ≤ f a) : 0 ≤ (l.map f).sum := by
  apply List.sum_nonneg
  intro x hx
  obtain ⟨a, ha, rfl⟩ := List.mem_map.1 hx
  exact h a ha

theorem mem_elementsOf {els : Elements ι σ Payload} {ids : List ι} {e : Obj ι σ Payload}
    (h : e ∈ elementsOf els ids) : e ∈ els.values := by
  unfold elementsOf at h
  obtain ⟨i, -, hi⟩ := List.mem_filterMap.1 h
  exact Dict.mem_values.2 ⟨i, Dict.mem_of_get? hi⟩

/-! ### All thresholds -/

variable {sim : Obj ι σ Payload → Obj ι σ Payload → τ} {sub gt : Elements ι σ Payload} {s : AssocSettings τ}
  {ev : Evaluator ι σ τ Payload}

/-- `missed` at a threshold. -/
def missedAt (ev : Evaluator ι σ τ Payload) (t : τ) : List ι :=
  ev.groundTruth.keys.filter (fun i => !((assocAt ev.agnostic t).values.map Corr.gtId).contains i)

/-- `extra` at a threshold. -/
def extraAt (ev : Evaluator ι σ τ Payload) (t : τ) : List ι :=
  ev.submission.keys.filter (fun i => !((assocAt ev.agnostic t).values.map Corr.detId).contains i)

/-- The score at a threshold. -/
noncomputable def scoreAt (p : PerceptualParams) (ev : Evaluator ι σ τ Payload) (t : τ) : ℝ :=
  if rawScore p ev (assocAt ev.agnostic t) (missedAt ev t) (extraAt ev t) ≤ 0 then 0
  else rawScore p ev (assocAt ev.agnostic t) (missedAt ev t) (extraAt ev t) /
    maxScore p ev (assocAt ev.agnostic t)

theorem perceptualScore_eq {p : PerceptualParams} (hp : StdOk p)
    (h : Evaluator.build sim sub gt s = .ok ev) (hs : WellKeyed sub) (hg : WellKeyed gt)
    (hmax : ∀ t ∈ s.thresholds, maxScore p ev (assocAt ev.agnostic t) ≠ 0) :
    perceptualScore p ev = .ok (if s.thresholds = [] then none else
      some (meanR (ev.settings.thresholds.map (scoreAt p ev)))) := by
  obtain ⟨_, _, hsub, hgt, _, hset⟩ := build_ok h
  unfold perceptualScore
  rw [foldlM_append_ok (g := fun t => [scoreAt p ev t]) _ (by
    intro t ht acc
    have ht' := (mem_settings h).1 ht
    rw [agnostic_get h ht']
    simp only [bind, Except.bind]
    rw [perceptualScore1_eq hp (by rw [hsub, hgt]; exact linked_values h hs hg ht')
      (fun i hi => (List.mem_filter.1 hi).1) (fun i hi => (List.mem_filter.1 hi).1)]
    rw [if_pos rfl, if_neg (hmax t ht')]
    unfold scoreAt missedAt extraAt
    split_ifs <;> rfl)]
  have e : ∀ l : List τ, l.flatMap (fun t => [scoreAt p ev t]) = l.map (scoreAt p ev) := by
    intro l
    induction l with
    | nil => rfl
    | cons t l ih => rw [List.flatMap_cons, ih]; rfl
  simp only [bind, Except.bind, List.nil_append, pure, Except.pure, e, List.length_map, List.length_eq_zero_iff]
  congr 2
  rw [eq_iff_iff]
  constructor
  · intro h0
    rw [List.eq_nil_iff_forall_not_mem] at h0 ⊢
    exact fun t ht => h0 t ((mem_settings h).2 ht)
  · intro h0
    rw [List.eq_nil_iff_forall_not_mem] at h0 ⊢
    exact fun t ht => h0 t ((mem_settings h).1 ht)

end Sumo
