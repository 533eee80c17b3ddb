import Verif.Lemmas.FloatPoints
import Verif.Props.Points

/-!
# Point IoU in double precision (C145)

`points_iou` with every operation rounded.  The values keep their range, symmetry and value 1 on equal sets, and equal the
rounded exact IoU when no distance is within a few units in the last place of the threshold.  The early exit on bounding boxes
is then harmless.  Without that condition it is not: it can turn an IoU of 1 into 0.
-/

namespace Sumo
namespace FloatPointsSpec

/-- The query returns a point; which one is not said. -/
def InRange (nn : List (Vec3 ℚ) → Vec3 ℚ → ℕ) : Prop := ∀ pts p, pts ≠ [] → ∃ q, pts[nn pts p]? = some q

/-- The query returns a point whose computed distance is the smallest. -/
def IsNearestF (nn : List (Vec3 ℚ) → Vec3 ℚ → ℕ) : Prop :=
  ∀ pts p, pts ≠ [] → ∃ q, pts[nn pts p]? = some q ∧ ∀ r ∈ pts, Fl.fdist p q ≤ Fl.fdist p r

/-- The corners are ordered. -/
def Ordered (b : Box3d ℚ) : Prop :=
  b.minCorner.x ≤ b.maxCorner.x ∧ b.minCorner.y ≤ b.maxCorner.y ∧ b.minCorner.z ≤ b.maxCorner.z

/-- The lower corner consists of doubles. -/
def DoubleCorner (b : Box3d ℚ) : Prop := IsDouble b.minCorner.x ∧ IsDouble b.minCorner.y ∧ IsDouble b.minCorner.z

/-- All points lie in the closed box. -/
def InsideF (A : List (Vec3 ℚ)) (b : Box3d ℚ) : Prop := ∀ p ∈ A,
  (b.minCorner.x ≤ p.x ∧ p.x ≤ b.maxCorner.x) ∧ (b.minCorner.y ≤ p.y ∧ p.y ≤ b.maxCorner.y) ∧
  (b.minCorner.z ≤ p.z ∧ p.z ≤ b.maxCorner.z)

/-- A point as a point of real space. -/
def real (p : Vec3 ℚ) : Vec3 ℝ := ⟨p.x, p.y, p.z⟩

/-- No exact distance is nearly the threshold. -/
def Clear (A B : List (Vec3 ℚ)) (t : ℚ) : Prop := ∀ p ∈ A, ∀ q ∈ B,
  PointSpec.dist (real p) (real q) ≤ t * (1 - 1 / 2 ^ 49) ∨ t * (1 + 1 / 2 ^ 49) ≤ PointSpec.dist (real p) (real q)

end FloatPointsSpec

open FloatPointsSpec

theorem IsNearestF.inRange {nn : List (Vec3 ℚ) → Vec3 ℚ → ℕ} (h : IsNearestF nn) : InRange nn :=
  fun pts p hp => let ⟨q, hq, _⟩ := h pts p hp; ⟨q, hq⟩

/-- The contract can be met: the first point of smallest computed distance. -/
theorem exists_isNearestF : ∃ nn, IsNearestF nn := by
  have : ∀ (pts : List (Vec3 ℚ)) (p : Vec3 ℚ), ∃ i : ℕ, pts ≠ [] →
      ∃ q, pts[i]? = some q ∧ ∀ r ∈ pts, Fl.fdist p q ≤ Fl.fdist p r := by
    intro pts p
    by_cases h : pts = []
    · exact ⟨0, fun h' => absurd h h'⟩
    · obtain ⟨q, hq⟩ := Option.ne_none_iff_exists'.1 (mt List.argmin_eq_none.1 h : List.argmin (Fl.fdist p) pts ≠ none)
      obtain ⟨i, hi⟩ := List.mem_iff_getElem?.1 (List.argmin_mem hq)
      exact ⟨i, fun _ => ⟨q, hi, fun r hr => List.le_of_mem_argmin hr hq⟩⟩
  choose nn hnn using this
  exact ⟨nn, fun pts p h => hnn pts p h⟩

namespace Fl

theorem iouCount_range (nn : List (Vec3 ℚ) → Vec3 ℚ → ℕ) (A B : List (Vec3 ℚ)) (t : ℚ) :
    0 ≤ iouCount nn A B t ∧ iouCount nn A B t ≤ 1 := by
  have h1 : (nearestNeighbors nn A B).dist1to2.length ≤ A.length := by unfold nearestNeighbors; split_ifs <;> simp
  have h2 : (nearestNeighbors nn A B).dist2to1.length ≤ B.length := by unfold nearestNeighbors; split_ifs <;> simp
  have h3 := List.length_filter_le (fun d => decide (d ≤ t)) (nearestNeighbors nn A B).dist1to2
  have h4 := List.length_filter_le (fun d => decide (d ≤ t)) (nearestNeighbors nn A B).dist2to1
  unfold iouCount
  simp only
  split_ifs with h
  · norm_num
  · refine ⟨double_nonneg (by positivity), double_le_one ?_⟩
    apply div_le_one_of_le₀ _ (by positivity)
    exact_mod_cast (by omega)

/-- How many points of `A` the code counts. -/
def hits (A B : List (Vec3 ℚ)) (t : ℚ) : ℕ := A.countP (fun p => B.any (fun q => fdist p q ≤ t))

theorem filter_hits {nn : List (Vec3 ℚ) → Vec3 ℚ → ℕ} (h : IsNearestF nn) (A : List (Vec3 ℚ)) {B : List (Vec3 ℚ)} (hB : B ≠ []) (t : ℚ) :
    ((A.map (fun p => fdist p (B[nn B p]?.getD 0))).filter (fun d => d ≤ t)).length = hits A B t := by
  unfold hits
  rw [← List.countP_eq_length_filter, List.countP_map]
  apply List.countP_congr
  intro p _
  obtain ⟨q, hq, hm⟩ := h B p hB
  simp only [Function.comp, hq, Option.getD_some, decide_eq_true_eq, List.any_eq_true]
  exact ⟨fun e => ⟨q, List.mem_of_getElem? hq, e⟩, fun ⟨r, hr, e⟩ => (hm r hr).trans e⟩

theorem iouCount_eq {nn : List (Vec3 ℚ) → Vec3 ℚ → ℕ} (h : IsNearestF nn) (A B : List (Vec3 ℚ)) (t : ℚ) :
    iouCount nn A B t = double (((hits A B t + hits B A t : ℕ) : ℚ) / ((A.length + B.length : ℕ) : ℚ)) := by
  unfold iouCount nearestNeighbors
  by_cases hA : A = []
  · subst hA
    by_cases hB : B = []
    · subst hB; simp
    · simp [hits]
  by_cases hB : B = []
  · subst hB; simp [hits]
  have hn : ¬ (A.length = 0 ∨ B.length = 0) := by simp [hA, hB]
  simp only [if_neg hn]
  rw [filter_hits h A hB, filter_hits h B hA, if_neg (by have := List.length_pos_iff.2 hA; omega)]

theorem axisReject_comm (a b c d t : ℚ) : axisReject a b c d t = axisReject c d a b t := Bool.or_comm _ _

theorem quickReject_comm (b1 b2 : Box3d ℚ) (t : ℚ) : quickReject b1 b2 t = quickReject b2 b1 t := by
  unfold quickReject
  rw [axisReject_comm b1.minCorner.x, axisReject_comm b1.minCorner.y, axisReject_comm b1.minCorner.z]

/-- Rejection on one axis leaves an exact gap. -/
theorem gap_of_reject {lo hi t : ℚ} (hlo : IsDouble lo) (h : lo > double (hi + t)) : t < lo - hi := by
  by_contra hc
  push Not at hc
  exact absurd (le_double (by linarith : lo ≤ hi + t) hlo) (not_le.2 h)

theorem gap_cases {A B : List (Vec3 ℚ)} {b1 b2 : Box3d ℚ} {t : ℚ} (hA : InsideF A b1) (hB : InsideF B b2) (h1 : DoubleCorner b1)
    (h2 : DoubleCorner b2) (hr : quickReject b1 b2 t = true) : ∀ p ∈ A, ∀ q ∈ B,
    (t < p.x - q.x ∨ t < q.x - p.x) ∨ (t < p.y - q.y ∨ t < q.y - p.y) ∨ (t < p.z - q.z ∨ t < q.z - p.z) := by
  intro p hp q hq
  obtain ⟨⟨a1, a2⟩, ⟨a3, a4⟩, a5, a6⟩ := hA p hp
  obtain ⟨⟨c1, c2⟩, ⟨c3, c4⟩, c5, c6⟩ := hB q hq
  simp only [quickReject, axisReject, Bool.or_eq_true, decide_eq_true_eq] at hr
  rcases hr with ((h | h) | (h | h)) | (h | h)
  · left; left; have := gap_of_reject h1.1 h; linarith
  · left; right; have := gap_of_reject h2.1 h; linarith
  · right; left; left; have := gap_of_reject h1.2.1 h; linarith
  · right; left; right; have := gap_of_reject h2.2.1 h; linarith
  · right; right; left; have := gap_of_reject h1.2.2 h; linarith
  · right; right; right; have := gap_of_reject h2.2.2 h; linarith

theorem le_fdist_of_gap {p q : Vec3 ℚ} {t : ℚ} (ht : IsDouble t)
    (h : (t < p.x - q.x ∨ t < q.x - p.x) ∨ (t < p.y - q.y ∨ t < q.y - p.y) ∨ (t < p.z - q.z ∨ t < q.z - p.z)) : t ≤ fdist p q := by
  rcases lt_or_ge t 0 with h0 | h0
  · exact h0.le.trans (fdist_nonneg p q)
  have key : ∀ a b : ℚ, (t < a - b ∨ t < b - a) → double (t * t) ≤ double (double (a - b) * double (a - b)) := by
    intro a b hab
    apply double_mono
    rcases hab with hab | hab
    · exact mul_self_le_mul_self h0 (le_double hab.le ht)
    · rw [double_sub_sq]
      exact mul_self_le_mul_self h0 (le_double hab.le ht)
  obtain ⟨k1, k2, k3⟩ := coord_le_radicand p q
  apply le_sqrtD ht h0
  rcases h with h | h | h
  · exact (key _ _ h).trans k1
  · exact (key _ _ h).trans k2
  · exact (key _ _ h).trans k3

theorem real_dist_sq (p q : Vec3 ℚ) : PointSpec.dist (real p) (real q) ^ 2 = ((sqDist p q : ℚ) : ℝ) := by
  unfold PointSpec.dist real sqDist
  rw [Real.sq_sqrt (by positivity)]
  push_cast; rfl

/-- Away from the threshold the computed distances are compared correctly. -/
theorem fdist_le_iff {p q : Vec3 ℚ} {t : ℚ} (ht : 0 ≤ t)
    (h : PointSpec.dist (real p) (real q) ≤ t * (1 - 1 / 2 ^ 49) ∨ t * (1 + 1 / 2 ^ 49) ≤ PointSpec.dist (real p) (real q)) (h0 : 0 < t) :
    fdist p q ≤ t ↔ PointSpec.dist (real p) (real q) ≤ t := by
  obtain ⟨hl, hu⟩ := fdist_sq_rel p q
  have htR : (0 : ℝ) < t := by exact_mod_cast h0
  have hd := dist_nonneg' (real p) (real q)
  have hsq := real_dist_sq p q
  rcases h with h | h
  · have h1 : PointSpec.dist (real p) (real q) ≤ t := by nlinarith
    refine ⟨fun _ => h1, fun _ => ?_⟩
    have h2 : ((sqDist p q : ℚ) : ℝ) ≤ ((t * (1 - 1 / 2 ^ 49)) ^ 2 : ℚ) := by
      rw [← hsq]; push_cast; exact pow_le_pow_left₀ hd h 2
    have h3 : sqDist p q ≤ (t * (1 - 1 / 2 ^ 49)) ^ 2 := by exact_mod_cast h2
    have h4 : fdist p q ^ 2 ≤ t ^ 2 := by
      refine hu.trans ((mul_le_mul_of_nonneg_right h3 (by norm_num)).trans ?_)
      rw [mul_pow, mul_assoc]
      exact mul_le_of_le_one_right (sq_nonneg t) (by norm_num)
    exact (pow_le_pow_iff_left₀ (fdist_nonneg p q) ht (by norm_num)).1 h4
  · have h1 : ¬ PointSpec.dist (real p) (real q) ≤ t := by nlinarith
    refine ⟨fun hle => ?_, fun hle => absurd hle h1⟩
    exfalso
    have h2 : ((((t * (1 + 1 / 2 ^ 49)) ^ 2 : ℚ)) : ℝ) ≤ ((sqDist p q : ℚ) : ℝ) := by
      rw [← hsq]; push_cast; exact pow_le_pow_left₀ (by positivity) h 2
    have h3 : (t * (1 + 1 / 2 ^ 49)) ^ 2 ≤ sqDist p q := by exact_mod_cast h2
    have h4 := (mul_le_mul_of_nonneg_right h3 (by norm_num : (0 : ℚ) ≤ 1 - 1 / 2 ^ 49)).trans hl
    have h5 : fdist p q ^ 2 ≤ t ^ 2 := pow_le_pow_left₀ (fdist_nonneg p q) hle 2
    have h6 : t ^ 2 < (t * (1 + 1 / 2 ^ 49)) ^ 2 * (1 - 1 / 2 ^ 49) := by
      rw [mul_pow, mul_assoc]
      exact lt_mul_of_one_lt_right (by positivity) (by norm_num)
    linarith

theorem hits_eq {A B : List (Vec3 ℚ)} {t : ℚ} (h0 : 0 < t) (hc : Clear A B t) : hits A B t = PointSpec.near (A.map real) (B.map real) t := by
  unfold hits PointSpec.near
  rw [List.countP_map]
  apply List.countP_congr
  intro p hp
  simp only [Function.comp, decide_eq_true_eq, List.any_eq_true, List.mem_map]
  constructor
  · rintro ⟨q, hq, e⟩
    exact ⟨_, ⟨q, hq, rfl⟩, (fdist_le_iff h0.le (hc p hp q hq) h0).1 e⟩
  · rintro ⟨_, ⟨q, hq, rfl⟩, e⟩
    exact ⟨q, hq, (fdist_le_iff h0.le (hc p hp q hq) h0).2 e⟩

theorem clear_symm {A B : List (Vec3 ℚ)} {t : ℚ} (h : Clear A B t) : Clear B A t := by
  intro p hp q hq
  rw [dist_comm' (real p)]
  exact h q hq p hp

end Fl
open Fl

variable {nn : List (Vec3 ℚ) → Vec3 ℚ → ℕ}

/-- **C145** the computed IoU is between 0 and 1, whatever points the query returns. -/
theorem C145_range (A B : List (Vec3 ℚ)) (b1 b2 : Box3d ℚ) (t : ℚ) :
    0 ≤ Fl.pointsIou nn A b1 B b2 t ∧ Fl.pointsIou nn A b1 B b2 t ≤ 1 := by
  unfold Fl.pointsIou
  split_ifs
  · norm_num
  · exact iouCount_range nn A B t

/-- **C145** the computed IoU does not depend on which set comes first. -/
theorem C145_symmetric (h : IsNearestF nn) (A B : List (Vec3 ℚ)) (b1 b2 : Box3d ℚ) (t : ℚ) :
    Fl.pointsIou nn A b1 B b2 t = Fl.pointsIou nn B b2 A b1 t := by
  unfold Fl.pointsIou
  rw [Fl.quickReject_comm b1 b2, iouCount_eq h, iouCount_eq h, Nat.add_comm (hits A B t), Nat.add_comm A.length]

/-- **C145** the computed IoU of a set with itself is exactly 1. -/
theorem C145_self (h : IsNearestF nn) {A : List (Vec3 ℚ)} (hA : A ≠ []) {b : Box3d ℚ} {t : ℚ} (ht : 0 ≤ t) (hb : Ordered b)
    (hd : DoubleCorner b) : Fl.pointsIou nn A b A b t = 1 := by
  have hr : Fl.quickReject b b t = false := by
    rw [Bool.eq_false_iff]
    intro hr
    simp only [Fl.quickReject, Fl.axisReject, Bool.or_self, Bool.or_eq_true, decide_eq_true_eq] at hr
    rcases hr with (hr | hr) | hr
    · have := gap_of_reject hd.1 hr; linarith [hb.1]
    · have := gap_of_reject hd.2.1 hr; linarith [hb.2.1]
    · have := gap_of_reject hd.2.2 hr; linarith [hb.2.2]
  unfold Fl.pointsIou
  rw [hr, if_neg (by simp), iouCount_eq h]
  have : hits A A t = A.length := by
    unfold hits
    rw [List.countP_eq_length]
    intro p hp
    rw [List.any_eq_true]
    exact ⟨p, hp, by simp [fdist_self, ht]⟩
  rw [this, div_self, double_one]
  have := List.length_pos_iff.2 hA
  exact_mod_cast (by omega : A.length + A.length ≠ 0)

/-- **C145** when no distance is within a factor `1 ± 2^-49` of the threshold, the computed value is the exact IoU, rounded once:
neither the rounded distances nor the early exit change which points count. -/
theorem C145_exact (h : IsNearestF nn) {A B : List (Vec3 ℚ)} {b1 b2 : Box3d ℚ} {t : ℚ} (h0 : 0 < t) (hA : InsideF A b1)
    (hB : InsideF B b2) (h1 : DoubleCorner b1) (h2 : DoubleCorner b2) (hc : Clear A B t) :
    ∃ v : ℚ, (v : ℝ) = PointSpec.iou (A.map real) (B.map real) t ∧ Fl.pointsIou nn A b1 B b2 t = double v := by
  refine ⟨((hits A B t + hits B A t : ℕ) : ℚ) / ((A.length + B.length : ℕ) : ℚ), ?_, ?_⟩
  · unfold PointSpec.iou
    rw [hits_eq h0 hc, hits_eq h0 (clear_symm hc), List.length_map, List.length_map]
    push_cast; rfl
  · unfold Fl.pointsIou
    split_ifs with hr
    · have far := gap_cases hA hB h1 h2 hr
      have none : ∀ p ∈ A, ∀ q ∈ B, ¬ fdist p q ≤ t := by
        intro p hp q hq hle
        have hd := (fdist_le_iff h0.le (hc p hp q hq) h0).1 hle
        obtain ⟨k1, k2, k3⟩ := coord_le_dist (real p) (real q)
        have cast : ∀ a b : ℚ, (t < a - b ∨ t < b - a) → (t : ℝ) < |(a : ℝ) - b| := by
          intro a b hab
          rcases hab with hab | hab
          · exact lt_of_lt_of_le (by exact_mod_cast hab) (le_abs_self _)
          · rw [abs_sub_comm]; exact lt_of_lt_of_le (by exact_mod_cast hab) (le_abs_self _)
        rcases far p hp q hq with h | h | h
        · exact absurd (k1.trans hd) (not_le.2 (cast _ _ h))
        · exact absurd (k2.trans hd) (not_le.2 (cast _ _ h))
        · exact absurd (k3.trans hd) (not_le.2 (cast _ _ h))
      have z1 : hits A B t = 0 := by
        unfold hits
        rw [List.countP_eq_zero]
        intro p hp
        simp only [List.any_eq_true, decide_eq_true_eq, not_exists, not_and]
        exact fun q hq => none p hp q hq
      have z2 : hits B A t = 0 := by
        unfold hits
        rw [List.countP_eq_zero]
        intro p hp
        simp only [List.any_eq_true, decide_eq_true_eq, not_exists, not_and]
        intro q hq; rw [fdist_comm]; exact none q hq p hp
      rw [z1, z2]; simp
    · exact iouCount_eq h A B t

/-- **C145** (partial: for computed distances equal to the threshold the early exit can still change the value, see `C145_false`.)
After an early exit no computed distance is below the threshold. -/
theorem C145_reject_partial {A B : List (Vec3 ℚ)} {b1 b2 : Box3d ℚ} {t : ℚ} (ht : IsDouble t) (hA : InsideF A b1) (hB : InsideF B b2)
    (h1 : DoubleCorner b1) (h2 : DoubleCorner b2) (hr : Fl.quickReject b1 b2 t = true) : ∀ p ∈ A, ∀ q ∈ B, t ≤ fdist p q :=
  fun p hp q hq => le_fdist_of_gap ht (gap_cases hA hB h1 h2 hr p hp q hq)

namespace FloatPointsExample

def t : ℚ := 1
def p : Vec3 ℚ := ⟨1 / 4 + 1 / 2 ^ 54, 0, 0⟩
def q : Vec3 ℚ := ⟨-(3 / 4), 0, 0⟩
def box (p : Vec3 ℚ) : Box3d ℚ := ⟨p, p⟩

theorem inside_box (p : Vec3 ℚ) : InsideF [p] (box p) := by
  intro r hr
  rw [List.mem_singleton] at hr
  subst hr
  exact ⟨⟨le_rfl, le_rfl⟩, ⟨le_rfl, le_rfl⟩, le_rfl, le_rfl⟩

theorem corner_p : DoubleCorner (box p) :=
  ⟨⟨2 ^ 52 + 1, -54, by norm_num, by norm_num [box, p, zpow_neg]⟩, isDouble_zero, isDouble_zero⟩

theorem corner_q : DoubleCorner (box q) :=
  ⟨⟨-3, -2, by norm_num, by norm_num [box, q, zpow_neg]⟩, isDouble_zero, isDouble_zero⟩

end FloatPointsExample
open FloatPointsExample

/-- **C145** the early exit on bounding boxes changes the computed IoU: two single points whose computed distance is the
threshold overlap completely, but their own bounding boxes are rejected.  All numbers involved are doubles. -/
theorem C145_false : ∃ (A B : List (Vec3 ℚ)) (b1 b2 : Box3d ℚ) (t : ℚ), IsDouble t ∧ InsideF A b1 ∧ InsideF B b2 ∧ DoubleCorner b1 ∧
    DoubleCorner b2 ∧ ∀ nn, IsNearestF nn → Fl.iouCount nn A B t = 1 ∧ Fl.pointsIou nn A b1 B b2 t = 0 := by
  refine ⟨[p], [q], box p, box q, t, isDouble_one, inside_box p, inside_box q, corner_p, corner_q, fun nn h => ⟨?_, ?_⟩⟩
  · rw [iouCount_eq h]; decide +kernel
  · unfold Fl.pointsIou
    rw [if_pos (by decide +kernel)]

/-- A case of `C145_exact` where one of three points overlaps: the value is the double nearest to 2/3. -/
example (h : IsNearestF nn) : Fl.pointsIou nn [⟨0, 0, 0⟩, ⟨8, 0, 0⟩] ⟨⟨0, 0, 0⟩, ⟨8, 0, 0⟩⟩ [⟨1 / 4, 0, 0⟩] (box ⟨1 / 4, 0, 0⟩) (1 / 2) = double (2 / 3) := by
  unfold Fl.pointsIou
  rw [if_neg (by decide +kernel), iouCount_eq h]
  decide +kernel

/-- The hypotheses of `C145_exact` hold there. -/
example : InsideF [⟨0, 0, 0⟩] (box ⟨0, 0, 0⟩) ∧ Clear [⟨0, 0, 0⟩] [⟨1 / 4, 0, 0⟩] (1 / 2) := by
  refine ⟨inside_box _, ?_⟩
  intro p hp q hq
  rw [List.mem_singleton] at hp hq
  subst hp hq
  left
  unfold PointSpec.dist real
  rw [Real.sqrt_le_left (by norm_num)]
  norm_num

end Sumo
