import Verif.Model.FloatBBox
import Verif.Spec.FloatBBox
import Verif.Props.FloatPose
import Verif.Props.BBox

/-!
# C152: the bounding-box track survives rounding
-/

namespace Sumo
open FloatPoseSpec FloatPointsSpec FloatBBoxSpec BoxSpec

theorem hull_inside {l : List (Vec3 ℚ)} {q : Vec3 ℚ} (h : InHull l q) : Mem (bboxOfPoints l) q := by
  have hb := Fl.bbox_inside l
  have hx1 := h 1 0 0 (bboxOfPoints l).maxCorner.x fun p hp => by linarith [(hb p hp).1.2]
  have hx2 := h (-1) 0 0 (-(bboxOfPoints l).minCorner.x) fun p hp => by linarith [(hb p hp).1.1]
  have hy1 := h 0 1 0 (bboxOfPoints l).maxCorner.y fun p hp => by linarith [(hb p hp).2.1.2]
  have hy2 := h 0 (-1) 0 (-(bboxOfPoints l).minCorner.y) fun p hp => by linarith [(hb p hp).2.1.1]
  have hz1 := h 0 0 1 (bboxOfPoints l).maxCorner.z fun p hp => by linarith [(hb p hp).2.2.2]
  have hz2 := h 0 0 (-1) (-(bboxOfPoints l).minCorner.z) fun p hp => by linarith [(hb p hp).2.2.1]
  exact ⟨⟨by linarith, by linarith⟩, ⟨by linarith, by linarith⟩, by linarith, by linarith⟩

theorem reject_cases {b1 b2 : Box3d ℚ} (h : bbReject b1 b2 = true) :
    (b2.maxCorner.x < b1.minCorner.x ∨ b1.maxCorner.x < b2.minCorner.x) ∨
    (b2.maxCorner.y < b1.minCorner.y ∨ b1.maxCorner.y < b2.minCorner.y) ∨
    (b2.maxCorner.z < b1.minCorner.z ∨ b1.maxCorner.z < b2.minCorner.z) := by
  simpa [bbReject] using h

/-- **C152** Whatever the library's matrix product returns, if the quick rejection fires the solids handed to the library have no
point in common (not even their convex hulls), and the similarity is 0. -/
theorem C152_reject (mul : Mat3 ℚ → List (Vec3 ℚ) → List (Vec3 ℚ)) (e1 e2 : BoxedElement ℚ)
    (h : bbReject (Fl.posedBbox mul e1.pose.R e1.pose.t e1.bounds) (Fl.posedBbox mul e2.pose.R e2.pose.t e2.bounds) = true) :
    (∀ vol iv, Fl.bbSimilarity mul vol iv e1 e2 = some 0) ∧
    ¬ ∃ q, InHull (Fl.bbox2pymesh mul e1.pose.R e1.pose.t e1.bounds).1 q ∧
      InHull (Fl.bbox2pymesh mul e2.pose.R e2.pose.t e2.bounds).1 q := by
  refine ⟨fun vol iv => by simp [Fl.bbSimilarity, h], ?_⟩
  rintro ⟨q, h1, h2⟩
  have m1 : Mem (Fl.posedBbox mul e1.pose.R e1.pose.t e1.bounds) q := hull_inside h1
  have m2 : Mem (Fl.posedBbox mul e2.pose.R e2.pose.t e2.bounds) q := hull_inside h2
  obtain ⟨⟨a1, a2⟩, ⟨a3, a4⟩, a5, a6⟩ := m1
  obtain ⟨⟨b1, b2⟩, ⟨b3, b4⟩, b5, b6⟩ := m2
  rcases reject_cases h with (h | h) | (h | h) | (h | h) <;> linarith

/-- The rounded coordinate of a corner is near the exact one. -/
theorem posed_coord_near {a b c t B x : ℚ} {p : Vec3 ℚ} (ha : |a| ≤ 2) (hb : |b| ≤ 2) (hc : |c| ≤ 2) (ht : |t| ≤ B)
    (px : |p.x| ≤ B) (py : |p.y| ≤ B) (pz : |p.z| ≤ B) (h : Dotted a b c p x) :
    |double (x + t) - (a * p.x + b * p.y + c * p.z + t)| ≤ B / 2 ^ 47 := by
  have hB : 0 ≤ B := (abs_nonneg _).trans ht
  have size : ∀ {a p : ℚ}, |a| ≤ 2 → |p| ≤ B → |a * p| ≤ 2 * B := fun {a p} h h' => by
    rw [abs_mul]; exact mul_le_mul h h' (abs_nonneg _) (by norm_num)
  have s1 := size ha px
  have s2 := size hb py
  have s3 := size hc pz
  unfold Dotted at h
  have e := double_err (x + t)
  have h' : |x - (a * p.x + b * p.y + c * p.z)| ≤ 6 * B / 2 ^ 50 := h.trans (by gcongr; linarith)
  have hx : |x + t| ≤ 6 * B / 2 ^ 50 + 7 * B := by
    have : x + t = (x - (a * p.x + b * p.y + c * p.z)) + (a * p.x + (b * p.y + (c * p.z + t))) := by ring
    rw [this]
    refine (abs_add_le _ _).trans (add_le_add h' ?_)
    refine (abs_add_le _ _).trans ?_
    have t1 := abs_add_le (b * p.y) (c * p.z + t)
    have t2 := abs_add_le (c * p.z) t
    linarith
  have : double (x + t) - (a * p.x + b * p.y + c * p.z + t) =
      (double (x + t) - (x + t)) + (x - (a * p.x + b * p.y + c * p.z)) := by ring
  rw [this]
  refine (abs_add_le _ _).trans ?_
  linarith

/-- The box of the rounded corners, grown by the rounding error, holds the exact posed solid. -/
theorem posed_exact_inside {mul : Mat3 ℚ → List (Vec3 ℚ) → List (Vec3 ℚ)} (hm : Accurate mul) {e : BoxedElement ℚ} {B : ℚ}
    (hB : Sized B e) {q : Vec3 ℚ} (hq : PosedMem e q) :
    let b := Fl.posedBbox mul e.pose.R e.pose.t e.bounds
    (b.minCorner.x - B / 2 ^ 47 ≤ q.x ∧ q.x ≤ b.maxCorner.x + B / 2 ^ 47) ∧
    (b.minCorner.y - B / 2 ^ 47 ≤ q.y ∧ q.y ≤ b.maxCorner.y + B / 2 ^ 47) ∧
    (b.minCorner.z - B / 2 ^ 47 ≤ q.z ∧ q.z ≤ b.maxCorner.z + B / 2 ^ 47) := by
  intro b
  obtain ⟨p, hp, rfl⟩ := hq
  obtain ⟨hc, ⟨tx, ty, tz⟩, ⟨r00, r01, r02⟩, ⟨r10, r11, r12⟩, r20, r21, r22⟩ := hB
  have near : ∀ v ∈ e.bounds.corners, ∃ w, Mem b w ∧
      |w.x - (e.pose.R.m00 * v.x + e.pose.R.m01 * v.y + e.pose.R.m02 * v.z + e.pose.t.x)| ≤ B / 2 ^ 47 ∧
      |w.y - (e.pose.R.m10 * v.x + e.pose.R.m11 * v.y + e.pose.R.m12 * v.z + e.pose.t.y)| ≤ B / 2 ^ 47 ∧
      |w.z - (e.pose.R.m20 * v.x + e.pose.R.m21 * v.y + e.pose.R.m22 * v.z + e.pose.t.z)| ≤ B / 2 ^ 47 := by
    intro v hv
    obtain ⟨u, hu, hd⟩ := (Fl.forall₂_exists (hm e.pose.R e.bounds.corners)).2 v hv
    obtain ⟨cx, cy, cz⟩ := hc v hv
    refine ⟨⟨double (u.x + e.pose.t.x), double (u.y + e.pose.t.y), double (u.z + e.pose.t.z)⟩, ?_,
      posed_coord_near r00 r01 r02 tx cx cy cz hd.1, posed_coord_near r10 r11 r12 ty cx cy cz hd.2.1,
      posed_coord_near r20 r21 r22 tz cx cy cz hd.2.2⟩
    exact Fl.bbox_inside (Fl.transformAllFrom mul e.pose.R e.pose.t e.bounds.corners) _ (List.mem_map.2 ⟨u, hu, rfl⟩)
  have low : ∀ a0 a1 a2 t : ℚ, ∃ v ∈ e.bounds.corners,
      a0 * v.x + a1 * v.y + a2 * v.z + t ≤ a0 * p.x + a1 * p.y + a2 * p.z + t := by
    intro a0 a1 a2 t
    obtain ⟨v, hv, h⟩ := exists_corner e.bounds (-a0) (-a1) (-a2) (-t) p hp
    exact ⟨v, hv, by linarith⟩
  refine ⟨⟨?_, ?_⟩, ⟨?_, ?_⟩, ?_, ?_⟩
  · obtain ⟨v, hv, h⟩ := low e.pose.R.m00 e.pose.R.m01 e.pose.R.m02 e.pose.t.x
    obtain ⟨w, hw, n, -⟩ := near v hv
    have := hw.1.1; have := (abs_le.1 n).2
    exact le_trans (by linarith) h
  · obtain ⟨v, hv, h⟩ := exists_corner e.bounds e.pose.R.m00 e.pose.R.m01 e.pose.R.m02 e.pose.t.x p hp
    obtain ⟨w, hw, n, -⟩ := near v hv
    have := hw.1.2; have := (abs_le.1 n).1
    exact le_trans h (by linarith)
  · obtain ⟨v, hv, h⟩ := low e.pose.R.m10 e.pose.R.m11 e.pose.R.m12 e.pose.t.y
    obtain ⟨w, hw, -, n, -⟩ := near v hv
    have := hw.2.1.1; have := (abs_le.1 n).2
    exact le_trans (by linarith) h
  · obtain ⟨v, hv, h⟩ := exists_corner e.bounds e.pose.R.m10 e.pose.R.m11 e.pose.R.m12 e.pose.t.y p hp
    obtain ⟨w, hw, -, n, -⟩ := near v hv
    have := hw.2.1.2; have := (abs_le.1 n).1
    exact le_trans h (by linarith)
  · obtain ⟨v, hv, h⟩ := low e.pose.R.m20 e.pose.R.m21 e.pose.R.m22 e.pose.t.z
    obtain ⟨w, hw, -, -, n⟩ := near v hv
    have := hw.2.2.1; have := (abs_le.1 n).2
    exact le_trans (by linarith) h
  · obtain ⟨v, hv, h⟩ := exists_corner e.bounds e.pose.R.m20 e.pose.R.m21 e.pose.R.m22 e.pose.t.z p hp
    obtain ⟨w, hw, -, -, n⟩ := near v hv
    have := hw.2.2.2; have := (abs_le.1 n).1
    exact le_trans h (by linarith)

/-- **C152** Against the exact posed boxes: if the quick rejection fires although they touch, then along one axis they overlap by
at most `2^-46` times the largest coordinate involved. -/
theorem C152_depth {mul : Mat3 ℚ → List (Vec3 ℚ) → List (Vec3 ℚ)} (hm : Accurate mul) {e1 e2 : BoxedElement ℚ} {B : ℚ}
    (h1 : Sized B e1) (h2 : Sized B e2)
    (h : bbReject (Fl.posedBbox mul e1.pose.R e1.pose.t e1.bounds) (Fl.posedBbox mul e2.pose.R e2.pose.t e2.bounds) = true) :
    (∃ f ∈ [Vec3.x, Vec3.y, Vec3.z],
      (∀ q1 q2, PosedMem e1 q1 → PosedMem e2 q2 → f q2 ≤ f q1 + B / 2 ^ 46) ∨
      (∀ q1 q2, PosedMem e1 q1 → PosedMem e2 q2 → f q1 ≤ f q2 + B / 2 ^ 46)) := by
  have i1 := fun q => posed_exact_inside hm h1 (q := q)
  have i2 := fun q => posed_exact_inside hm h2 (q := q)
  rcases reject_cases h with (h | h) | (h | h) | (h | h)
  · exact ⟨Vec3.x, by simp, .inl fun q1 q2 m1 m2 => by have := (i1 q1 m1).1.1; have := (i2 q2 m2).1.2; linarith⟩
  · exact ⟨Vec3.x, by simp, .inr fun q1 q2 m1 m2 => by have := (i1 q1 m1).1.2; have := (i2 q2 m2).1.1; linarith⟩
  · exact ⟨Vec3.y, by simp, .inl fun q1 q2 m1 m2 => by have := (i1 q1 m1).2.1.1; have := (i2 q2 m2).2.1.2; linarith⟩
  · exact ⟨Vec3.y, by simp, .inr fun q1 q2 m1 m2 => by have := (i1 q1 m1).2.1.2; have := (i2 q2 m2).2.1.1; linarith⟩
  · exact ⟨Vec3.z, by simp, .inl fun q1 q2 m1 m2 => by have := (i1 q1 m1).2.2.1; have := (i2 q2 m2).2.2.2; linarith⟩
  · exact ⟨Vec3.z, by simp, .inr fun q1 q2 m1 m2 => by have := (i1 q1 m1).2.2.2; have := (i2 q2 m2).2.2.1; linarith⟩

theorem isDouble_abs {x : ℚ} (h : IsDouble x) : IsDouble |x| := by
  rcases abs_choice x with e | e <;> rw [e]
  exacts [h, isDouble_neg h]

/-- **C152** The ratio, when the library's intersection is no larger than either solid: the result is NaN exactly if both solids
are flat; otherwise it lies in `[0, 1]` and differs from the exact ratio of the three volumes by at most `5 · 2^-53` of it. -/
theorem C152_ratio {v1 v2 i : ℚ} (d : IsDouble i) (h1 : |i| ≤ |v1|) (h2 : |i| ≤ |v2|) :
    (Fl.bbIou v1 v2 i = none ↔ v1 = 0 ∧ v2 = 0) ∧
    ∀ s, Fl.bbIou v1 v2 i = some s → 0 ≤ s ∧ s ≤ 1 ∧
      |s - |i| / (|v1| + |v2| - |i|)| ≤ 5 / 2 ^ 53 * (|i| / (|v1| + |v2| - |i|)) := by
  set I := |i| with hI
  set V := |v1| + |v2| with hV
  have I0 : 0 ≤ I := abs_nonneg _
  have dI : IsDouble I := isDouble_abs d
  have d2 : IsDouble (2 * I) := by
    have := isDouble_mul_zpow dI 1
    rwa [zpow_one, mul_comm] at this
  have le2 : 2 * I ≤ double V := le_double (by rw [hV]; linarith) d2
  have leU : I ≤ double (double V - I) := le_double (by linarith) dI
  have V0 : 0 ≤ V := by rw [hV]; positivity
  have zero : double (double V - I) = 0 ↔ v1 = 0 ∧ v2 = 0 := by
    constructor
    · intro h
      have hi : I = 0 := by linarith
      rw [hi, sub_zero, double_double] at h
      have hV0 : V = 0 := by
        by_contra hne
        exact (double_pos (lt_of_le_of_ne V0 (Ne.symm hne))).ne' h
      have := abs_nonneg v1; have := abs_nonneg v2
      exact ⟨abs_eq_zero.1 (by linarith), abs_eq_zero.1 (by linarith)⟩
    · rintro ⟨rfl, rfl⟩
      have hi : I = 0 := by rw [abs_zero] at h1; linarith
      rw [hi, hV]; simp
  unfold Fl.bbIou
  dsimp only
  rw [← hI, ← hV]
  constructor
  · rw [← zero]; split_ifs with h <;> simp [h]
  · intro s hs
    split_ifs at hs with h
    simp only [Option.some.injEq] at hs
    subst hs
    set U := double (double V - I) with hU
    have U0 : 0 < U := lt_of_le_of_ne (I0.trans leU) (Ne.symm h)
    refine ⟨double_nonneg (div_nonneg I0 U0.le), double_le_one ((div_le_one U0).2 leU), ?_⟩
    -- the exact union
    have Vpos : 0 < V := by
      rcases V0.lt_or_eq with h' | h'
      · exact h'
      · rw [← h', double_zero] at hU
        rw [← h', double_zero] at le2
        have : I = 0 := by linarith
        rw [this] at hU
        simp at hU
        exact absurd hU h
    have W : V / 2 ≤ V - I := by rw [hV]; linarith
    have W0 : 0 < V - I := by linarith
    have e1 := double_err V
    have e2 := double_err (double V - I)
    rw [abs_of_pos Vpos] at e1
    rw [abs_of_nonneg (by linarith : 0 ≤ double V - I), ← hU] at e2
    have e1a := (abs_le.1 e1).1
    have e1b := (abs_le.1 e1).2
    have e2a := (abs_le.1 e2).1
    have e2b := (abs_le.1 e2).2
    have up : U ≤ (V - I) * (1 + 3.5 / 2 ^ 53) := by nlinarith
    have lo : (V - I) * (1 - 3 / 2 ^ 53) ≤ U := by nlinarith
    have r0 : 0 ≤ I / (V - I) := div_nonneg I0 W0.le
    have f1 : I / U ≤ I / (V - I) * (1 + 3.5 / 2 ^ 53) := by
      rw [div_mul_eq_mul_div, div_le_div_iff₀ U0 W0, mul_assoc]
      refine mul_le_mul_of_nonneg_left ?_ I0
      nlinarith
    have f2 : I / (V - I) * (1 - 3.5 / 2 ^ 53) ≤ I / U := by
      rw [div_mul_eq_mul_div, div_le_div_iff₀ W0 U0, mul_assoc]
      refine mul_le_mul_of_nonneg_left ?_ I0
      nlinarith
    have g1 := double_le_mul (div_nonneg I0 U0.le)
    have g2 := mul_le_double (div_nonneg I0 U0.le)
    rw [abs_le]
    constructor <;> nlinarith

/-- **C152** Two solids of the same volume that are their own intersection score exactly 1; an empty intersection scores exactly 0;
and the order of the two elements does not matter if the library's intersection does not depend on it. -/
theorem C152_exact_values {mul : Mat3 ℚ → List (Vec3 ℚ) → List (Vec3 ℚ)} :
    (∀ v1 v2 i : ℚ, IsDouble i → i ≠ 0 → |v1| = |i| → |v2| = |i| → Fl.bbIou v1 v2 i = some 1) ∧
    (∀ v1 v2 : ℚ, v1 ≠ 0 ∨ v2 ≠ 0 → Fl.bbIou v1 v2 0 = some 0) ∧
    (∀ vol iv (e1 e2 : BoxedElement ℚ), (∀ m1 m2, |iv m1 m2| = |iv m2 m1|) →
      Fl.bbSimilarity mul vol iv e1 e2 = Fl.bbSimilarity mul vol iv e2 e1) := by
  refine ⟨fun v1 v2 i d h0 h1 h2 => ?_, fun v1 v2 h => ?_, fun vol iv e1 e2 hs => ?_⟩
  · have dI : IsDouble |i| := isDouble_abs d
    have d2 : IsDouble (|i| + |i|) := by
      have := isDouble_mul_zpow dI 1
      rwa [zpow_one, mul_comm, two_mul] at this
    unfold Fl.bbIou
    dsimp only
    rw [h1, h2, double_of_isDouble d2, add_sub_cancel_right, double_of_isDouble dI, if_neg (abs_ne_zero.2 h0),
      div_self (abs_ne_zero.2 h0), double_one]
  · have : 0 < |v1| + |v2| := by
      rcases h with h | h
      · have := abs_pos.2 h; have := abs_nonneg v2; linarith
      · have := abs_pos.2 h; have := abs_nonneg v1; linarith
    unfold Fl.bbIou
    simp [(double_pos this).ne']
  · unfold Fl.bbSimilarity Fl.bbIou
    simp only [bbReject_comm (Fl.posedBbox mul e2.pose.R e2.pose.t e2.bounds), hs (Fl.bbox2pymesh mul e2.pose.R e2.pose.t e2.bounds),
      add_comm |vol (Fl.bbox2pymesh mul e2.pose.R e2.pose.t e2.bounds)|]

/-! ### Examples -/

namespace FloatBBoxExample
open FloatPoseExample

def chair : BoxedElement ℚ := ⟨⟨⟨0, 0, 0⟩, ⟨1, 2, 3⟩⟩, ⟨turn, ⟨1, 2, 3⟩⟩⟩
def table : BoxedElement ℚ := ⟨⟨⟨0, 0, 0⟩, ⟨1, 2, 3⟩⟩, ⟨turn, ⟨10, 2, 3⟩⟩⟩

theorem rejected : bbReject (Fl.posedBbox seq chair.pose.R chair.pose.t chair.bounds)
    (Fl.posedBbox seq table.pose.R table.pose.t table.bounds) = true := by decide +kernel

theorem sized_chair : Sized 10 chair := by unfold Sized; decide +kernel
theorem sized_table : Sized 10 table := by unfold Sized; decide +kernel

/-- The hypotheses of `C152_reject` and `C152_depth` are met. -/
example : Accurate seq ∧ Sized 10 chair ∧ Sized 10 table ∧ (∃ q, PosedMem chair q) ∧ ∃ q, PosedMem table q :=
  ⟨accurate_seq, sized_chair, sized_table, ⟨_, ⟨0, 0, 0⟩, by unfold Mem; decide +kernel, rfl⟩, ⟨_, ⟨0, 0, 0⟩, by unfold Mem; decide +kernel, rfl⟩⟩

/-- Every vertex of a solid is in its hull, so the hulls `C152_reject` speaks of are not empty. -/
example : InHull (Fl.bbox2pymesh seq chair.pose.R chair.pose.t chair.bounds).1
    ((Fl.bbox2pymesh seq chair.pose.R chair.pose.t chair.bounds).1.headD 0) := by
  intro a b c d h
  exact h _ (by decide +kernel)

/-- A box and a box moved a little are not rejected; volumes 6, 6 and 2 give the double nearest to 1/5. -/
example : Fl.bbSimilarity seq (fun _ => -6) (fun _ _ => 2) chair { chair with pose := ⟨turn, ⟨1, 2, 5⟩⟩ } = some (double (1 / 5)) := by
  decide +kernel

/-- The rounding is visible: the exact ratio is not a double. -/
example : Fl.bbIou 6 6 2 = some (3602879701896397 / 2 ^ 54) ∧ (3602879701896397 / 2 ^ 54 : ℚ) ≠ 2 / (6 + 6 - 2) := by decide +kernel

/-- The hypotheses of `C152_ratio` are met. -/
example : IsDouble (2 : ℚ) ∧ |(2 : ℚ)| ≤ |(-6)| ∧ |(2 : ℚ)| ≤ |(6)| :=
  ⟨⟨2, 0, by norm_num, by norm_num⟩, by norm_num, by norm_num⟩

end FloatBBoxExample
end Sumo
