import Verif.Lemmas.FloatRms
import Verif.Props.FloatAp

/-!
# Surface errors in machine precision (C149)

`nn` is any nearest-neighbour query that minimises the computed distance, `sum` any way of adding up an array.
-/

set_option linter.unusedSectionVars false

namespace Sumo
open AssocSpec PointSpec FloatPointsSpec

namespace FloatRmsSpec

/-- Mean of a non-empty list. -/
noncomputable def mean (l : List ℝ) : ℝ := l.sum / l.length

/-- Exact RMS surface distance of two elements; 0 if one has no points. -/
noncomputable def exactSurface {ι σ : Type} (d g : Obj ι σ Fl.CloudPayload) : ℝ :=
  pairRms (d.payload.posedPoints.map (fun p => real p.pos)) (g.payload.posedPoints.map (fun p => real p.pos))

/-- Colour of the point of `B` the query returns for `p`. -/
def neighborColor (nn : List (Vec3 ℚ) → Vec3 ℚ → ℕ) (B : List Fl.CloudPoint) (p : Fl.CloudPoint) : Vec3 ℚ :=
  (B[nn (B.map Fl.CloudPoint.pos) p.pos]?.map Fl.CloudPoint.color).getD 0

/-- Exact RMS colour difference to the points the query returns. -/
noncomputable def exactColor {ι σ : Type} (nn : List (Vec3 ℚ) → Vec3 ℚ → ℕ) (d g : Obj ι σ Fl.CloudPayload) : ℝ :=
  let A := d.payload.posedPoints
  let B := g.payload.posedPoints
  Real.sqrt (((A.map (fun p => PointSpec.dist (real p.color) (real (neighborColor nn B p)) ^ 2)).sum +
    (B.map (fun q => PointSpec.dist (real q.color) (real (neighborColor nn A q)) ^ 2)).sum) / (A.length + B.length))

/-- Number of points of both elements. -/
def points {ι σ : Type} (d g : Obj ι σ Fl.CloudPayload) : ℕ := d.payload.posedPoints.length + g.payload.posedPoints.length

end FloatRmsSpec

open FloatRmsSpec Fl

variable {nn : List (Vec3 ℚ) → Vec3 ℚ → ℕ} {sum : List ℚ → ℚ}

theorem near_fdist (h : IsNearestF nn) {B : List (Vec3 ℚ)} (hB : B ≠ []) (p : Vec3 ℚ) :
    Near 17 (((fdist p (B[nn B p]?.getD 0) : ℚ) : ℝ) ^ 2) (distTo (real p) (B.map real) ^ 2) := by
  obtain ⟨rnn, hr⟩ := exists_isNearest
  have hB' : B.map real ≠ [] := by simpa using hB
  obtain ⟨q, hq, hm⟩ := h B p hB
  rw [hq, Option.getD_some, distTo_eq hr hB']
  obtain ⟨h1, h2⟩ := nearestPoint_spec hr hB' (real p)
  obtain ⟨r, hrm, hre⟩ := List.mem_map.1 h1
  have hqd := h2 (real q) (List.mem_map.2 ⟨q, List.mem_of_getElem? hq, rfl⟩)
  rw [← hre] at hqd ⊢
  have f0 := fdist_nonneg p q
  have key : ∀ a, ((sqDist p a : ℚ) : ℝ) * (1 - 1 / 2 ^ 49) ≤ ((fdist p a : ℚ) : ℝ) ^ 2 ∧
      ((fdist p a : ℚ) : ℝ) ^ 2 ≤ ((sqDist p a : ℚ) : ℝ) * (1 + 1 / 2 ^ 49) := by
    intro a
    obtain ⟨k1, k2⟩ := fdist_sq_rel p a
    have k1 : ((sqDist p a * (1 - 1 / 2 ^ 49) : ℚ) : ℝ) ≤ ((fdist p a ^ 2 : ℚ) : ℝ) := by exact_mod_cast k1
    have k2 : ((fdist p a ^ 2 : ℚ) : ℝ) ≤ ((sqDist p a * (1 + 1 / 2 ^ 49) : ℚ) : ℝ) := by exact_mod_cast k2
    push_cast at k1 k2
    exact ⟨k1, k2⟩
  simp only [← real_dist_sq] at key
  have hd0 := dist_nonneg' (real p) (real r)
  have s0 : 0 ≤ PointSpec.dist (real p) (real r) ^ 2 := sq_nonneg _
  constructor
  · calc PointSpec.dist (real p) (real r) ^ 2 * (1 - 1 / 2 ^ 53) ^ 17
        ≤ PointSpec.dist (real p) (real r) ^ 2 * (1 - 1 / 2 ^ 49) := mul_le_mul_of_nonneg_left (by norm_num) s0
      _ ≤ PointSpec.dist (real p) (real q) ^ 2 * (1 - 1 / 2 ^ 49) :=
          mul_le_mul_of_nonneg_right (pow_le_pow_left₀ hd0 hqd 2) (by norm_num)
      _ ≤ _ := (key q).1
  · have : ((fdist p q : ℚ) : ℝ) ≤ fdist p r := by exact_mod_cast hm r hrm
    calc ((fdist p q : ℚ) : ℝ) ^ 2 ≤ ((fdist p r : ℚ) : ℝ) ^ 2 := pow_le_pow_left₀ (by exact_mod_cast f0) this 2
      _ ≤ _ := (key r).2
      _ ≤ _ := mul_le_mul_of_nonneg_left (by norm_num) s0

theorem near_square {k : ℕ} {d : ℚ} {b : ℝ} (h : Near k ((d : ℝ) ^ 2) b) (hb : 0 ≤ b) :
    Near (k + 1) ((double (d * d) : ℚ) : ℝ) b := by
  have h' : Near k (((d * d : ℚ)) : ℝ) b := by push_cast; rwa [← sq]
  exact h'.double hb

/-- The root of a mean of two sums. -/
theorem near_root (hsum : ∀ l, FlSum l (sum l)) {α β : Type} {A : List α} {B : List β} {f : α → ℚ} {f' : β → ℚ} {g : α → ℝ}
    {g' : β → ℝ} {k m j : ℕ} (h : ∀ a ∈ A, Near k (f a) (g a)) (h' : ∀ b ∈ B, Near k (f' b) (g' b)) (h0 : ∀ a ∈ A, 0 ≤ g a)
    (h0' : ∀ b ∈ B, 0 ≤ g' b) (hm : m ≤ 2 ^ 53) (hj : k + (A.length + B.length) + 7 ≤ 2 * j) :
    Near j ((sqrtD (double (double (sum (A.map f) + sum (B.map f')) / double m)) : ℚ) : ℝ)
      (Real.sqrt (((A.map g).sum + (B.map g').sum) / m)) := by
  have s0 : 0 ≤ (A.map g).sum := List.sum_nonneg (by
    intro x hx; obtain ⟨a, ha, rfl⟩ := List.mem_map.1 hx; exact h0 a ha)
  have s0' : 0 ≤ (B.map g').sum := List.sum_nonneg (by
    intro x hx; obtain ⟨a, ha, rfl⟩ := List.mem_map.1 hx; exact h0' a ha)
  have e1 := (Near.flSum_map (hsum (A.map f)) h h0).mono s0 (j := k + (A.length + B.length)) (by omega)
  have e2 := (Near.flSum_map (hsum (B.map f')) h' h0').mono s0' (j := k + (A.length + B.length)) (by omega)
  have e3 := e1.add e2
  rw [← Rat.cast_add] at e3
  have e4 := (e3.double (add_nonneg s0 s0')).div (m := (m : ℝ)) (Nat.cast_nonneg m)
  have e5 : Near (k + (A.length + B.length) + 1) (((double (sum (A.map f) + sum (B.map f')) / double m : ℚ)) : ℝ)
      (((A.map g).sum + (B.map g').sum) / m) := by
    rw [double_nat hm]
    push_cast
    exact e4
  have p0 : 0 ≤ ((A.map g).sum + (B.map g').sum) / m := div_nonneg (add_nonneg s0 s0') (Nat.cast_nonneg m)
  exact (e5.double p0).sqrt p0 (by omega)

theorem pairPointsRms_near (h : IsNearestF nn) (hsum : ∀ l, FlSum l (sum l)) (A B : List CloudPoint) {j : ℕ}
    (hl : A.length + B.length ≤ 2 ^ 53) (hj : A.length + B.length + 25 ≤ 2 * j) :
    Near j ((Fl.pairPointsRms sum nn A B : ℚ) : ℝ) (pairRms (A.map (fun p => real p.pos)) (B.map (fun p => real p.pos))) := by
  unfold Fl.pairPointsRms pairRms
  by_cases hA : A = []
  · simp [Fl.nearestNeighbors, cloudPositions, hA, Near]
  by_cases hB : B = []
  · simp [Fl.nearestNeighbors, cloudPositions, hB, Near]
  have hA' : cloudPositions A ≠ [] := by simpa [cloudPositions] using hA
  have hB' : cloudPositions B ≠ [] := by simpa [cloudPositions] using hB
  have hpos : 0 < A.length := List.length_pos_iff.2 hA
  rw [if_neg (c := _ = [] ∨ _ = []) (by simp [hA, hB])]
  have e : Fl.nearestNeighbors nn (cloudPositions A) (cloudPositions B) =
      ⟨(cloudPositions A).map (fun p => fdist p ((cloudPositions B)[nn (cloudPositions B) p]?.getD 0)),
       (cloudPositions B).map (fun p => fdist p ((cloudPositions A)[nn (cloudPositions A) p]?.getD 0))⟩ := by
    unfold Fl.nearestNeighbors
    rw [if_neg (by simpa using ⟨hA', hB'⟩)]
  simp only [e, List.length_map]
  have lA : (cloudPositions A).length = A.length := by simp [cloudPositions]
  have lB : (cloudPositions B).length = B.length := by simp [cloudPositions]
  rw [if_pos (by omega), lA, lB]
  have rA : A.map (fun p => real p.pos) = (cloudPositions A).map real := by simp [cloudPositions]
  have rB : B.map (fun p => real p.pos) = (cloudPositions B).map real := by simp [cloudPositions]
  unfold squares rms
  rw [List.map_map, List.map_map, rA, rB]
  have := near_root hsum (A := cloudPositions A) (B := cloudPositions B) (m := A.length + B.length) (j := j) (k := 18)
    (f := fun p => double (fdist p ((cloudPositions B)[nn (cloudPositions B) p]?.getD 0) *
      fdist p ((cloudPositions B)[nn (cloudPositions B) p]?.getD 0)))
    (f' := fun p => double (fdist p ((cloudPositions A)[nn (cloudPositions A) p]?.getD 0) *
      fdist p ((cloudPositions A)[nn (cloudPositions A) p]?.getD 0)))
    (g := fun p => distTo (real p) ((cloudPositions B).map real) ^ 2)
    (g' := fun p => distTo (real p) ((cloudPositions A).map real) ^ 2)
    (fun a _ => near_square (near_fdist h hB' a) (sq_nonneg _)) (fun a _ => near_square (near_fdist h hA' a) (sq_nonneg _))
    (fun _ _ => sq_nonneg _) (fun _ _ => sq_nonneg _) hl (by rw [lA, lB]; omega)
  simp only [List.map_map, Function.comp_def, List.length_map, lA, lB] at this ⊢
  push_cast at this ⊢
  exact this

/-! ### Colours -/

/-- The pairs of colour values that are compared. -/
def colorPairs (nn : List (Vec3 ℚ) → Vec3 ℚ → ℕ) (A B : List CloudPoint) : List (ℚ × ℚ) :=
  A.flatMap (fun p => [(p.color.x, (neighborColor nn B p).x), (p.color.y, (neighborColor nn B p).y),
    (p.color.z, (neighborColor nn B p).z)])

theorem length_colorPairs (A B : List CloudPoint) : (colorPairs nn A B).length = 3 * A.length := by
  unfold colorPairs
  induction A with
  | nil => rfl
  | cons a A ih => rw [List.flatMap_cons, List.length_append, ih]; simp; omega

theorem rowDiff_neighbors {A B : List CloudPoint} (hA : A ≠ []) (hB : B ≠ []) :
    Fl.rowDiff (A.map CloudPoint.color) (Fl.colorsAt B (neighborIndices nn (cloudPositions A) (cloudPositions B))) =
      .ok (A.map (fun p => vsub p.color (neighborColor nn B p))) := by
  unfold Fl.rowDiff Fl.colorsAt neighborIndices
  rw [if_neg (c := (cloudPositions A).length = 0 ∨ _) (by simp [cloudPositions, hA, hB])]
  unfold cloudPositions
  rw [if_pos (by simp), List.map_map, List.map_map, zipWith_map_self]
  rfl

theorem squares_entries (A B : List CloudPoint) :
    squares (entries (A.map (fun p => vsub p.color (neighborColor nn B p)))) =
      (colorPairs nn A B).map (fun q => double (double (q.1 - q.2) * double (q.1 - q.2))) := by
  unfold squares entries colorPairs
  induction A with
  | nil => rfl
  | cons a A ih =>
    simp only [List.map_cons, List.flatMap_cons, List.map_append, ih, List.map_nil]
    rfl

theorem sum_colorPairs (A B : List CloudPoint) :
    ((colorPairs nn A B).map (fun q => ((q.1 : ℝ) - q.2) ^ 2)).sum =
      (A.map (fun p => PointSpec.dist (real p.color) (real (neighborColor nn B p)) ^ 2)).sum := by
  unfold colorPairs
  induction A with
  | nil => rfl
  | cons a A ih =>
    rw [List.flatMap_cons, List.map_append, List.sum_append, ih, List.map_cons, List.sum_cons]
    congr 1
    simp only [real_dist_sq]
    unfold sqDist
    simp only [List.map_cons, List.map_nil, List.sum_cons, List.sum_nil]
    push_cast
    ring

theorem near_colorDiff (a b : ℚ) : Near 3 ((double (double (a - b) * double (a - b)) : ℚ) : ℝ) (((a : ℝ) - b) ^ 2) := by
  refine near_square ?_ (sq_nonneg _)
  obtain ⟨h1, h2⟩ := double_sq_rel (a - b)
  have h1 : (((a - b) ^ 2 * (1 - 1 / 2 ^ 53) ^ 2 : ℚ) : ℝ) ≤ ((double (a - b) ^ 2 : ℚ) : ℝ) := by exact_mod_cast h1
  have h2 : ((double (a - b) ^ 2 : ℚ) : ℝ) ≤ (((a - b) ^ 2 * (1 + 1 / 2 ^ 53) ^ 2 : ℚ) : ℝ) := by exact_mod_cast h2
  push_cast at h1 h2
  exact ⟨h1, h2⟩

theorem pairColorRms_near (hsum : ∀ l, FlSum l (sum l)) {ι σ : Type} {d g : Obj ι σ CloudPayload} {j : ℕ}
    (hd : d.payload.posedPoints ≠ []) (hg : g.payload.posedPoints ≠ []) (hl : points d g ≤ 2 ^ 53)
    (hj : 3 * points d g + 10 ≤ 2 * j) : ∃ x, Fl.pairColorRms sum nn d.payload.posedPoints g.payload.posedPoints = .ok x ∧
      Near j ((x : ℚ) : ℝ) (exactColor nn d g) := by
  have hpos := List.length_pos_iff.2 hd
  unfold points at hl hj
  refine ⟨sqrtD (double (double (sum ((colorPairs nn d.payload.posedPoints g.payload.posedPoints).map
      (fun q => double (double (q.1 - q.2) * double (q.1 - q.2)))) +
    sum ((colorPairs nn g.payload.posedPoints d.payload.posedPoints).map
      (fun q => double (double (q.1 - q.2) * double (q.1 - q.2))))) /
      double (d.payload.posedPoints.length + g.payload.posedPoints.length : ℕ))), ?_, ?_⟩
  · unfold Fl.pairColorRms
    simp only [rowDiff_neighbors hd hg, rowDiff_neighbors hg hd, bind, Except.bind, List.length_map, squares_entries]
    rw [if_pos (by omega)]
  · have := near_root hsum (A := colorPairs nn d.payload.posedPoints g.payload.posedPoints)
      (B := colorPairs nn g.payload.posedPoints d.payload.posedPoints) (k := 3) (j := j)
      (m := d.payload.posedPoints.length + g.payload.posedPoints.length)
      (f := fun q => double (double (q.1 - q.2) * double (q.1 - q.2)))
      (f' := fun q => double (double (q.1 - q.2) * double (q.1 - q.2)))
      (g := fun q => ((q.1 : ℝ) - q.2) ^ 2) (g' := fun q => ((q.1 : ℝ) - q.2) ^ 2)
      (fun q _ => near_colorDiff q.1 q.2) (fun q _ => near_colorDiff q.1 q.2) (fun _ _ => sq_nonneg _) (fun _ _ => sq_nonneg _) hl
      (by rw [length_colorPairs, length_colorPairs]; omega)
    rw [sum_colorPairs, sum_colorPairs] at this
    unfold exactColor
    push_cast at this ⊢
    exact this

/-! ### The loop -/

section Loop

variable {ι σ τ : Type} [DecidableEq ι] [LinearOrder σ] [LinearOrder τ]
  {sim : Obj ι σ CloudPayload → Obj ι σ CloudPayload → τ} {sub gt : Elements ι σ CloudPayload}
  {s : AssocSettings τ} {ev : Evaluator ι σ τ CloudPayload}

theorem errors_as_map (Q : τ → List (Obj ι σ CloudPayload × Obj ι σ CloudPayload)) {K : Type}
    (F : Obj ι σ CloudPayload → Obj ι σ CloudPayload → K) :
    errors s Q F = (s.thresholds.flatMap Q).map (fun q => F q.1 q.2) := by
  unfold errors
  rw [List.map_flatMap]

theorem flLoop_value (h : Evaluator.build sim sub gt s = .ok ev) (hs : WellKeyed sub) (hg : WellKeyed gt)
    (hsum : ∀ l, FlSum l (sum l)) {compute : ι → ι → Except PyErr ℚ} {G : Obj ι σ CloudPayload → Obj ι σ CloudPayload → ℝ} {j : ℕ}
    (hF : ∀ t ∈ s.thresholds, ∀ d g, MatchedAt sub gt ev t d g → ∃ x : ℚ, compute d.id g.id = .ok x ∧ Near j (x : ℝ) (G d g))
    (hG : ∀ d g, 0 ≤ G d g) {Q : τ → List (Obj ι σ CloudPayload × Obj ι σ CloudPayload)} (hQ : Lists sub gt s ev Q)
    (hM : (errors s Q G).length ≤ 2 ^ 53) :
    (errors s Q G = [] → Fl.rmsLoop sum compute ev = .ok none) ∧
    (errors s Q G ≠ [] → ∃ x : ℚ, Fl.rmsLoop sum compute ev = .ok (some x) ∧
      Near (j + (errors s Q G).length + 1) (x : ℝ) (mean (errors s Q G))) := by
  classical
  have hF' : ∀ d g, ∃ x : ℚ, (∃ t ∈ s.thresholds, MatchedAt sub gt ev t d g) → compute d.id g.id = .ok x ∧ Near j (x : ℝ) (G d g) := by
    intro d g
    by_cases hm : ∃ t ∈ s.thresholds, MatchedAt sub gt ev t d g
    · obtain ⟨t, ht, hm⟩ := hm
      obtain ⟨x, hx⟩ := hF t ht d g hm
      exact ⟨x, fun _ => hx⟩
    · exact ⟨0, fun h => absurd h hm⟩
  choose F hFF using hF'
  obtain ⟨cache, hfold⟩ := rmsFold_eq (K := ℚ) (F := F) (compute := compute) h hs hg
    (fun t ht d g hm => (hFF d g ⟨t, ht, (matchedAt_iff h ht d g).2 hm⟩).1)
  have hp := pairs_perm h hs hg F hQ
  have hlen : (errors s Q F).length = (errors s Q G).length := by rw [errors_as_map, errors_as_map, List.length_map, List.length_map]
  unfold Fl.rmsLoop
  rw [hfold]
  simp only [bind, Except.bind, pure, Except.pure, hp.length_eq, hlen]
  generalize ev.settings.thresholds.flatMap (fun t =>
    (pairsOf sub gt (assocAt ev.agnostic t).values).map (fun q => F q.1 q.2)) = L at hp ⊢
  constructor
  · intro he; rw [he]; simp
  · intro he
    have hpos := List.length_pos_iff.2 he
    rw [if_pos hpos]
    unfold Fl.npMean
    rw [hp.length_eq, hlen, if_neg hpos.ne']
    refine ⟨_, rfl, ?_⟩
    have hfl : FlSum ((s.thresholds.flatMap Q).map (fun q => F q.1 q.2)) (sum L) := by
      have := FlSum.perm (hsum L) hp
      rwa [errors_as_map] at this
    have n1 := Near.flSum_map (k := j) (g := fun q => G q.1 q.2) hfl (by
      rintro ⟨d, g⟩ hq
      obtain ⟨t, ht, hq⟩ := List.mem_flatMap.1 hq
      exact (hFF d g ⟨t, ht, ((hQ t ht).2 d g).1 hq⟩).2) (fun q _ => hG q.1 q.2)
    have el : (s.thresholds.flatMap Q).length = (errors s Q G).length := by rw [errors_as_map, List.length_map]
    rw [← errors_as_map, el] at n1
    have n2 := n1.div (m := ((errors s Q G).length : ℝ)) (Nat.cast_nonneg _)
    have n3 : Near (j + (errors s Q G).length) ((sum L / double (errors s Q G).length : ℚ) : ℝ) (mean (errors s Q G)) := by
      rw [double_nat hM]
      push_cast
      exact n2
    refine n3.double ?_
    unfold mean
    refine div_nonneg (List.sum_nonneg ?_) (Nat.cast_nonneg _)
    intro x hx
    obtain ⟨-, -, d, g, -, rfl⟩ := (mem_errors hQ).1 hx
    exact hG d g

theorem errors_mean_nonneg {Q : τ → List (Obj ι σ CloudPayload × Obj ι σ CloudPayload)} (hQ : Lists sub gt s ev Q)
    {G : Obj ι σ CloudPayload → Obj ι σ CloudPayload → ℝ} (hG : ∀ d g, 0 ≤ G d g) : 0 ≤ mean (errors s Q G) := by
  unfold mean
  refine div_nonneg (List.sum_nonneg ?_) (Nat.cast_nonneg _)
  intro x hx
  obtain ⟨-, -, d, g, -, rfl⟩ := (mem_errors hQ).1 hx
  exact hG d g

/-- From counted roundings to the bounds of the theorems. -/
theorem near_conclude {j N M : ℕ} {x : ℚ} {E : ℝ} (h : Near j (x : ℝ) E) (hE : 0 ≤ E) (hj : 2 * j ≤ N + 2 * M + 30)
    (hN : N + 2 * M + 30 ≤ 2 ^ 53) : |(x : ℝ) - E| ≤ E * ((N + 2 * M + 30 : ℕ) / 2 ^ 53) ∧ 0 ≤ x ∧ (x = 0 ↔ E = 0) := by
  refine ⟨(h.abs_le hE (by omega)).trans (mul_le_mul_of_nonneg_left ?_ hE), by exact_mod_cast h.nonneg hE, ?_⟩
  · have : ((2 * j : ℕ) : ℝ) ≤ (N + 2 * M + 30 : ℕ) := by exact_mod_cast hj
    push_cast at this ⊢
    rw [div_le_div_iff₀ (by norm_num) (by norm_num)]
    norm_num
    linarith
  · rw [← h.eq_zero_iff hE]; norm_cast

/-- **C149** in machine precision the surface error is infinite exactly when nothing is matched; else it is non-negative, 0 exactly
when the exact error is 0, and differs from the exact error (the mean, over all thresholds and correspondences, of the RMS
distances of the exact point sets) by at most a factor of `(N + 2 M + 30) / 2^53`, for at most `N` points in a matched pair and
`M` values in the mean. -/
theorem C149_surface (hnn : IsNearestF nn) (hsum : ∀ l, FlSum l (sum l)) (h : Evaluator.build sim sub gt s = .ok ev)
    (hs : WellKeyed sub) (hg : WellKeyed gt) {Q : τ → List (Obj ι σ CloudPayload × Obj ι σ CloudPayload)}
    (hQ : Lists sub gt s ev Q) {N : ℕ} (hN : ∀ t ∈ s.thresholds, ∀ d g, MatchedAt sub gt ev t d g → points d g ≤ N)
    (hb : N + 2 * (errors s Q exactSurface).length + 30 ≤ 2 ^ 53) :
    let E := errors s Q exactSurface
    (E = [] → Fl.pointsRmsssd sum nn ev = .ok none) ∧
    (E ≠ [] → ∃ x : ℚ, Fl.pointsRmsssd sum nn ev = .ok (some x) ∧
      |(x : ℝ) - mean E| ≤ mean E * ((N + 2 * E.length + 30 : ℕ) / 2 ^ 53) ∧ 0 ≤ x ∧ (x = 0 ↔ mean E = 0)) := by
  intro E
  obtain ⟨_, _, hsub, hgt, _, hset⟩ := build_ok h
  have hG : ∀ d g : Obj ι σ CloudPayload, 0 ≤ exactSurface d g := fun d g => pairRms_nonneg _ _
  obtain ⟨h1, h2⟩ := flLoop_value (G := exactSurface) (j := (N + 26) / 2) h hs hg hsum (compute := fun detId gtId => do
    let d ← ev.submission.get detId
    let g ← ev.groundTruth.get gtId
    pure (Fl.pairPointsRms sum nn d.payload.posedPoints g.payload.posedPoints)) (by
      intro t ht d g hm
      have hl := hN t ht d g hm
      obtain ⟨hd, hgm, -⟩ := (matchedAt_iff h ht d g).1 hm
      rw [hsub, hgt, Dict.get_eq_ok.2 (wk_get hs hd), Dict.get_eq_ok.2 (wk_get hg hgm)]
      unfold points at hl
      exact ⟨_, rfl, pairPointsRms_near hnn hsum d.payload.posedPoints g.payload.posedPoints (by omega) (by omega)⟩) hG hQ (by omega)
  refine ⟨h1, fun he => ?_⟩
  obtain ⟨x, hx, hn⟩ := h2 he
  exact ⟨x, hx, near_conclude hn (errors_mean_nonneg hQ hG) (by show 2 * ((N + 26) / 2 + E.length + 1) ≤ _; omega) hb⟩

/-- **C149** likewise for the colour error, provided matched elements have points and relative to the neighbours the query
returns; the sums run over three values per point. -/
theorem C149_color (hsum : ∀ l, FlSum l (sum l)) (h : Evaluator.build sim sub gt s = .ok ev)
    (hs : WellKeyed sub) (hg : WellKeyed gt) {Q : τ → List (Obj ι σ CloudPayload × Obj ι σ CloudPayload)}
    (hQ : Lists sub gt s ev Q) {N : ℕ} (hN : ∀ t ∈ s.thresholds, ∀ d g, MatchedAt sub gt ev t d g →
      points d g ≤ N ∧ d.payload.posedPoints ≠ [] ∧ g.payload.posedPoints ≠ [])
    (hb : 3 * N + 2 * (errors s Q (exactColor nn)).length + 30 ≤ 2 ^ 53) :
    let E := errors s Q (exactColor nn)
    (E = [] → Fl.colorRmsssd sum nn ev = .ok none) ∧
    (E ≠ [] → ∃ x : ℚ, Fl.colorRmsssd sum nn ev = .ok (some x) ∧
      |(x : ℝ) - mean E| ≤ mean E * ((3 * N + 2 * E.length + 30 : ℕ) / 2 ^ 53) ∧ 0 ≤ x ∧ (x = 0 ↔ mean E = 0)) := by
  intro E
  obtain ⟨_, _, hsub, hgt, _, hset⟩ := build_ok h
  have hG : ∀ d g : Obj ι σ CloudPayload, 0 ≤ exactColor nn d g := fun d g => Real.sqrt_nonneg _
  obtain ⟨h1, h2⟩ := flLoop_value (G := exactColor nn) (j := (3 * N + 11) / 2) h hs hg hsum (compute := fun detId gtId => do
    let d ← ev.submission.get detId
    let g ← ev.groundTruth.get gtId
    Fl.pairColorRms sum nn d.payload.posedPoints g.payload.posedPoints) (by
      intro t ht d g hm
      obtain ⟨hl, n1, n2⟩ := hN t ht d g hm
      obtain ⟨hd, hgm, -⟩ := (matchedAt_iff h ht d g).1 hm
      rw [hsub, hgt, Dict.get_eq_ok.2 (wk_get hs hd), Dict.get_eq_ok.2 (wk_get hg hgm)]
      exact pairColorRms_near hsum n1 n2 (by omega) (by omega)) hG hQ (by omega)
  refine ⟨h1, fun he => ?_⟩
  obtain ⟨x, hx, hn⟩ := h2 he
  exact ⟨x, hx, near_conclude hn (errors_mean_nonneg hQ hG) (by show 2 * ((3 * N + 11) / 2 + E.length + 1) ≤ _; omega) hb⟩

/-- **C149** for the reader: the surface error is infinite exactly when no pair is matched, and 0 exactly when in every matched pair
both elements have the same points, or one has none: rounding neither hides a difference nor makes one up. -/
theorem C149_zero (hnn : IsNearestF nn) (hsum : ∀ l, FlSum l (sum l)) (h : Evaluator.build sim sub gt s = .ok ev)
    (hs : WellKeyed sub) (hg : WellKeyed gt) {Q : τ → List (Obj ι σ CloudPayload × Obj ι σ CloudPayload)}
    (hQ : Lists sub gt s ev Q) {N : ℕ} (hN : ∀ t ∈ s.thresholds, ∀ d g, MatchedAt sub gt ev t d g → points d g ≤ N)
    (hb : N + 2 * (s.thresholds.flatMap Q).length + 30 ≤ 2 ^ 53) :
    (Fl.pointsRmsssd sum nn ev = .ok none ↔ ∀ t ∈ s.thresholds, ∀ d g, ¬ MatchedAt sub gt ev t d g) ∧
    (Fl.pointsRmsssd sum nn ev = .ok (some 0) ↔ (∃ t ∈ s.thresholds, ∃ d g, MatchedAt sub gt ev t d g) ∧
      ∀ t ∈ s.thresholds, ∀ d g, MatchedAt sub gt ev t d g → d.payload.posedPoints = [] ∨ g.payload.posedPoints = [] ∨
        ∀ p, (∃ a ∈ d.payload.posedPoints, a.pos = p) ↔ ∃ b ∈ g.payload.posedPoints, b.pos = p) := by
  have el : (errors s Q exactSurface).length = (s.thresholds.flatMap Q).length := by rw [errors_as_map, List.length_map]
  obtain ⟨h1, h2⟩ := C149_surface hnn hsum h hs hg hQ hN (by rw [el]; exact hb)
  have hnil := errors_eq_nil hQ exactSurface
  have hG : ∀ x ∈ errors s Q exactSurface, 0 ≤ x := by
    intro x hx
    obtain ⟨-, -, d, g, -, rfl⟩ := (mem_errors hQ).1 hx
    exact pairRms_nonneg _ _
  have real_inj : ∀ {p q : Vec3 ℚ}, real p = real q → p = q := by
    intro p q e
    have hx := congrArg Vec3.x e
    have hy := congrArg Vec3.y e
    have hz := congrArg Vec3.z e
    simp only [real, Rat.cast_inj] at hx hy hz
    ext <;> assumption
  have key : ∀ d g : Obj ι σ CloudPayload, exactSurface d g = 0 ↔ (d.payload.posedPoints = [] ∨ g.payload.posedPoints = [] ∨
      ∀ p, (∃ a ∈ d.payload.posedPoints, a.pos = p) ↔ ∃ b ∈ g.payload.posedPoints, b.pos = p) := by
    intro d g
    unfold exactSurface pairRms
    by_cases hd : d.payload.posedPoints = []
    · simp [hd]
    by_cases hg : g.payload.posedPoints = []
    · simp [hg]
    rw [if_neg (by simp [hd, hg]), rms_eq_zero (by simp [hd]) (by simp [hg])]
    simp only [hd, hg, false_or, List.mem_map]
    constructor
    · intro he p
      have := he (real p)
      constructor
      · rintro ⟨a, ha, rfl⟩
        obtain ⟨b, hb, e⟩ := this.1 ⟨a, ha, rfl⟩
        exact ⟨b, hb, real_inj e⟩
      · rintro ⟨a, ha, rfl⟩
        obtain ⟨b, hb, e⟩ := this.2 ⟨a, ha, rfl⟩
        exact ⟨b, hb, real_inj e⟩
    · intro he p
      constructor
      · rintro ⟨a, ha, rfl⟩
        obtain ⟨b, hb, e⟩ := (he a.pos).1 ⟨a, ha, rfl⟩
        exact ⟨b, hb, by rw [e]⟩
      · rintro ⟨a, ha, rfl⟩
        obtain ⟨b, hb, e⟩ := (he a.pos).2 ⟨a, ha, rfl⟩
        exact ⟨b, hb, by rw [e]⟩
  have hmean : errors s Q exactSurface ≠ [] → (mean (errors s Q exactSurface) = 0 ↔ ∀ t ∈ s.thresholds, ∀ d g,
      MatchedAt sub gt ev t d g → exactSurface d g = 0) := by
    intro hne
    change meanR (errors s Q exactSurface) = 0 ↔ _
    rw [meanR_eq_zero hne hG]
    constructor
    · intro h0 t ht d g hm; exact h0 _ ((mem_errors hQ).2 ⟨t, ht, d, g, hm, rfl⟩)
    · intro h0 x hx
      obtain ⟨t, ht, d, g, hm, rfl⟩ := (mem_errors hQ).1 hx
      exact h0 t ht d g hm
  by_cases he : errors s Q exactSurface = []
  · rw [h1 he]
    refine ⟨by simpa using hnil.1 he, ?_⟩
    simp only [reduceCtorEq, Except.ok.injEq, false_iff, not_and]
    rintro ⟨t, ht, d, g, hm⟩
    exact absurd hm (hnil.1 he t ht d g)
  · obtain ⟨x, hx, -, -, h0⟩ := h2 he
    rw [hx]
    constructor
    · simp only [reduceCtorEq, Except.ok.injEq, false_iff]
      exact mt hnil.2 he
    · simp only [Except.ok.injEq, Option.some.injEq]
      rw [h0, hmean he]
      simp only [key]
      constructor
      · intro hz
        refine ⟨?_, hz⟩
        by_contra hc
        push Not at hc
        exact he (hnil.2 hc)
      · exact fun hz => hz.2

end Loop

namespace FloatRmsExample

/-- One element with two points. -/
def el (x : ℚ) : Obj ℕ ℕ CloudPayload := ⟨0, "lamp", 1, true, ⟨[⟨⟨x, 0, 0⟩, ⟨x, x, 1 / 3⟩⟩, ⟨⟨x, 1, 0⟩, 0⟩]⟩⟩

/-- A scene with one element. -/
def scene (x : ℚ) : Elements ℕ ℕ CloudPayload := [(0, el x)]

/-- All elements are similar. -/
def simAll (_ _ : Obj ℕ ℕ CloudPayload) : ℕ := 1

/-- Two thresholds. -/
def st : AssocSettings ℕ := ⟨[1, 0], []⟩

/-- The evaluator. -/
def ev : Evaluator ℕ ℕ ℕ CloudPayload :=
  ⟨⟨[0, 1], []⟩, scene 0, scene 1, [(0, [(0, ⟨0, 0, 1, 1, true⟩)])], [(0, [(0, ⟨0, 0, 1, 1, true⟩)]), (1, [(0, ⟨0, 0, 1, 1, true⟩)])], []⟩

theorem build : Evaluator.build simAll (scene 0) (scene 1) st = .ok ev := rfl

theorem wk (x : ℚ) : WellKeyed (scene x) := by
  unfold WellKeyed Dict.NodupKeys
  constructor
  · simp [scene, Dict.keys]
  · intro p hp
    simp [scene] at hp
    rw [hp]; rfl

theorem matched : MatchedAt (scene 0) (scene 1) ev 1 (el 0) (el 1) :=
  ⟨_, rfl, by simp [scene, Dict.values], by simp [scene, Dict.values], _, rfl, rfl⟩

theorem matched_only {t : ℕ} {d g : Obj ℕ ℕ CloudPayload} (h : MatchedAt (scene 0) (scene 1) ev t d g) : d = el 0 ∧ g = el 1 := by
  obtain ⟨_, _, hd, hg, _⟩ := h
  simp [scene, Dict.values] at hd hg
  exact ⟨hd, hg⟩

theorem lists : Lists (scene 0) (scene 1) st ev (fun _ => [(el 0, el 1)]) := by
  intro t ht
  refine ⟨by simp, fun d g => ⟨?_, ?_⟩⟩
  · intro hm
    simp only [List.mem_singleton, Prod.mk.injEq] at hm
    obtain ⟨rfl, rfl⟩ := hm
    simp [st] at ht
    rcases ht with rfl | rfl
    · exact matched
    · exact ⟨_, rfl, by simp [scene, Dict.values], by simp [scene, Dict.values], _, rfl, rfl⟩
  · intro hm
    obtain ⟨rfl, rfl⟩ := matched_only hm
    simp

end FloatRmsExample

open FloatRmsExample in
/-- The hypotheses are met: two elements of two points, matched at two thresholds; the errors are numbers. -/
example (hnn : IsNearestF nn) : (∃ x, Fl.pointsRmsssd leftSum nn ev = .ok (some x) ∧ x ≠ 0) ∧
    ∃ x, Fl.colorRmsssd leftSum nn ev = .ok (some x) := by
  have hne : ∀ F : Obj ℕ ℕ CloudPayload → Obj ℕ ℕ CloudPayload → ℝ, errors st (fun _ => [(el 0, el 1)]) F = [F (el 0) (el 1), F (el 0) (el 1)] :=
    fun F => rfl
  have hpts : points (el 0) (el 1) = 4 := rfl
  constructor
  · obtain ⟨-, h2⟩ := C149_surface hnn leftSum_flSum build (wk 0) (wk 1) lists (N := 4)
      (fun t _ d g hm => by obtain ⟨rfl, rfl⟩ := matched_only hm; exact hpts.le) (by rw [hne]; norm_num)
    obtain ⟨x, hx, -, -, -⟩ := h2 (by rw [hne]; simp)
    refine ⟨x, hx, ?_⟩
    rintro rfl
    obtain ⟨-, h3⟩ := C149_zero hnn leftSum_flSum build (wk 0) (wk 1) lists (N := 4)
      (fun t _ d g hm => by obtain ⟨rfl, rfl⟩ := matched_only hm; exact hpts.le) (by simp [st])
    have := (h3.1 hx).2 1 (by simp [st]) _ _ matched
    rcases this with h | h | h
    · simp [el] at h
    · simp [el] at h
    · have := (h ⟨0, 0, 0⟩).1 ⟨⟨⟨0, 0, 0⟩, _⟩, List.mem_cons_self, rfl⟩
      obtain ⟨b, hb, hp⟩ := this
      simp [el] at hb
      rcases hb with rfl | rfl <;> simp at hp
  · obtain ⟨-, h2⟩ := C149_color (nn := nn) leftSum_flSum build (wk 0) (wk 1) lists (N := 4)
      (fun t _ d g hm => by obtain ⟨rfl, rfl⟩ := matched_only hm; exact ⟨hpts.le, by simp [el], by simp [el]⟩) (by rw [hne]; norm_num)
    obtain ⟨x, hx, -⟩ := h2 (by rw [hne]; simp)
    exact ⟨x, hx⟩

end Sumo
