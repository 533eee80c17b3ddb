import Verif.Spec.Box
import Mathlib.Algebra.Order.Ring.Abs
import Mathlib.Tactic.Ring
import Mathlib.Tactic.Linarith
import Mathlib.Tactic.FinCases
import Mathlib.Tactic.FieldSimp
import Mathlib.Tactic.NormNum

/-! # Helper lemmas: boxes -/

set_option linter.unusedSectionVars false

namespace Sumo
open BoxSpec
variable {K : Type} [Field K] [LinearOrder K]

theorem foldl_min_le {α : Type} (f : α → K) (l : List α) (a : K) :
    l.foldl (fun m v => min m (f v)) a ≤ a ∧ (∀ v ∈ l, l.foldl (fun m v => min m (f v)) a ≤ f v) ∧
    (l.foldl (fun m v => min m (f v)) a = a ∨ ∃ v ∈ l, l.foldl (fun m v => min m (f v)) a = f v) := by
  induction l generalizing a with
  | nil => simp
  | cons w ws ih =>
    obtain ⟨h1, h2, h3⟩ := ih (min a (f w))
    simp only [List.foldl_cons]
    refine ⟨h1.trans (min_le_left _ _), ?_, ?_⟩
    · intro v hv
      rcases List.mem_cons.1 hv with rfl | hv
      · exact h1.trans (min_le_right _ _)
      · exact h2 v hv
    · rcases h3 with h3 | ⟨v, hv, h3⟩
      · rcases min_choice a (f w) with h | h
        · left; rw [h3, h]
        · right; exact ⟨w, by simp, by rw [h3, h]⟩
      · right; exact ⟨v, by simp [hv], h3⟩

theorem le_foldl_max {α : Type} (f : α → K) (l : List α) (a : K) :
    a ≤ l.foldl (fun m v => max m (f v)) a ∧ (∀ v ∈ l, f v ≤ l.foldl (fun m v => max m (f v)) a) ∧
    (l.foldl (fun m v => max m (f v)) a = a ∨ ∃ v ∈ l, l.foldl (fun m v => max m (f v)) a = f v) := by
  induction l generalizing a with
  | nil => simp
  | cons w ws ih =>
    obtain ⟨h1, h2, h3⟩ := ih (max a (f w))
    simp only [List.foldl_cons]
    refine ⟨(le_max_left _ _).trans h1, ?_, ?_⟩
    · intro v hv
      rcases List.mem_cons.1 hv with rfl | hv
      · exact (le_max_right _ _).trans h1
      · exact h2 v hv
    · rcases h3 with h3 | ⟨v, hv, h3⟩
      · rcases max_choice a (f w) with h | h
        · left; rw [h3, h]
        · right; exact ⟨w, by simp, by rw [h3, h]⟩
      · right; exact ⟨v, by simp [hv], h3⟩

theorem amin_x (p : Vec3 K) (ps : List (Vec3 K)) :
    (Box3d.amin p ps).x = ps.foldl (fun m v => min m v.x) p.x := by
  unfold Box3d.amin
  induction ps generalizing p with
  | nil => rfl
  | cons q qs ih => simp only [List.foldl_cons]; rw [ih]; rfl

theorem amin_y (p : Vec3 K) (ps : List (Vec3 K)) :
    (Box3d.amin p ps).y = ps.foldl (fun m v => min m v.y) p.y := by
  unfold Box3d.amin
  induction ps generalizing p with
  | nil => rfl
  | cons q qs ih => simp only [List.foldl_cons]; rw [ih]; rfl

theorem amin_z (p : Vec3 K) (ps : List (Vec3 K)) :
    (Box3d.amin p ps).z = ps.foldl (fun m v => min m v.z) p.z := by
  unfold Box3d.amin
  induction ps generalizing p with
  | nil => rfl
  | cons q qs ih => simp only [List.foldl_cons]; rw [ih]; rfl

theorem amax_x (p : Vec3 K) (ps : List (Vec3 K)) :
    (Box3d.amax p ps).x = ps.foldl (fun m v => max m v.x) p.x := by
  unfold Box3d.amax
  induction ps generalizing p with
  | nil => rfl
  | cons q qs ih => simp only [List.foldl_cons]; rw [ih]; rfl

theorem amax_y (p : Vec3 K) (ps : List (Vec3 K)) :
    (Box3d.amax p ps).y = ps.foldl (fun m v => max m v.y) p.y := by
  unfold Box3d.amax
  induction ps generalizing p with
  | nil => rfl
  | cons q qs ih => simp only [List.foldl_cons]; rw [ih]; rfl

theorem amax_z (p : Vec3 K) (ps : List (Vec3 K)) :
    (Box3d.amax p ps).z = ps.foldl (fun m v => max m v.z) p.z := by
  unfold Box3d.amax
  induction ps generalizing p with
  | nil => rfl
  | cons q qs ih => simp only [List.foldl_cons]; rw [ih]; rfl

/-- A coordinate of `np.amin`: a lower bound that is attained. -/
theorem amin_spec (p : Vec3 K) (ps : List (Vec3 K)) :
    (∀ v ∈ p :: ps, (Box3d.amin p ps).x ≤ v.x ∧ (Box3d.amin p ps).y ≤ v.y ∧ (Box3d.amin p ps).z ≤ v.z) ∧
    (∃ v ∈ p :: ps, v.x = (Box3d.amin p ps).x) ∧ (∃ v ∈ p :: ps, v.y = (Box3d.amin p ps).y) ∧
    (∃ v ∈ p :: ps, v.z = (Box3d.amin p ps).z) := by
  rw [amin_x, amin_y, amin_z]
  obtain ⟨x1, x2, x3⟩ := foldl_min_le (fun v : Vec3 K => v.x) ps p.x
  obtain ⟨y1, y2, y3⟩ := foldl_min_le (fun v : Vec3 K => v.y) ps p.y
  obtain ⟨z1, z2, z3⟩ := foldl_min_le (fun v : Vec3 K => v.z) ps p.z
  refine ⟨?_, ?_, ?_, ?_⟩
  · intro v hv
    rcases List.mem_cons.1 hv with rfl | hv
    · exact ⟨x1, y1, z1⟩
    · exact ⟨x2 v hv, y2 v hv, z2 v hv⟩
  · rcases x3 with h | ⟨v, hv, h⟩
    · exact ⟨p, by simp, h.symm⟩
    · exact ⟨v, by simp [hv], h.symm⟩
  · rcases y3 with h | ⟨v, hv, h⟩
    · exact ⟨p, by simp, h.symm⟩
    · exact ⟨v, by simp [hv], h.symm⟩
  · rcases z3 with h | ⟨v, hv, h⟩
    · exact ⟨p, by simp, h.symm⟩
    · exact ⟨v, by simp [hv], h.symm⟩

theorem amax_spec (p : Vec3 K) (ps : List (Vec3 K)) :
    (∀ v ∈ p :: ps, v.x ≤ (Box3d.amax p ps).x ∧ v.y ≤ (Box3d.amax p ps).y ∧ v.z ≤ (Box3d.amax p ps).z) ∧
    (∃ v ∈ p :: ps, v.x = (Box3d.amax p ps).x) ∧ (∃ v ∈ p :: ps, v.y = (Box3d.amax p ps).y) ∧
    (∃ v ∈ p :: ps, v.z = (Box3d.amax p ps).z) := by
  rw [amax_x, amax_y, amax_z]
  obtain ⟨x1, x2, x3⟩ := le_foldl_max (fun v : Vec3 K => v.x) ps p.x
  obtain ⟨y1, y2, y3⟩ := le_foldl_max (fun v : Vec3 K => v.y) ps p.y
  obtain ⟨z1, z2, z3⟩ := le_foldl_max (fun v : Vec3 K => v.z) ps p.z
  refine ⟨?_, ?_, ?_, ?_⟩
  · intro v hv
    rcases List.mem_cons.1 hv with rfl | hv
    · exact ⟨x1, y1, z1⟩
    · exact ⟨x2 v hv, y2 v hv, z2 v hv⟩
  · rcases x3 with h | ⟨v, hv, h⟩
    · exact ⟨p, by simp, h.symm⟩
    · exact ⟨v, by simp [hv], h.symm⟩
  · rcases y3 with h | ⟨v, hv, h⟩
    · exact ⟨p, by simp, h.symm⟩
    · exact ⟨v, by simp [hv], h.symm⟩
  · rcases z3 with h | ⟨v, hv, h⟩
    · exact ⟨p, by simp, h.symm⟩
    · exact ⟨v, by simp [hv], h.symm⟩

theorem mk'_of_le {a b : Vec3 K} (hx : a.x ≤ b.x) (hy : a.y ≤ b.y) (hz : a.z ≤ b.z) :
    Box3d.mk' a b = ⟨a, b⟩ := by
  ext <;> simp [Box3d.mk', Vec3.vmin, Vec3.vmax, hx, hy, hz]

theorem mk'_ordered (a b : Vec3 K) : Ordered (Box3d.mk' a b) := by
  refine ⟨?_, ?_, ?_⟩ <;> simp [Box3d.mk', Vec3.vmin, Vec3.vmax]

theorem mk'_of_ordered {b : Box3d K} (h : Ordered b) : Box3d.mk' b.minCorner b.maxCorner = b :=
  mk'_of_le h.1 h.2.1 h.2.2

theorem bboxOfPoints_cons (p : Vec3 K) (ps : List (Vec3 K)) :
    bboxOfPoints (p :: ps) = ⟨Box3d.amin p ps, Box3d.amax p ps⟩ := by
  have h1 := (amin_spec p ps).1 p (by simp)
  have h2 := (amax_spec p ps).1 p (by simp)
  exact mk'_of_le (h1.1.trans h2.1) (h1.2.1.trans h2.2.1) (h1.2.2.trans h2.2.2)

theorem merge_cons (b : Box3d K) (bs : List (Box3d K)) (hb : Ordered b) :
    Box3d.merge (b :: bs) = ⟨Box3d.amin b.minCorner (bs.map Box3d.minCorner),
      Box3d.amax b.maxCorner (bs.map Box3d.maxCorner)⟩ := by
  have h1 := (amin_spec b.minCorner (bs.map Box3d.minCorner)).1 b.minCorner (by simp)
  have h2 := (amax_spec b.maxCorner (bs.map Box3d.maxCorner)).1 b.maxCorner (by simp)
  exact mk'_of_le ((h1.1.trans hb.1).trans h2.1) ((h1.2.1.trans hb.2.1).trans h2.2.1)
    ((h1.2.2.trans hb.2.2).trans h2.2.2)

theorem triangles_map {V W : Type} (f : V → W) (vs : List V) : (idx : List ℕ) → (ts : List (V × V × V)) →
    triangles vs idx = some ts →
    triangles (vs.map f) idx = some (ts.map fun t => (f t.1, f t.2.1, f t.2.2))
  | [], ts, h => by
    simp only [triangles, Option.some.injEq] at h; subst h; rfl
  | [_], ts, h => by simp [triangles] at h
  | [_, _], ts, h => by simp [triangles] at h
  | i :: j :: k :: rest, ts, h => by
    simp only [triangles] at h ⊢
    split at h
    · rename_i a b c ts' ha hb hc hts
      simp only [Option.some.injEq] at h
      subst h
      have ih := triangles_map f vs rest ts' hts
      simp [ha, hb, hc, ih]
    · simp at h

theorem closed_map {V W : Type} (f : V → W) (ts : List (V × V × V)) (h : Closed ts) :
    Closed (ts.map fun t => (f t.1, f t.2.1, f t.2.2)) := by
  have e : edges (ts.map fun t => (f t.1, f t.2.1, f t.2.2))
      = (edges ts).map fun p => (f p.1, f p.2) := by
    simp [edges, List.flatMap_map, List.map_flatMap]
  rw [Closed, e]
  have := h.map fun p => (f p.1, f p.2)
  simpa [List.map_map, Function.comp_def] using this

end Sumo
