import Verif.Spec.CubeMap
import Mathlib.Tactic.Linarith
import Mathlib.Tactic.NormNum
import Mathlib.Tactic.FieldSimp
import Mathlib.Tactic.Ring
import Mathlib.Tactic.Positivity
import Mathlib.Tactic.IntervalCases

/-! # Helper lemmas on cube maps -/

namespace Sumo

set_option linter.unusedSectionVars false

variable {K : Type} [Field K] [LinearOrder K] [IsStrictOrderedRing K] [FloorRing K]

theorem toSizeT_of {q : K} {f : ℕ} (h0 : (f : K) ≤ q) (h1 : q < f + 1) : CubeMap.toSizeT q = f := by
  have hq : 0 ≤ q := le_trans (Nat.cast_nonneg f) h0
  unfold CubeMap.toSizeT
  rw [if_neg (by linarith), if_neg (not_lt.2 hq)]
  have : ⌊q⌋ = (f : ℤ) := by
    rw [Int.floor_eq_iff]
    exact ⟨by simpa using h0, by simpa using h1⟩
  rw [this]
  simp

theorem cubeFace_at (s t : K) :
    cubeFaces.map (fun f => f.at s t) =
      [⟨-s, t, -1⟩, ⟨-1, t, s⟩, ⟨s, t, 1⟩, ⟨1, t, -s⟩, ⟨s, -1, t⟩, ⟨s, 1, -t⟩] := by
  simp only [cubeFaces, CubeFace.at, List.map_cons, List.map_nil]
  congr 1
  · ext <;> simp [Vec3.smul]
  congr 1
  · ext <;> simp [Vec3.smul]
  congr 1
  · ext <;> simp [Vec3.smul]
  congr 1
  · ext <;> simp [Vec3.smul]
  congr 1
  · ext <;> simp [Vec3.smul]
  congr 1
  · ext <;> simp [Vec3.smul]

/-- What `unproject` computes on face `f`, at distance `u` from its left edge. -/
theorem unproject_face (side : ℕ) (hside : 0 < side) (f : ℕ) (hf : f < 6) (u y : K) (hu0 : 0 ≤ u) (hu1 : u < side) :
    ∃ F, (cubeFaces : List (CubeFace K))[f]? = some F ∧
      CubeMap.unproject side ⟨side * f + u, y⟩ = .ok (F.at (2 * u / side - 1) (2 * y / side - 1)) := by
  have hs : (0 : K) < side := by exact_mod_cast hside
  have hf5 : (f : K) ≤ 5 := by exact_mod_cast Nat.le_of_lt_succ hf
  have hne : (side : K) * f + u ≠ 6 * side := by
    have : (side : K) * f ≤ side * 5 := mul_le_mul_of_nonneg_left hf5 hs.le
    intro h
    linarith
  have hface : CubeMap.toSizeT (((side : K) * f + u) / side) = f := by
    apply toSizeT_of
    · rw [le_div_iff₀ hs]; linarith
    · rw [div_lt_iff₀ hs]; linarith
  have e1 : CubeMap.sensorOfPixel side (⟨(side : K) * f + u - ((side * f : ℕ) : K), y - 0⟩ : Vec2 K)
      = ⟨2 * u / side - 1, 2 * y / side - 1⟩ := by
    unfold CubeMap.sensorOfPixel
    ext
    · simp only; push_cast; field_simp; ring
    · simp only; field_simp; ring
  have hall := cubeFace_at (2 * u / side - 1) (2 * y / (side : K) - 1)
  unfold CubeMap.unproject
  simp only [if_neg hne, hface, if_neg (not_le.2 hf), e1]
  interval_cases f
  all_goals
    refine ⟨_, rfl, ?_⟩
    simp only [cubeFaces, List.map_cons, List.map_nil, List.cons.injEq] at hall
    simp only [hall]

theorem cubeFace_at_onUnitCube (f : ℕ) (hf : f < 6) (F : CubeFace K) (hF : cubeFaces[f]? = some F) (s t : K)
    (hs : |s| ≤ 1) (ht : |t| ≤ 1) : OnUnitCube (F.at s t) := by
  have hall := cubeFace_at s t
  simp only [cubeFaces, List.map_cons, List.map_nil, List.cons.injEq] at hall
  interval_cases f <;> simp only [cubeFaces] at hF <;> obtain rfl := Option.some.inj hF <;> simp only [hall] <;>
    simp [OnUnitCube, hs, ht]

theorem onUnitCube_scale {p p' : Vec3 K} {c : K} (hp : OnUnitCube p) (hp' : OnUnitCube p') (hc : 0 < c)
    (h : p = Vec3.smul c p') : c = 1 := by
  obtain ⟨⟨a1, a2, a3⟩, a⟩ := hp
  obtain ⟨⟨b1, b2, b3⟩, b⟩ := hp'
  have ex : |p.x| = c * |p'.x| := by rw [h]; simp [Vec3.smul, abs_mul, abs_of_pos hc]
  have ey : |p.y| = c * |p'.y| := by rw [h]; simp [Vec3.smul, abs_mul, abs_of_pos hc]
  have ez : |p.z| = c * |p'.z| := by rw [h]; simp [Vec3.smul, abs_mul, abs_of_pos hc]
  apply le_antisymm
  · rcases b with b | b | b
    · rw [b, mul_one] at ex; rw [← ex]; exact a1
    · rw [b, mul_one] at ey; rw [← ey]; exact a2
    · rw [b, mul_one] at ez; rw [← ez]; exact a3
  · rcases a with a | a | a
    · rw [a] at ex; rw [ex]; exact mul_le_of_le_one_right hc.le b1
    · rw [a] at ey; rw [ey]; exact mul_le_of_le_one_right hc.le b2
    · rw [a] at ez; rw [ez]; exact mul_le_of_le_one_right hc.le b3

theorem cubeFace_at_inj {f f' : ℕ} (hf : f < 6) (hf' : f' < 6) {F F' : CubeFace K} (hF : cubeFaces[f]? = some F)
    (hF' : cubeFaces[f']? = some F') {s t s' t' : K} (hs : -1 < s ∧ s < 1) (ht : -1 < t ∧ t < 1)
    (hs' : -1 < s' ∧ s' < 1) (ht' : -1 < t' ∧ t' < 1) (h : F.at s t = F'.at s' t') : f = f' ∧ s = s' ∧ t = t' := by
  obtain ⟨s1, s2⟩ := hs
  obtain ⟨t1, t2⟩ := ht
  obtain ⟨s1', s2'⟩ := hs'
  obtain ⟨t1', t2'⟩ := ht'
  have hall := cubeFace_at s t
  have hall' := cubeFace_at s' t'
  simp only [cubeFaces, List.map_cons, List.map_nil, List.cons.injEq] at hall hall'
  obtain ⟨p0, p1, p2, p3, p4, p5, -⟩ := hall
  obtain ⟨q0, q1, q2, q3, q4, q5, -⟩ := hall'
  have hp : F.at s t = ([⟨-s, t, -1⟩, ⟨-1, t, s⟩, ⟨s, t, 1⟩, ⟨1, t, -s⟩, ⟨s, -1, t⟩, ⟨s, 1, -t⟩] : List (Vec3 K)).getD f 0 := by
    interval_cases f <;> simp only [cubeFaces] at hF <;> obtain rfl := Option.some.inj hF
    · exact p0
    · exact p1
    · exact p2
    · exact p3
    · exact p4
    · exact p5
  have hq : F'.at s' t' =
      ([⟨-s', t', -1⟩, ⟨-1, t', s'⟩, ⟨s', t', 1⟩, ⟨1, t', -s'⟩, ⟨s', -1, t'⟩, ⟨s', 1, -t'⟩] : List (Vec3 K)).getD f' 0 := by
    interval_cases f' <;> simp only [cubeFaces] at hF' <;> obtain rfl := Option.some.inj hF'
    · exact q0
    · exact q1
    · exact q2
    · exact q3
    · exact q4
    · exact q5
  rw [hp, hq] at h
  clear hp hq p0 p1 p2 p3 p4 p5 q0 q1 q2 q3 q4 q5 hF hF'
  interval_cases f <;> interval_cases f' <;>
    simp only [List.getD_cons_zero, List.getD_cons_succ, Vec3.mk.injEq] at h <;> obtain ⟨e1, e2, e3⟩ := h <;>
    first
    | exact ⟨rfl, by linarith, by linarith⟩
    | (exfalso; linarith)

/-- Any position of the image lies on one of the faces. -/
theorem exists_face (side : ℕ) (hside : 0 < side) (x : K) (h0 : 0 ≤ x) (h1 : x < 6 * side) :
    ∃ (f : ℕ) (u : K), f < 6 ∧ 0 ≤ u ∧ u < side ∧ x = side * f + u := by
  have hs : (0 : K) < side := by exact_mod_cast hside
  have hfl : 0 ≤ ⌊x / (side : K)⌋ := Int.floor_nonneg.2 (by positivity)
  obtain ⟨f, hf⟩ := Int.eq_ofNat_of_zero_le hfl
  have hfl' := Int.floor_eq_iff.1 hf
  have l : (f : K) ≤ x / side := by simpa using hfl'.1
  have r : x / side < f + 1 := by simpa using hfl'.2
  rw [le_div_iff₀ hs] at l
  rw [div_lt_iff₀ hs] at r
  refine ⟨f, x - side * f, ?_, by linarith, by linarith, by ring⟩
  by_contra hcon
  have h6 : (6 : K) ≤ f := by exact_mod_cast not_lt.1 hcon
  have := mul_le_mul_of_nonneg_right h6 hs.le
  linarith

end Sumo
