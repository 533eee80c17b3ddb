import Verif.Lemmas.CubeMap
import Mathlib.Data.Rat.Floor
import Mathlib.Tactic.FinCases
import Mathlib.Tactic.LinearCombination

/-! # Properties of cube maps (C73) -/

namespace Sumo

set_option linter.unusedSectionVars false

variable {K : Type} [Field K] [LinearOrder K] [IsStrictOrderedRing K] [FloorRing K]

/-- Each face of the specification is an unmirrored pinhole camera: column direction × row direction = viewing
direction. -/
theorem C73_faces_right_handed : ∀ F ∈ (cubeFaces : List (CubeFace K)), Vec3.cross F.right F.down = F.normal := by
  intro F hF
  simp only [cubeFaces, List.mem_cons, List.not_mem_nil, or_false] at hF
  rcases hF with rfl | rfl | rfl | rfl | rfl | rfl <;> ext <;> simp [Vec3.cross]

/-- **C73.** Every position `(x, y)` of a cube map image, `0 ≤ x < 6 side`, `0 ≤ y ≤ side`, unprojects to the point of the
unit cube's surface on the face the position lies on: in face `⌊x / side⌋`, linearly from one edge to the other. -/
theorem C73_on_face (side : ℕ) (hside : 0 < side) (x y : K) (hx0 : 0 ≤ x) (hx1 : x < 6 * side) (hy0 : 0 ≤ y)
    (hy1 : y ≤ side) :
    ∃ (f : ℕ) (u : K) (F : CubeFace K) (p : Vec3 K), f < 6 ∧ 0 ≤ u ∧ u < side ∧ x = side * f + u ∧
      cubeFaces[f]? = some F ∧ CubeMap.unproject side ⟨x, y⟩ = .ok p ∧
      p = F.at (2 * u / side - 1) (2 * y / side - 1) ∧ OnUnitCube p ∧ Vec3.dot p F.normal = 1 := by
  have hs : (0 : K) < side := by exact_mod_cast hside
  obtain ⟨f, u, hf, hu0, hu1, rfl⟩ := exists_face side hside x hx0 hx1
  obtain ⟨F, hF, hp⟩ := unproject_face side hside f hf u y hu0 hu1
  refine ⟨f, u, F, _, hf, hu0, hu1, rfl, hF, hp, rfl, ?_, ?_⟩
  · have s0 : 0 ≤ u / side := div_nonneg hu0 hs.le
    have s1 : u / side ≤ 1 := by rw [div_le_one hs]; exact hu1.le
    have t0 : 0 ≤ y / side := div_nonneg hy0 hs.le
    have t1 : y / side ≤ 1 := by rw [div_le_one hs]; exact hy1
    have es : 2 * u / side - 1 = 2 * (u / side) - 1 := by ring
    have et : 2 * y / side - 1 = 2 * (y / side) - 1 := by ring
    rw [es, et]
    exact cubeFace_at_onUnitCube f hf F hF _ _ (abs_le.2 ⟨by linarith, by linarith⟩)
      (abs_le.2 ⟨by linarith, by linarith⟩)
  · interval_cases f <;> simp only [cubeFaces] at hF <;> obtain rfl := Option.some.inj hF <;>
      simp [CubeFace.at, Vec3.dot, Vec3.smul]

example : CubeMap.unproject 4 (⟨9, 3⟩ : Vec2 ℚ) = .ok ⟨-1 / 2, 1 / 2, 1⟩ := by decide +kernel

/-- **C73.** Distinct interior positions give distinct viewing directions: if the rays of two positions off the face
edges are positive multiples of each other then the positions are equal. -/
theorem C73_injective (side : ℕ) (hside : 0 < side) (f f' : ℕ) (hf : f < 6) (hf' : f' < 6) (u u' y y' c : K)
    (hu : 0 < u ∧ u < side) (hu' : 0 < u' ∧ u' < side) (hy : 0 < y ∧ y < side) (hy' : 0 < y' ∧ y' < side) (hc : 0 < c)
    (p p' : Vec3 K) (hp : CubeMap.unproject side ⟨side * f + u, y⟩ = .ok p)
    (hp' : CubeMap.unproject side ⟨side * f' + u', y'⟩ = .ok p') (heq : p = Vec3.smul c p') :
    f = f' ∧ u = u' ∧ y = y' := by
  have hs : (0 : K) < side := by exact_mod_cast hside
  obtain ⟨F, hF, h1⟩ := unproject_face side hside f hf u y hu.1.le hu.2
  obtain ⟨F', hF', h1'⟩ := unproject_face side hside f' hf' u' y' hu'.1.le hu'.2
  rw [hp] at h1
  rw [hp'] at h1'
  simp only [Except.ok.injEq] at h1 h1'
  have key : ∀ v : K, 0 < v ∧ v < side → |2 * v / side - 1| < 1 := by
    intro v hv
    have a : 0 < v / side := div_pos hv.1 hs
    have b : v / side < 1 := by rw [div_lt_one hs]; exact hv.2
    rw [abs_lt]
    constructor <;> [skip; skip] <;> rw [mul_div_assoc] <;> linarith
  have ks := abs_lt.1 (key u hu)
  have kt := abs_lt.1 (key y hy)
  have ks' := abs_lt.1 (key u' hu')
  have kt' := abs_lt.1 (key y' hy')
  have back : ∀ v w : K, 2 * v / side - 1 = 2 * w / side - 1 → v = w := by
    intro v w h
    have h2 : 2 * v / (side : K) = 2 * w / side := by linarith
    rw [div_left_inj' hs.ne'] at h2
    linarith
  suffices h : f = f' ∧ 2 * u / side - 1 = 2 * u' / side - 1 ∧ 2 * y / side - 1 = 2 * y' / side - 1 from
    ⟨h.1, back _ _ h.2.1, back _ _ h.2.2⟩
  generalize 2 * u / (side : K) - 1 = s at *
  generalize 2 * y / (side : K) - 1 = t at *
  generalize 2 * u' / (side : K) - 1 = s' at *
  generalize 2 * y' / (side : K) - 1 = t' at *
  have hc1 : c = 1 := by
    refine onUnitCube_scale ?_ ?_ hc heq
    · rw [h1]; exact cubeFace_at_onUnitCube f hf F hF s t (abs_le.2 ⟨ks.1.le, ks.2.le⟩) (abs_le.2 ⟨kt.1.le, kt.2.le⟩)
    · rw [h1']
      exact cubeFace_at_onUnitCube f' hf' F' hF' s' t' (abs_le.2 ⟨ks'.1.le, ks'.2.le⟩) (abs_le.2 ⟨kt'.1.le, kt'.2.le⟩)
  have hpp : p = p' := by rw [heq, hc1]; ext <;> simp [Vec3.smul]
  rw [h1, h1'] at hpp
  exact cubeFace_at_inj hf hf' hF hF' ks kt ks' kt' hpp

example : CubeMap.unproject 4 (⟨4 * (2 : ℕ) + 1, 3⟩ : Vec2 ℚ) = .ok ⟨-1 / 2, 1 / 2, 1⟩ ∧
    CubeMap.unproject 4 (⟨4 * (4 : ℕ) + 1, 3⟩ : Vec2 ℚ) = .ok ⟨-1 / 2, -1, 1 / 2⟩ := by decide +kernel

/-- **C73.** Every viewing direction is seen: for every non-zero direction `d` there is a position of the image whose ray
is a positive multiple of `d`. -/
theorem C73_surjective (side : ℕ) (hside : 0 < side) (d : Vec3 K) (hd : d ≠ 0) :
    ∃ x y c : K, 0 ≤ x ∧ x < 6 * side ∧ 0 ≤ y ∧ y ≤ side ∧ 0 < c ∧
      CubeMap.unproject side ⟨x, y⟩ = .ok (Vec3.smul c d) := by
  have hs : (0 : K) < side := by exact_mod_cast hside
  -- it is enough to find a face and in-plane coordinates
  have reduce : ∀ (f : ℕ) (F : CubeFace K) (s t c : K), f < 6 → cubeFaces[f]? = some F → -1 ≤ s → s < 1 → -1 ≤ t →
      t ≤ 1 → 0 < c → F.at s t = Vec3.smul c d → ∃ x y c : K, 0 ≤ x ∧ x < 6 * side ∧ 0 ≤ y ∧ y ≤ side ∧ 0 < c ∧
        CubeMap.unproject side ⟨x, y⟩ = .ok (Vec3.smul c d) := by
    intro f F s t c hf hF hs1 hs2 ht1 ht2 hc h
    have hu0 : 0 ≤ side * (s + 1) / 2 := by
      apply div_nonneg (mul_nonneg hs.le (by linarith)) (by norm_num)
    have hu1 : side * (s + 1) / 2 < side := by
      have : (side : K) * (s + 1) < side * 2 := mul_lt_mul_of_pos_left (by linarith) hs
      linarith
    obtain ⟨F', hF', hp⟩ := unproject_face side hside f hf (side * (s + 1) / 2) (side * (t + 1) / 2) hu0 hu1
    rw [hF] at hF'
    obtain rfl := Option.some.inj hF'
    have es : 2 * (side * (s + 1) / 2) / (side : K) - 1 = s := by field_simp; ring
    have et : 2 * (side * (t + 1) / 2) / (side : K) - 1 = t := by field_simp; ring
    rw [es, et, h] at hp
    have hf5 : (f : K) ≤ 5 := by exact_mod_cast Nat.le_of_lt_succ hf
    have hm : (side : K) * f ≤ side * 5 := mul_le_mul_of_nonneg_left hf5 hs.le
    have hm0 : (0 : K) ≤ side * f := mul_nonneg hs.le (Nat.cast_nonneg f)
    have ht : (side : K) * (t + 1) ≤ side * 2 := mul_le_mul_of_nonneg_left (by linarith) hs.le
    have ht0 : (0 : K) ≤ side * (t + 1) := mul_nonneg hs.le (by linarith)
    exact ⟨_, _, c, by linarith, by linarith, by linarith, by linarith, hc, hp⟩
  obtain ⟨x, y, z⟩ := d
  -- coordinates divided by the positive number `m`
  have quot : ∀ {a m : K}, 0 < m → -m ≤ a → -1 ≤ a / m := by
    intro a m hm h
    rw [le_div_iff₀ hm]; linarith
  have quot' : ∀ {a m : K}, 0 < m → a ≤ m → a / m ≤ 1 := by
    intro a m hm h
    rw [div_le_iff₀ hm]; linarith
  have quot'' : ∀ {a m : K}, 0 < m → a < m → a / m < 1 := by
    intro a m hm h
    rw [div_lt_iff₀ hm]; linarith
  by_cases hv : |x| < |y| ∧ |z| < |y|
  · obtain ⟨hx, hz⟩ := hv
    rw [abs_lt] at hx hz
    rcases lt_trichotomy y 0 with hy | hy | hy
    · rw [abs_of_neg hy] at hx hz
      have hm : 0 < -y := by linarith
      refine reduce 4 _ (x / -y) (z / -y) (1 / -y) (by norm_num) rfl (quot hm (by linarith)) (quot'' hm (by linarith))
        (quot hm (by linarith)) (quot' hm (by linarith)) (by positivity) ?_
      have hy' : y ≠ 0 := hy.ne
      ext <;> simp [CubeFace.at, Vec3.smul] <;> field_simp
    · subst hy
      simp at hx
      linarith [hx.1, hx.2]
    · rw [abs_of_pos hy] at hx hz
      refine reduce 5 _ (x / y) (-z / y) (1 / y) (by norm_num) rfl (quot hy (by linarith)) (quot'' hy (by linarith))
        (quot hy (by linarith)) (quot' hy (by linarith)) (by positivity) ?_
      have hy' : y ≠ 0 := hy.ne'
      ext <;> simp [CubeFace.at, Vec3.smul] <;> field_simp
  · have hmax : |y| ≤ max |x| |z| := by
      by_contra hcon
      rw [not_le, max_lt_iff] at hcon
      exact hv hcon
    have habs := abs_le.1 hmax
    by_cases hfront : 0 < z ∧ -z ≤ x ∧ x < z
    · obtain ⟨hz, h1, h2⟩ := hfront
      have : max |x| |z| = z := by
        rw [abs_of_pos hz, max_eq_right]
        exact abs_le.2 ⟨h1, h2.le⟩
      rw [this] at habs
      refine reduce 2 _ (x / z) (y / z) (1 / z) (by norm_num) rfl (quot hz h1) (quot'' hz h2) (quot hz habs.1)
        (quot' hz habs.2) (by positivity) ?_
      have hz' : z ≠ 0 := hz.ne'
      ext <;> simp [CubeFace.at, Vec3.smul] <;> field_simp
    by_cases hright : 0 < x ∧ -x < z ∧ z ≤ x
    · obtain ⟨hx, h1, h2⟩ := hright
      have : max |x| |z| = x := by
        rw [abs_of_pos hx, max_eq_left]
        exact abs_le.2 ⟨h1.le, h2⟩
      rw [this] at habs
      refine reduce 3 _ (-z / x) (y / x) (1 / x) (by norm_num) rfl (quot hx (by linarith)) (quot'' hx (by linarith))
        (quot hx habs.1) (quot' hx habs.2) (by positivity) ?_
      have hx' : x ≠ 0 := hx.ne'
      ext <;> simp [CubeFace.at, Vec3.smul] <;> field_simp
    by_cases hback : z < 0 ∧ z < x ∧ x ≤ -z
    · obtain ⟨hz, h1, h2⟩ := hback
      have : max |x| |z| = -z := by
        rw [abs_of_neg hz, max_eq_right]
        exact abs_le.2 ⟨by linarith, h2⟩
      rw [this] at habs
      have hm : 0 < -z := by linarith
      refine reduce 0 _ (-x / -z) (y / -z) (1 / -z) (by norm_num) rfl (quot hm (by linarith)) (quot'' hm (by linarith))
        (quot hm (by linarith [habs.1])) (quot' hm habs.2) (by positivity) ?_
      have hz' : z ≠ 0 := hz.ne
      ext <;> simp [CubeFace.at, Vec3.smul] <;> field_simp
    by_cases hleft : x < 0 ∧ x ≤ z ∧ z < -x
    · obtain ⟨hx, h1, h2⟩ := hleft
      have : max |x| |z| = -x := by
        rw [abs_of_neg hx, max_eq_left]
        exact abs_le.2 ⟨by linarith, h2.le⟩
      rw [this] at habs
      have hm : 0 < -x := by linarith
      refine reduce 1 _ (z / -x) (y / -x) (1 / -x) (by norm_num) rfl (quot hm (by linarith)) (quot'' hm (by linarith))
        (quot hm (by linarith [habs.1])) (quot' hm habs.2) (by positivity) ?_
      have hx' : x ≠ 0 := hx.ne
      ext <;> simp [CubeFace.at, Vec3.smul] <;> field_simp
    exfalso
    have hxz : x = 0 ∧ z = 0 := by
      rcases lt_trichotomy x 0 with hx | hx | hx
      · rcases lt_trichotomy z 0 with hz | hz | hz
        · by_cases h : x ≤ z
          · exact absurd ⟨hx, h, by linarith⟩ hleft
          · exact absurd ⟨hz, by linarith, by linarith⟩ hback
        · exact absurd ⟨hx, by linarith, by linarith⟩ hleft
        · by_cases h : z < -x
          · exact absurd ⟨hx, by linarith, h⟩ hleft
          · exact absurd ⟨hz, by linarith, by linarith⟩ hfront
      · rcases lt_trichotomy z 0 with hz | hz | hz
        · exact absurd ⟨hz, by linarith, by linarith⟩ hback
        · exact ⟨hx, hz⟩
        · exact absurd ⟨hz, by linarith, by linarith⟩ hfront
      · rcases lt_trichotomy z 0 with hz | hz | hz
        · by_cases h : -x < z
          · exact absurd ⟨hx, h, by linarith⟩ hright
          · exact absurd ⟨hz, by linarith, by linarith⟩ hback
        · exact absurd ⟨hx, by linarith, by linarith⟩ hright
        · by_cases h : z ≤ x
          · exact absurd ⟨hx, by linarith, h⟩ hright
          · exact absurd ⟨hz, by linarith, by linarith⟩ hfront
    obtain ⟨rfl, rfl⟩ := hxz
    simp at hmax
    subst hmax
    exact hd rfl

example : (⟨1, 2, 3⟩ : Vec3 ℚ) ≠ 0 := by decide

/-- **C73.** Rays agree along the seams of the four vertical faces (back, left, front, right, and from right back to
back): the ray of the first position of a face is the limit of the rays of the previous face — at distance `e` before the
seam the ray differs by at most `2 e / side` in each coordinate. -/
theorem C73_vertical_seams (side : ℕ) (hside : 0 < side) (k : ℕ) (hk : k < 4) (e y : K) (he0 : 0 < e) (he1 : e ≤ side) :
    ∃ p q, CubeMap.unproject side ⟨side * (k + 1 : ℕ) - e, y⟩ = .ok p ∧
      CubeMap.unproject side ⟨side * (((k + 1) % 4 : ℕ) : K), y⟩ = .ok q ∧ CubeClose (2 * e / side) p q := by
  have hs : (0 : K) < side := by exact_mod_cast hside
  obtain ⟨F, hF, h1⟩ := unproject_face side hside k (by omega) ((side : K) - e) y (by linarith) (by linarith)
  obtain ⟨G, hG, h2⟩ := unproject_face side hside ((k + 1) % 4) (by omega) (0 : K) y le_rfl hs
  have e1 : (side : K) * k + (side - e) = side * (k + 1 : ℕ) - e := by push_cast; ring
  rw [e1] at h1
  rw [add_zero] at h2
  refine ⟨_, _, h1, h2, ?_⟩
  have es : 2 * (side - e) / (side : K) - 1 = 1 - 2 * e / side := by field_simp; ring
  have e0 : 2 * 0 / (side : K) - 1 = -1 := by simp
  rw [es, e0]
  have hw : 0 ≤ 2 * e / (side : K) := by positivity
  generalize 2 * e / (side : K) = w at hw
  generalize 2 * y / (side : K) - 1 = t
  have hall := cubeFace_at (1 - w) t
  have hall' := cubeFace_at (-1) t
  simp only [cubeFaces, List.map_cons, List.map_nil, List.cons.injEq] at hall hall'
  interval_cases k <;> simp only [cubeFaces] at hF hG <;> obtain rfl := Option.some.inj hF <;>
    obtain rfl := Option.some.inj hG <;> simp only [hall, hall', CubeClose] <;>
    refine ⟨?_, ?_, ?_⟩ <;> rw [abs_le] <;> constructor <;> linarith

/-- **C73.** Rays agree along the eight seams between the up and down faces and the four vertical faces.  Positions on the
edges that belong to the image (top and bottom edges, left edges) have exactly the ray of the adjacent face's position; at
distance `e` before the right edges of the up and down faces the ray differs by at most `2 e / side`. -/
theorem C73_up_down_seams (side : ℕ) (hside : 0 < side) (v e : K) (hv0 : 0 < v) (hv1 : v < side) (he0 : 0 < e)
    (he1 : e ≤ side) :
    let at' := fun (f : ℕ) (u y : K) => CubeMap.unproject side (⟨side * f + u, y⟩ : Vec2 K)
    -- up face: top edge/back, left edge/left, bottom edge/front, right edge/right
    at' 4 v 0 = at' 0 (side - v) 0 ∧ at' 4 0 v = at' 1 v 0 ∧ at' 4 v side = at' 2 v 0 ∧
    (∃ p q, at' 4 (side - e) v = .ok p ∧ at' 3 (side - v) 0 = .ok q ∧ CubeClose (2 * e / side) p q) ∧
    -- down face: top edge/front, left edge/left, bottom edge/back, right edge/right
    at' 5 v 0 = at' 2 v side ∧ at' 5 0 v = at' 1 (side - v) side ∧ at' 5 v side = at' 0 (side - v) side ∧
    (∃ p q, at' 5 (side - e) v = .ok p ∧ at' 3 v side = .ok q ∧ CubeClose (2 * e / side) p q) := by
  have hs : (0 : K) < side := by exact_mod_cast hside
  intro at'
  have get : ∀ (f : ℕ), f < 6 → ∀ u y : K, 0 ≤ u → u < side → ∃ F, (cubeFaces : List (CubeFace K))[f]? = some F ∧
      at' f u y = .ok (F.at (2 * u / side - 1) (2 * y / side - 1)) :=
    fun f hf u y h0 h1 => unproject_face side hside f hf u y h0 h1
  have e0 : 2 * 0 / (side : K) - 1 = -1 := by simp
  have e1 : 2 * (side : K) / (side : K) - 1 = 1 := by field_simp; ring
  have ev : 2 * (side - v) / (side : K) - 1 = -(2 * v / side - 1) := by field_simp; ring
  have ee : 2 * (side - e) / (side : K) - 1 = 1 - 2 * e / side := by field_simp; ring
  have hw : 0 ≤ 2 * e / (side : K) := by positivity
  refine ⟨?_, ?_, ?_, ?_, ?_, ?_, ?_, ?_⟩
  · obtain ⟨F, hF, h1⟩ := get 4 (by norm_num) v 0 hv0.le hv1
    obtain ⟨G, hG, h2⟩ := get 0 (by norm_num) (side - v) 0 (by linarith) (by linarith)
    rw [h1, h2, e0, ev]
    obtain rfl := Option.some.inj hF
    obtain rfl := Option.some.inj hG
    congr 1; ext <;> simp [CubeFace.at, Vec3.smul]
  · obtain ⟨F, hF, h1⟩ := get 4 (by norm_num) 0 v le_rfl hs
    obtain ⟨G, hG, h2⟩ := get 1 (by norm_num) v 0 hv0.le hv1
    rw [h1, h2, e0]
    obtain rfl := Option.some.inj hF
    obtain rfl := Option.some.inj hG
    congr 1; ext <;> simp [CubeFace.at, Vec3.smul]
  · obtain ⟨F, hF, h1⟩ := get 4 (by norm_num) v side hv0.le hv1
    obtain ⟨G, hG, h2⟩ := get 2 (by norm_num) v 0 hv0.le hv1
    rw [h1, h2, e0, e1]
    obtain rfl := Option.some.inj hF
    obtain rfl := Option.some.inj hG
    congr 1; ext <;> simp [CubeFace.at, Vec3.smul]
  · obtain ⟨F, hF, h1⟩ := get 4 (by norm_num) (side - e) v (by linarith) (by linarith)
    obtain ⟨G, hG, h2⟩ := get 3 (by norm_num) (side - v) 0 (by linarith) (by linarith)
    refine ⟨_, _, h1, h2, ?_⟩
    rw [e0, ev, ee]
    obtain rfl := Option.some.inj hF
    obtain rfl := Option.some.inj hG
    refine ⟨?_, ?_, ?_⟩ <;> simp [CubeFace.at, Vec3.smul, abs_of_nonneg hw, hw]
  · obtain ⟨F, hF, h1⟩ := get 5 (by norm_num) v 0 hv0.le hv1
    obtain ⟨G, hG, h2⟩ := get 2 (by norm_num) v side hv0.le hv1
    rw [h1, h2, e0, e1]
    obtain rfl := Option.some.inj hF
    obtain rfl := Option.some.inj hG
    congr 1; ext <;> simp [CubeFace.at, Vec3.smul]
  · obtain ⟨F, hF, h1⟩ := get 5 (by norm_num) 0 v le_rfl hs
    obtain ⟨G, hG, h2⟩ := get 1 (by norm_num) (side - v) side (by linarith) (by linarith)
    rw [h1, h2, e0, e1, ev]
    obtain rfl := Option.some.inj hF
    obtain rfl := Option.some.inj hG
    congr 1; ext <;> simp [CubeFace.at, Vec3.smul]
  · obtain ⟨F, hF, h1⟩ := get 5 (by norm_num) v side hv0.le hv1
    obtain ⟨G, hG, h2⟩ := get 0 (by norm_num) (side - v) side (by linarith) (by linarith)
    rw [h1, h2, e1, ev]
    obtain rfl := Option.some.inj hF
    obtain rfl := Option.some.inj hG
    congr 1; ext <;> simp [CubeFace.at, Vec3.smul]
  · obtain ⟨F, hF, h1⟩ := get 5 (by norm_num) (side - e) v (by linarith) (by linarith)
    obtain ⟨G, hG, h2⟩ := get 3 (by norm_num) v side hv0.le hv1
    refine ⟨_, _, h1, h2, ?_⟩
    rw [e1, ee]
    obtain rfl := Option.some.inj hF
    obtain rfl := Option.some.inj hG
    refine ⟨?_, ?_, ?_⟩ <;> simp [CubeFace.at, Vec3.smul, abs_of_nonneg hw, hw]

example : (0 : ℚ) < 1 ∧ (1 : ℚ) < (4 : ℕ) := by norm_num

/-- **C73.** The right end of the image is treated as the left end, and positions beyond it are refused. -/
theorem C73_beyond (side : ℕ) (hside : 0 < side) (x y : K) :
    CubeMap.unproject side (⟨6 * side, y⟩ : Vec2 K) = CubeMap.unproject side (⟨0, y⟩ : Vec2 K) ∧
      (6 * side < x → CubeMap.unproject side (⟨x, y⟩ : Vec2 K) = .error .indexError) := by
  have hs : (0 : K) < side := by exact_mod_cast hside
  constructor
  · obtain ⟨F, hF, h⟩ := unproject_face side hside 0 (by norm_num) (0 : K) y le_rfl hs
    have e : (side : K) * (0 : ℕ) + 0 = 0 := by simp
    rw [e] at h
    rw [h]
    obtain rfl := Option.some.inj hF
    unfold CubeMap.unproject
    simp only [if_true]
    congr 1
    ext
    · simp [CubeMap.sensorOfPixel, CubeFace.at, Vec3.smul]; field_simp
    · simp [CubeMap.sensorOfPixel, CubeFace.at, Vec3.smul]; field_simp
    · simp [CubeFace.at, Vec3.smul]
  · intro hx
    have h6 : (6 : K) ≤ x / side := by rw [le_div_iff₀ hs]; exact hx.le
    have hface : CubeMap.toSizeT (x / (side : K)) ≥ 6 := by
      unfold CubeMap.toSizeT
      rw [if_neg (by linarith), if_neg (by linarith)]
      have : (6 : ℤ) ≤ ⌊x / (side : K)⌋ := by
        rw [Int.le_floor]; simpa using h6
      omega
    unfold CubeMap.unproject
    simp only [if_neg hx.ne', if_pos hface]

/-- **C73.** The pixels of an image of the size of the cube map, and no column beyond them, have a direction. -/
theorem C73_pixels (side : ℕ) (hside : 0 < side) (row col : ℕ) :
    (row < (CubeMap.size side).2 → col < (CubeMap.size side).1 →
      ∃ p : Vec3 K, CubeMap.unproject side (CubeMap.pixelCoordinates row col) = .ok p ∧ OnUnitCube p) ∧
    ((CubeMap.size side).1 ≤ col →
      CubeMap.unproject side (CubeMap.pixelCoordinates row col : Vec2 K) = .error .indexError) ∧
    (CubeMap.size side).1 * (CubeMap.size side).2 = 6 * (side * side) := by
  have half : (0 : K) < 1 / 2 := by norm_num
  refine ⟨fun hr hc => ?_, fun hc => ?_, by simp only [CubeMap.size]; ring⟩
  · have hr' : (row : K) + 1 ≤ side := by exact_mod_cast hr
    have hc' : (col : K) + 1 ≤ 6 * side := by
      have : col + 1 ≤ 6 * side := by simp only [CubeMap.size] at hc; omega
      exact_mod_cast this
    have h1 : (0 : K) ≤ col := Nat.cast_nonneg _
    have h2 : (0 : K) ≤ row := Nat.cast_nonneg _
    obtain ⟨f, u, F, p, -, -, -, -, -, h, -, h', -⟩ := C73_on_face (K := K) side hside (col + 1 / 2) (row + 1 / 2) (by linarith)
      (by linarith [half, (by norm_num : (1 : K) / 2 < 1)]) (by linarith) (by linarith [(by norm_num : (1 : K) / 2 < 1)])
    exact ⟨p, h, h'⟩
  · refine (C73_beyond side hside _ _).2 ?_
    have : (6 * side : K) ≤ col := by
      have : 6 * side ≤ col := by simp only [CubeMap.size] at hc; omega
      exact_mod_cast this
    linarith

end Sumo
