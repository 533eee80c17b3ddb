import Verif.Model.FloatPose
import Verif.Spec.FloatPose
import Verif.Lemmas.FloatVoxel
import Verif.Lemmas.Box
import Verif.Props.FloatPoints

/-! Posed points and boxes in double precision. -/

namespace Sumo
open FloatPoseSpec FloatPointsSpec

namespace Fl

/-! ### Boxes of points -/

theorem bbox_inside (l : List (Vec3 ℚ)) : InsideF l (bboxOfPoints l) := by
  cases l with
  | nil => intro p hp; simp at hp
  | cons a l =>
    intro p hp
    rw [bboxOfPoints_cons]
    have h1 := (amin_spec a l).1 p hp
    have h2 := (amax_spec a l).1 p hp
    exact ⟨⟨h1.1, h2.1⟩, ⟨h1.2.1, h2.2.1⟩, h1.2.2, h2.2.2⟩

theorem bbox_corner {l : List (Vec3 ℚ)} (h : ∀ p ∈ l, IsDouble p.x ∧ IsDouble p.y ∧ IsDouble p.z) : DoubleCorner (bboxOfPoints l) := by
  cases l with
  | nil =>
    refine ⟨?_, ?_, ?_⟩ <;> (have : IsDouble (0 : ℚ) := by simpa using double_isDouble 0) <;>
      simpa [bboxOfPoints, Box3d.mk', Vec3.vmin] using this
  | cons a l =>
    rw [bboxOfPoints_cons]
    obtain ⟨-, ⟨u, hu, eu⟩, ⟨v, hv, ev⟩, w, hw, ew⟩ := amin_spec a l
    exact ⟨eu ▸ (h u hu).1, ev ▸ (h v hv).2.1, ew ▸ (h w hw).2.2⟩

theorem bbox_ordered (l : List (Vec3 ℚ)) : FloatPointsSpec.Ordered (bboxOfPoints l) := by
  cases l with
  | nil => simp [FloatPointsSpec.Ordered, bboxOfPoints, Box3d.mk', Vec3.vmin, Vec3.vmax]
  | cons a l =>
    have := bbox_inside (a :: l) a (by simp)
    exact ⟨this.1.1.trans this.1.2, this.2.1.1.trans this.2.1.2, this.2.2.1.trans this.2.2.2⟩

/-! ### Products -/

/-- One of the two ends of a range, in the direction of a factor. -/
def towards (a lo hi : ℚ) : ℚ := if 0 ≤ a then hi else lo

theorem towards_gain {a lo hi p m : ℚ} (h1 : lo + m ≤ p) (h2 : p + m ≤ hi) : a * p + |a| * m ≤ a * towards a lo hi := by
  unfold towards
  split_ifs with h
  · rw [abs_of_nonneg h]; nlinarith
  · rw [abs_of_neg (by linarith)]; nlinarith

theorem dotted_le {a b c m B x y : ℚ} {p lo hi : Vec3 ℚ} (hm : B ≤ 2 ^ 49 * m)
    (px : |p.x| ≤ B) (py : |p.y| ≤ B) (pz : |p.z| ≤ B)
    (lx : |lo.x| ≤ B) (ly : |lo.y| ≤ B) (lz : |lo.z| ≤ B) (ux : |hi.x| ≤ B) (uy : |hi.y| ≤ B) (uz : |hi.z| ≤ B)
    (h1 : lo.x + m ≤ p.x) (h2 : p.x + m ≤ hi.x) (h3 : lo.y + m ≤ p.y) (h4 : p.y + m ≤ hi.y) (h5 : lo.z + m ≤ p.z) (h6 : p.z + m ≤ hi.z)
    (hp : Dotted a b c p x) (hc : Dotted a b c ⟨towards a lo.x hi.x, towards b lo.y hi.y, towards c lo.z hi.z⟩ y) : x ≤ y := by
  have size : ∀ {a p B : ℚ}, |p| ≤ B → |a * p| ≤ |a| * B := fun {a p B} h => by
    rw [abs_mul]; exact mul_le_mul_of_nonneg_left h (abs_nonneg a)
  have tsize : ∀ {a lo hi : ℚ}, |lo| ≤ B → |hi| ≤ B → |towards a lo hi| ≤ B := fun {a lo hi} h h' => by
    unfold towards; split_ifs <;> assumption
  unfold Dotted at hp hc
  dsimp only at hc
  have e1 := (abs_le.1 hp).2
  have e2 := (abs_le.1 hc).1
  have s1 := size (a := a) px
  have s2 := size (a := b) py
  have s3 := size (a := c) pz
  have t1 := size (a := a) (tsize (a := a) lx ux)
  have t2 := size (a := b) (tsize (a := b) ly uy)
  have t3 := size (a := c) (tsize (a := c) lz uz)
  have g1 := towards_gain (a := a) h1 h2
  have g2 := towards_gain (a := b) h3 h4
  have g3 := towards_gain (a := c) h5 h6
  have k1 := mul_le_mul_of_nonneg_left hm (abs_nonneg a)
  have k2 := mul_le_mul_of_nonneg_left hm (abs_nonneg b)
  have k3 := mul_le_mul_of_nonneg_left hm (abs_nonneg c)
  have n1 : ∀ u v w A : ℚ, u + v + w ≤ A → (u + v + w) / 2 ^ 50 ≤ A / 2 ^ 50 := fun u v w A h => by gcongr
  have f1 := n1 _ _ _ _ (add_le_add (add_le_add s1 s2) s3)
  have f2 := n1 _ _ _ _ (add_le_add (add_le_add t1 t2) t3)
  have key : (|a| * B + |b| * B + |c| * B) / 2 ^ 50 * 2 ≤ |a| * m + |b| * m + |c| * m := by
    rw [div_mul_eq_mul_div, div_le_iff₀ (by norm_num)]
    nlinarith
  linarith

theorem dotted_neg {a b c x : ℚ} {p : Vec3 ℚ} (h : Dotted a b c p x) : Dotted (-a) (-b) (-c) p (-x) := by
  unfold Dotted at h ⊢
  have e : -x - (-a * p.x + -b * p.y + -c * p.z) = -(x - (a * p.x + b * p.y + c * p.z)) := by ring
  rw [e, abs_neg, neg_mul, neg_mul, neg_mul, abs_neg, abs_neg, abs_neg]
  exact h

theorem towards_mem (a b c : ℚ) (B : Box3d ℚ) : (⟨towards a B.minCorner.x B.maxCorner.x, towards b B.minCorner.y B.maxCorner.y,
    towards c B.minCorner.z B.maxCorner.z⟩ : Vec3 ℚ) ∈ B.corners := by
  unfold towards Box3d.corners
  split_ifs <;> simp

/-! ### The bounds of a grid -/

theorem half_exact (x : ℚ) : double (0.5 * double x) = double x / 2 := by
  have h := isDouble_mul_zpow (double_isDouble x) (-1)
  have e : (0.5 * double x : ℚ) = double x * 2 ^ (-1 : ℤ) := by norm_num; ring
  rw [e, double_of_isDouble h]; norm_num; ring

theorem axisCenter_size {isSingle : Bool} {corner s : ℚ} {i : ℤ} (hs : 0 ≤ s) (hc : |corner| ≤ 2 ^ 43 * s) (hi : |i| ≤ 2 ^ 31) :
    |axisCenter isSingle corner s i| ≤ 2 ^ 45 * s := by
  have grow : ∀ {x B : ℚ}, |x| ≤ B → |double x| ≤ B + B / 2 ^ 20 := fun {x B} h => by
    have e := double_err x
    have t := abs_add_le (double x - x) x
    rw [sub_add_cancel] at t
    have := abs_nonneg x
    linarith
  have growS : ∀ {x B : ℚ}, |x| ≤ B → |single x| ≤ B + B / 2 ^ 20 := fun {x B} h => by
    have e := single_err x
    have t := abs_add_le (single x - x) x
    rw [sub_add_cancel] at t
    have := abs_nonneg x
    linarith
  have h0 : |0.5 * s| ≤ s := by rw [abs_of_nonneg (by linarith)]; linarith
  have h1 := grow h0
  have h2 : |cornerOffset isSingle corner s| ≤ 2 ^ 44 * s := by
    unfold cornerOffset
    split_ifs
    · have h3 := growS h1
      have h4 := growS ((abs_add_le corner _).trans (add_le_add hc h3))
      linarith
    · have h4 := grow ((abs_add_le corner _).trans (add_le_add hc h1))
      linarith
  have hi' : |(i : ℚ)| ≤ 2 ^ 31 := by exact_mod_cast hi
  have h5 : |(i : ℚ) * s| ≤ 2 ^ 31 * s := by
    rw [abs_mul, abs_of_nonneg hs]; exact mul_le_mul_of_nonneg_right hi' hs
  have h6 := grow ((abs_add_le (double (i * s)) (cornerOffset isSingle corner s)).trans (add_le_add (grow h5) h2))
  unfold axisCenter
  linarith

theorem axisCenter_isDouble (isSingle : Bool) (corner s : ℚ) (i : ℤ) : IsDouble (axisCenter isSingle corner s i) := double_isDouble _

theorem centers_isDouble (g : Grid) : ∀ p ∈ voxelCenters g, IsDouble p.x ∧ IsDouble p.y ∧ IsDouble p.z := by
  intro p hp
  obtain ⟨v, -, rfl⟩ := List.mem_map.1 hp
  exact ⟨axisCenter_isDouble .., axisCenter_isDouble .., axisCenter_isDouble ..⟩

theorem centers_size {g : Grid} (hs : 0 ≤ voxelSize g) (h : NearOrigin g) : ∀ p ∈ voxelCenters g,
    |p.x| ≤ 2 ^ 45 * voxelSize g ∧ |p.y| ≤ 2 ^ 45 * voxelSize g ∧ |p.z| ≤ 2 ^ 45 * voxelSize g := by
  intro p hp
  obtain ⟨v, hv, rfl⟩ := List.mem_map.1 hp
  obtain ⟨a, b, c, d⟩ := h
  obtain ⟨d1, d2, d3⟩ := d v hv
  exact ⟨axisCenter_size hs a d1, axisCenter_size hs b d2, axisCenter_size hs c d3⟩

/-- The bounds of a grid reach `h` beyond its centres, before rounding. -/
theorem bounds_shape {g : Grid} (hs : 0 < voxelSize g) (hne : g.grid.voxels ≠ []) : ∃ B, bounds g = .ok B ∧
    (∃ p ∈ voxelCenters g, B.minCorner.x = double (p.x - voxelSize g / 2)) ∧
    (∃ p ∈ voxelCenters g, B.minCorner.y = double (p.y - voxelSize g / 2)) ∧
    (∃ p ∈ voxelCenters g, B.minCorner.z = double (p.z - voxelSize g / 2)) ∧
    (∃ p ∈ voxelCenters g, B.maxCorner.x = double (p.x + voxelSize g / 2)) ∧
    (∃ p ∈ voxelCenters g, B.maxCorner.y = double (p.y + voxelSize g / 2)) ∧
    (∃ p ∈ voxelCenters g, B.maxCorner.z = double (p.z + voxelSize g / 2)) ∧
    ∀ p ∈ voxelCenters g,
      (B.minCorner.x ≤ double (p.x - voxelSize g / 2) ∧ double (p.x + voxelSize g / 2) ≤ B.maxCorner.x) ∧
      (B.minCorner.y ≤ double (p.y - voxelSize g / 2) ∧ double (p.y + voxelSize g / 2) ≤ B.maxCorner.y) ∧
      (B.minCorner.z ≤ double (p.z - voxelSize g / 2) ∧ double (p.z + voxelSize g / 2) ≤ B.maxCorner.z) := by
  have hne' : voxelCenters g ≠ [] := by simpa [voxelCenters] using hne
  have hh : double (0.5 * voxelSize g) = voxelSize g / 2 := half_exact _
  unfold bounds
  rw [hh]
  cases hc : voxelCenters g with
  | nil => exact absurd hc hne'
  | cons c cs =>
    obtain ⟨a1, ⟨u, hu, eu⟩, ⟨v, hv, ev⟩, w, hw, ew⟩ := amin_spec c cs
    obtain ⟨a2, ⟨u', hu', eu'⟩, ⟨v', hv', ev'⟩, w', hw', ew'⟩ := amax_spec c cs
    have o1 := a1 c (by simp)
    have o2 := a2 c (by simp)
    have x : double ((Box3d.amin c cs).x - voxelSize g / 2) ≤ double ((Box3d.amax c cs).x + voxelSize g / 2) :=
      double_mono (by have := o1.1; have := o2.1; linarith)
    have y : double ((Box3d.amin c cs).y - voxelSize g / 2) ≤ double ((Box3d.amax c cs).y + voxelSize g / 2) :=
      double_mono (by have := o1.2.1; have := o2.2.1; linarith)
    have z : double ((Box3d.amin c cs).z - voxelSize g / 2) ≤ double ((Box3d.amax c cs).z + voxelSize g / 2) :=
      double_mono (by have := o1.2.2; have := o2.2.2; linarith)
    refine ⟨_, rfl, ?_⟩
    simp only [Box3d.mk', Vec3.vmin, Vec3.vmax, min_eq_left x, min_eq_left y, min_eq_left z, max_eq_right x, max_eq_right y, max_eq_right z]
    refine ⟨⟨u, hu, by rw [eu]⟩, ⟨v, hv, by rw [ev]⟩, ⟨w, hw, by rw [ew]⟩, ⟨u', hu', by rw [eu']⟩, ⟨v', hv', by rw [ev']⟩,
      ⟨w', hw', by rw [ew']⟩, ?_⟩
    intro p hp
    have b1 := a1 p hp
    have b2 := a2 p hp
    exact ⟨⟨double_mono (by linarith [b1.1]), double_mono (by linarith [b2.1])⟩,
      ⟨double_mono (by linarith [b1.2.1]), double_mono (by linarith [b2.2.1])⟩,
      ⟨double_mono (by linarith [b1.2.2]), double_mono (by linarith [b2.2.2])⟩⟩

theorem posed_isDouble (mul : Mat3 ℚ → List (Vec3 ℚ) → List (Vec3 ℚ)) (R : Mat3 ℚ) (t : Vec3 ℚ) (l : List (Vec3 ℚ)) :
    ∀ p ∈ transformAllFrom mul R t l, IsDouble p.x ∧ IsDouble p.y ∧ IsDouble p.z := by
  intro p hp
  obtain ⟨v, -, rfl⟩ := List.mem_map.1 hp
  exact ⟨double_isDouble _, double_isDouble _, double_isDouble _⟩

/-- If every product of a point has a product of a corner on either side on each axis, the posed points are in the posed box. -/
theorem inside_of_products {mul : Mat3 ℚ → List (Vec3 ℚ) → List (Vec3 ℚ)} {R : Mat3 ℚ} {t : Vec3 ℚ} {l c : List (Vec3 ℚ)}
    (h : ∀ v ∈ mul R l, (∃ w ∈ mul R c, w.x ≤ v.x) ∧ (∃ w ∈ mul R c, v.x ≤ w.x) ∧ (∃ w ∈ mul R c, w.y ≤ v.y) ∧
      (∃ w ∈ mul R c, v.y ≤ w.y) ∧ (∃ w ∈ mul R c, w.z ≤ v.z) ∧ (∃ w ∈ mul R c, v.z ≤ w.z)) :
    InsideF (transformAllFrom mul R t l) (bboxOfPoints (transformAllFrom mul R t c)) := by
  intro p hp
  obtain ⟨v, hv, rfl⟩ := List.mem_map.1 hp
  obtain ⟨⟨w1, m1, h1⟩, ⟨w2, m2, h2⟩, ⟨w3, m3, h3⟩, ⟨w4, m4, h4⟩, ⟨w5, m5, h5⟩, w6, m6, h6⟩ := h v hv
  have key : ∀ w ∈ mul R c, _ := fun w hw => bbox_inside (transformAllFrom mul R t c) _ (List.mem_map_of_mem hw)
  have m : ∀ {a b : ℚ} (d : ℚ), a ≤ b → double (a + d) ≤ double (b + d) := fun d h => double_mono (by linarith)
  exact ⟨⟨(key w1 m1).1.1.trans (m _ h1), (m _ h2).trans (key w2 m2).1.2⟩,
    ⟨(key w3 m3).2.1.1.trans (m _ h3), (m _ h4).trans (key w4 m4).2.1.2⟩,
    (key w5 m5).2.2.1.trans (m _ h5), (m _ h6).trans (key w6 m6).2.2.2⟩

theorem forall₂_exists {α β : Type} {P : α → β → Prop} {l : List α} {m : List β} (h : List.Forall₂ P l m) :
    (∀ b ∈ m, ∃ a ∈ l, P a b) ∧ ∀ a ∈ l, ∃ b ∈ m, P a b := by
  induction h with
  | nil => simp
  | cons h _ ih =>
    refine ⟨?_, ?_⟩
    · intro b hb
      rcases List.mem_cons.1 hb with rfl | hb
      · exact ⟨_, by simp, h⟩
      · obtain ⟨a, ha, p⟩ := ih.1 b hb
        exact ⟨a, by simp [ha], p⟩
    · intro a ha
      rcases List.mem_cons.1 ha with rfl | ha
      · exact ⟨_, by simp, h⟩
      · obtain ⟨b, hb, p⟩ := ih.2 a ha
        exact ⟨b, by simp [hb], p⟩

theorem face_margin {c s : ℚ} (hs : 0 < s) (hc : |c| ≤ 2 ^ 45 * s) : double (c - s / 2) + s / 4 ≤ c ∧ c + s / 4 ≤ double (c + s / 2) ∧
    |double (c - s / 2)| ≤ 2 ^ 46 * s ∧ |double (c + s / 2)| ≤ 2 ^ 46 * s := by
  obtain ⟨c1, c2⟩ := abs_le.1 hc
  have e1 := double_err (c - s / 2)
  have e2 := double_err (c + s / 2)
  have b1 : |c - s / 2| ≤ 2 ^ 45 * s + s / 2 := by rw [abs_le]; constructor <;> linarith
  have b2 : |c + s / 2| ≤ 2 ^ 45 * s + s / 2 := by rw [abs_le]; constructor <;> linarith
  obtain ⟨f1, f2⟩ := abs_le.1 e1
  obtain ⟨g1, g2⟩ := abs_le.1 e2
  refine ⟨by linarith, by linarith, ?_, ?_⟩ <;> rw [abs_le] <;> constructor <;> linarith

end Fl
end Sumo
