import Verif.Spec.PointCloud
import Verif.Spec.Geometry
import Verif.Lemmas.Geometry
import Verif.Lemmas.Category

/-! # Lemmas about point clouds -/

namespace Sumo

variable {K : Type}

theorem coloredCloud_zip {c : PointCloud K} (h : c.colors.length = c.points.length) :
    ColoredCloud c (List.zip c.points c.colors) :=
  ⟨by rw [List.map_fst_zip]; omega, by rw [List.map_snd_zip]; omega⟩

theorem ColoredCloud.consistent {c : PointCloud K} {l : List (Vec3 K × Color)} (h : ColoredCloud c l) : ConsistentCloud c :=
  .inr (by rw [h.1, h.2]; simp)

theorem PlainCloud.consistent {c : PointCloud K} {l : List (Vec3 K)} (h : PlainCloud c l) : ConsistentCloud c := .inl h.2

theorem ColoredCloud.colored_iff {c : PointCloud K} {l : List (Vec3 K × Color)} (h : ColoredCloud c l) :
    c.colored = true ↔ l ≠ [] := by
  unfold PointCloud.colored
  rw [h.2]
  cases l <;> simp

theorem PlainCloud.not_colored {c : PointCloud K} {l : List (Vec3 K)} (h : PlainCloud c l) : c.colored = false := by
  unfold PointCloud.colored
  rw [h.2]; rfl


/-- If every entry of one list is at most that of the other, equal sums force equal entries. -/
theorem sum_eq_forall {α : Type} (f g : α → ℕ) : ∀ l : List α, (∀ a ∈ l, f a ≤ g a) →
    (l.map f).sum ≤ (l.map g).sum ∧ ((l.map f).sum = (l.map g).sum → ∀ a ∈ l, f a = g a) := by
  intro l
  induction l with
  | nil => intro _; simp
  | cons a l ih =>
    intro h
    obtain ⟨h1, h2⟩ := ih fun x hx => h x (by simp [hx])
    have ha := h a (by simp)
    simp only [List.map_cons, List.sum_cons]
    refine ⟨by omega, fun he x hx => ?_⟩
    rcases List.mem_cons.1 hx with rfl | hx
    · omega
    · exact h2 (by omega) x hx

variable [CommRing K]

theorem transformAllFrom_eq (a : Pose3 K) (l : List (Vec3 K)) : a.transformAllFrom l = l.map a.transformFrom := by
  simp [Pose3.transformAllFrom, Rot3.applyAll, Pose3.transformFrom, Rot3.apply]

theorem transformAllTo_eq (a : Pose3 K) (l : List (Vec3 K)) : a.transformAllTo l = l.map a.transformTo := by
  simp [Pose3.transformAllTo, Rot3.unrotateAll, Pose3.transformTo, Rot3.unrotate]

theorem transformTo_from (a : Pose3 K) (ha : IsOrthogonal a.R) (p : Vec3 K) : a.transformTo (a.transformFrom p) = p := by
  unfold Pose3.transformTo Pose3.transformFrom Rot3.unrotate Rot3.apply
  rw [vadd_sub, ← mulVec_mul, ha.left, mulVec_one]

theorem transformFrom_to (a : Pose3 K) (ha : IsOrthogonal a.R) (p : Vec3 K) : a.transformFrom (a.transformTo p) = p := by
  unfold Pose3.transformTo Pose3.transformFrom Rot3.unrotate Rot3.apply
  rw [← mulVec_mul, ha.right, mulVec_one, vsub_add]

end Sumo
