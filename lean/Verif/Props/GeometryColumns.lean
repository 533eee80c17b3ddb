import Verif.Lemmas.Geometry

/-!
# Rotations by their columns or their entries (C36)
-/

namespace Sumo

open Rot3

/-- **C36**: `FromColumns` has the images of the axes as its columns: a vector is mapped to the combination of them by its
coordinates. -/
theorem C36_columns {K : Type} [CommRing K] (x y z p : Vec3 K) :
    Rot3.rotate (fromColumns x y z) p = Vec3.smul p.x x + Vec3.smul p.y y + Vec3.smul p.z z := by
  ext <;> simp only [Rot3.rotate, fromColumns, Mat3.ofColumns, Mat3.mulVec, Vec3.smul, Vec3.add_x, Vec3.add_y, Vec3.add_z] <;> ring

theorem squares_zero {a b c : ℝ} (h : a ^ 2 + b ^ 2 + c ^ 2 = 0) : a = 0 ∧ b = 0 ∧ c = 0 := by
  have ha := sq_nonneg a
  have hb := sq_nonneg b
  have hc := sq_nonneg c
  exact ⟨pow_eq_zero_iff two_ne_zero |>.1 (by linarith), pow_eq_zero_iff two_ne_zero |>.1 (by linarith),
    pow_eq_zero_iff two_ne_zero |>.1 (by linarith)⟩

/-- **C36**: the columns are those of a proper rotation exactly if the first two are perpendicular unit vectors and the third is their
cross product. -/
theorem C36_columns_rotation (x y z : Vec3 ℝ) :
    IsRotation (fromColumns x y z) ↔ x.normSq = 1 ∧ y.normSq = 1 ∧ x.dot y = 0 ∧ z = x.cross y := by
  rw [isRotation_iff]
  simp only [fromColumns, Mat3.ofColumns, Mat3.transpose, Mat3.mul, Mat3.one, Mat3.det, Mat3.mk.injEq, Vec3.normSq, Vec3.dot]
  constructor
  · rintro ⟨⟨h1, h2, h3, -, h4, h5, -, -, h6⟩, hd⟩
    have key : (z.x - (x.y * y.z - x.z * y.y)) ^ 2 + (z.y - (x.z * y.x - x.x * y.z)) ^ 2 + (z.z - (x.x * y.y - x.y * y.x)) ^ 2 = 0 := by
      linear_combination h6 - 2 * hd + h4 * (x.x * x.x + x.y * x.y + x.z * x.z) + h1 - h2 * (x.x * y.x + x.y * y.y + x.z * y.z)
    obtain ⟨hx, hy, hz⟩ := squares_zero key
    refine ⟨h1, h4, h2, ?_⟩
    ext <;> simp only [Vec3.cross]
    · exact sub_eq_zero.1 hx
    · exact sub_eq_zero.1 hy
    · exact sub_eq_zero.1 hz
  · rintro ⟨h1, h2, h3, rfl⟩
    simp only [Vec3.cross]
    have h4 : (x.y * y.z - x.z * y.y) * (x.y * y.z - x.z * y.y) + (x.z * y.x - x.x * y.z) * (x.z * y.x - x.x * y.z) +
        (x.x * y.y - x.y * y.x) * (x.x * y.y - x.y * y.x) = 1 := by
      linear_combination h2 * (x.x * x.x + x.y * x.y + x.z * x.z) + h1 - h3 * (x.x * y.x + x.y * y.y + x.z * y.z)
    refine ⟨⟨h1, h3, by ring, by linear_combination h3, h2, by ring, by ring, by ring, h4⟩, ?_⟩
    linear_combination h4

/-- A rotation about no axis of coordinates. -/
example : IsRotation (fromColumns (K := ℝ) ⟨3 / 5, 4 / 5, 0⟩ ⟨0, 0, 1⟩ ⟨4 / 5, -3 / 5, 0⟩) :=
  (C36_columns_rotation ⟨3 / 5, 4 / 5, 0⟩ ⟨0, 0, 1⟩ ⟨4 / 5, -3 / 5, 0⟩).2 (by norm_num [Vec3.normSq, Vec3.dot, Vec3.cross])

/-- **C36**: `FromScalars` takes the entries row by row. -/
theorem C36_scalars {K : Type} [CommRing K] (a b c d e f g h i : K) (p : Vec3 K) :
    Rot3.rotate (fromScalars a b c d e f g h i) p =
      ⟨Vec3.dot ⟨a, b, c⟩ p, Vec3.dot ⟨d, e, f⟩ p, Vec3.dot ⟨g, h, i⟩ p⟩ := by
  ext <;> simp only [Rot3.rotate, fromScalars, Mat3.mulVec, Vec3.dot]

end Sumo
