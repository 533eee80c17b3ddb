import Verif.Model.FloatAp
import Verif.Model.FloatRange
import Verif.Model.FloatRotation
import Verif.Spec.FloatRigid
import Verif.Spec.RangeImage

/-!
# What C158 says
-/

namespace Sumo
namespace FloatRangeSpec
open FloatRigidSpec

/-- The library computes norms as the root of a sum of squares, each operation rounded, in any order. -/
def GoodNorm (norm : Vec3 ℚ → ℚ) : Prop :=
  ∀ v : Vec3 ℚ, ∃ s, Fl.FlSum [double (v.x * v.x), double (v.y * v.y), double (v.z * v.z)] s ∧ norm v = sqrtD s

/-- A stored number as a real number. -/
def asReal : FVal ℚ → FVal ℝ
  | .fin r => .fin r
  | .posInf => .posInf
  | .negInf => .negInf
  | .nan => .nan

/-- What is emitted for a pixel: a point next to the one that is seen there, and the colour of the pixel. -/
def PixelNear (side : ℕ) (px : RangePixel) (out : Vec3 ℚ × Color) : Prop :=
  ∃ (r : ℝ) (p : Vec3 ℝ), ValidRange px.range r ∧ SeenAt side px.row px.col r p ∧ (rv out.1 - p).norm ≤ r / 2 ^ 48 ∧ out.2 = px.color

/-- What is emitted for a pixel when all points are wanted. -/
def PixelNearAll (side : ℕ) (px : RangePixel) (out : Vec3 ℚ × Color) : Prop :=
  PixelNear side px out ∨ ((¬ ∃ r, ValidRange px.range r) ∧ out = (0, ⟨0, 0, 0⟩))

end FloatRangeSpec
end Sumo
