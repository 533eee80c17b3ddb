import Verif.Model.Vec
import Verif.Model.FloatAp
import Mathlib.Analysis.SpecialFunctions.Sqrt

/-!
# Functions on vectors

`unitize` and `on_left` (`sumo-api/sumo/base/vector.pyx:132-156`), exact and in double precision.
-/

namespace Sumo

/-- `unitize` (`base/vector.pyx:132-141`), exact. -/
noncomputable def unitize (v : Vec3 ℝ) : Vec3 ℝ :=
  let norm := Real.sqrt v.normSq
  if norm ≠ 0 then ⟨v.x / norm, v.y / norm, v.z / norm⟩ else v

/-- `on_left` (`base/vector.pyx:143-156`), exact. -/
def onLeft {K : Type} [CommRing K] [LinearOrder K] (N p a b : Vec3 K) : Bool := decide (0 ≤ N.dot ((b - a).cross (p - a)))

namespace Fl

/-- `unitize` (`base/vector.pyx:132-141`) in double precision; `np.linalg.norm` is library code and a parameter. -/
def unitize (norm : Vec3 ℚ → ℚ) (v : Vec3 ℚ) : Vec3 ℚ :=
  if norm v ≠ 0 then ⟨double (v.x / norm v), double (v.y / norm v), double (v.z / norm v)⟩ else v

/-- `np.subtract` of two vectors (`base/vector.pyx:156`). -/
def sub3 (a b : Vec3 ℚ) : Vec3 ℚ := ⟨double (a.x - b.x), double (a.y - b.y), double (a.z - b.z)⟩

/-- `np.cross` (`base/vector.pyx:156`). -/
def cross3 (a b : Vec3 ℚ) : Vec3 ℚ :=
  ⟨double (double (a.y * b.z) - double (a.z * b.y)), double (double (a.z * b.x) - double (a.x * b.z)),
   double (double (a.x * b.y) - double (a.y * b.x))⟩

/-- The products that `np.dot(N, np.cross(b-a, p-a))` adds up (`base/vector.pyx:156`). -/
def leftTerms (N p a b : Vec3 ℚ) : List ℚ :=
  let c := cross3 (sub3 b a) (sub3 p a)
  [double (N.x * c.x), double (N.y * c.y), double (N.z * c.z)]

/-- `on_left` (`base/vector.pyx:143-156`) in double precision; how `np.dot` adds is a parameter. -/
def onLeft (sum : List ℚ → ℚ) (N p a b : Vec3 ℚ) : Bool := decide (0 ≤ sum (leftTerms N p a b))

end Fl
end Sumo
