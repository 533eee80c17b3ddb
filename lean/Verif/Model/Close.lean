import Verif.Model.Float
import Mathlib.Algebra.Order.Field.Rat

/-!
# Almost equal

`almost_equal` of poses, rotations and boxes, and `==` of boxes (`sumo-api/sumo/geometry/pose3.pyx:86-87`,
`sumo-api/sumo/geometry/rot3.pyx:109-110`, `sumo-api/sumo/threedee/box_3d.pyx:94-110`).  Entries are numbers, infinities or not-a-number;
arithmetic is exact.
-/

namespace Sumo
namespace Close

/-- One entry of `np.isclose(x, y, rtol, atol)`: finite numbers within `atol + rtol * |y|`; infinities if they are equal; nothing is close
to not-a-number (`equal_nan` is `False`). -/
def isclose (rtol atol : ℚ) : FVal ℚ → FVal ℚ → Bool
  | .fin x, .fin y => decide (|x - y| ≤ atol + rtol * |y|)
  | .posInf, .posInf => true
  | .negInf, .negInf => true
  | _, _ => false

/-- `np.allclose` of two arrays of one shape, as the lists of their entries. -/
def allclose (rtol atol : ℚ) (a b : List (FVal ℚ)) : Bool := (a.zip b).all fun p => isclose rtol atol p.1 p.2

/-- One entry of `a == b`. -/
def equalEntry : FVal ℚ → FVal ℚ → Bool
  | .nan, _ => false
  | _, .nan => false
  | x, y => decide (x = y)

/-- `np.array_equal`. -/
def arrayEqual (a b : List (FVal ℚ)) : Bool := decide (a.length = b.length) && (a.zip b).all fun p => equalEntry p.1 p.2

/-- A pose, by the twelve entries of `matrix34()`; or a rotation, by its nine. -/
abbrev Entries := List (FVal ℚ)

/-- `Pose3.almost_equal` (`geometry/pose3.pyx:86-87`) and `Rot3.almost_equal` (`geometry/rot3.pyx:109-110`); the defaults are those of
numpy. -/
def almostEqual (a b : Entries) (rtol : ℚ := 1 / 10 ^ 5) (atol : ℚ := 1 / 10 ^ 8) : Bool := allclose rtol atol a b

/-- A box, by its two corners (three entries each). -/
structure BoxEntries where
  minCorner : Entries
  maxCorner : Entries
  deriving DecidableEq

/-- `Box3d.almost_equal` (`threedee/box_3d.pyx:94-101`). -/
def BoxEntries.almostEqual (a b : BoxEntries) (rtol : ℚ := 1 / 10 ^ 5) (atol : ℚ := 1 / 10 ^ 8) : Bool :=
  allclose rtol atol a.minCorner b.minCorner && allclose rtol atol a.maxCorner b.maxCorner

/-- `Box3d.__eq__` (`threedee/box_3d.pyx:104-110`). -/
def BoxEntries.eq (a b : BoxEntries) : Bool := arrayEqual a.minCorner b.minCorner && arrayEqual a.maxCorner b.maxCorner

end Close
end Sumo
