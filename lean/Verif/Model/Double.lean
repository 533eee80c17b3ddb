import Mathlib.Data.Int.Log
import Mathlib.Data.Rat.Floor
import Mathlib.Data.Nat.Sqrt

/-!
# Double precision arithmetic

Python's `float` and numpy's `float64`: every arithmetic operation of `/repo` on them returns the exact result rounded to
53 significant bits, to nearest, ties to even (IEEE 754).  These are models of that arithmetic, not of a particular line of
`/repo`.  The range of the exponent is not modelled: there are no overflows, no underflows, and the two zeros are one.
-/

namespace Sumo

/-- The nearest integer; the even one of two equally near. -/
def roundEven (x : ℚ) : ℤ :=
  if x - ⌊x⌋ < 1 / 2 then ⌊x⌋
  else if 1 / 2 < x - ⌊x⌋ then ⌊x⌋ + 1
  else if ⌊x⌋ % 2 = 0 then ⌊x⌋ else ⌊x⌋ + 1

/-- The unit in the last place of the doubles near `x` is `2 ^ ulpExp x`. -/
def ulpExp (x : ℚ) : ℤ := Int.log 2 |x| - 52

/-- An exact result as a double. -/
def double (x : ℚ) : ℚ := if x = 0 then 0 else roundEven (x / 2 ^ ulpExp x) * 2 ^ ulpExp x

/-- `x` is a double: an integer of at most 53 bits times a power of two. -/
def IsDouble (x : ℚ) : Prop := ∃ m e : ℤ, |m| ≤ 2 ^ 53 ∧ x = m * 2 ^ e

end Sumo
