import Mathlib.Algebra.Order.Field.Basic
import Mathlib.Algebra.Order.Ring.Abs

/-!
# Floating point values

The values a C `float`/`double` or a numpy scalar can take, and the rounding of arithmetic results.  These are models of
IEEE arithmetic as used by `/repo`, not of a particular line of `/repo`.
-/

namespace Sumo

/-- A floating point value: a number, an infinity, or not-a-number.  (The two zeros are one value.) -/
inductive FVal (K : Type)
  | fin (x : K)
  | posInf
  | negInf
  | nan
  deriving DecidableEq, Repr

/-- Rounding of an exact result to single and to double precision.  The model is parametric in it; theorems assume
`Rounding.Lawful`. -/
structure Rounding (K : Type) where
  f32 : K → K
  f64 : K → K

/-- No rounding at all (exact arithmetic). -/
def Rounding.exact (K : Type) : Rounding K := ⟨id, id⟩

namespace Rounding

variable {K : Type} [Field K] [LinearOrder K]

/-- What the theorems use of IEEE rounding to nearest: it is monotone and its relative error is at most half a unit in the
last place (`2^-24` single, `2^-53` double).  Overflow and underflow of the exponent are not modelled. -/
structure Lawful (ρ : Rounding K) : Prop where
  mono32 : ∀ {x y : K}, x ≤ y → ρ.f32 x ≤ ρ.f32 y
  mono64 : ∀ {x y : K}, x ≤ y → ρ.f64 x ≤ ρ.f64 y
  err32 : ∀ x : K, |ρ.f32 x - x| ≤ |x| / 2 ^ 24
  err64 : ∀ x : K, |ρ.f64 x - x| ≤ |x| / 2 ^ 53

/-- `x` is a single precision number: it is itself in single and in double precision, and its products with the 16 bit
integers are exact in double precision (24 + 16 ≤ 53 bits). -/
structure IsSingle (ρ : Rounding K) (x : K) : Prop where
  single : ρ.f32 x = x
  double : ρ.f64 x = x
  mul : ∀ n : ℕ, n < 2 ^ 16 → ρ.f64 (x * n) = x * n

end Rounding

end Sumo
