import Verif.Spec.Ap
import Verif.Model.Double

/-!
# Specification of average precision in double precision

The precision of a prefix of the ranking, the best precision from a rank on, and the sum over the hits, each rounded to a
double.  No loops over misses, cumulative sums or in-place updates.
-/

namespace Sumo
namespace ApSpec

/-- Precision of the `k + 1` best detections: the quotient as a double, except that one correct detection out of one counts
`1 - 2^-52`. -/
def precDouble (r : List Bool) (k : ℕ) : ℚ :=
  if k = 0 ∧ tp r 0 = 1 then 1 - 1 / 2 ^ 52 else double ((tp r k : ℚ) / (k + 1))

/-- The largest of `f k, …, f (n - 1)` and 0. -/
def bestOf (f : ℕ → ℚ) (n k : ℕ) : ℚ := (((List.range n).drop k).map f).foldr max 0

/-- The ranks of the correct detections, best first. -/
def hitRanks (r : List Bool) : List ℕ := (List.range r.length).filter fun k => r.getD k false

/-- What finding the `t`-th of `nGt` elements adds to the recall. -/
def gainDouble (nGt t : ℕ) : ℚ := double (double ((t : ℚ) / nGt) - double (((t - 1 : ℕ) : ℚ) / nGt))

/-- Average precision in double precision: the products of best precision and gain, added from the last hit to the first. -/
def apDouble (r : List Bool) (nGt : ℕ) : ℚ :=
  (hitRanks r).foldr (fun k acc => double (acc + double (bestOf (precDouble r) r.length k * gainDouble nGt (tp r k)))) 0

end ApSpec
end Sumo
