import Verif.Model.Ap
import Mathlib.Algebra.BigOperators.Group.Finset.Basic
import Mathlib.Algebra.BigOperators.Intervals

/-!
# Specification of average precision

Textbook definitions on a ranked list of hits and misses (`true` = correct detection, best score first),
without loops, cumulative sums or in-place updates.  The only trace of the implementation is the
`epsilon` the code adds to the denominator of precision.
-/

namespace Sumo
namespace ApSpec
open Finset

/-- Number of correct detections among the `k + 1` best. -/
def tp (r : List Bool) (k : ℕ) : ℕ := (r.take (k + 1)).count true

/-- Precision of the `k + 1` best detections (up to `epsilon`). -/
def precAt (r : List Bool) (k : ℕ) : ℚ := (tp r k : ℚ) / ((k : ℚ) + 1 + epsilon)

/-- The best precision attained at rank `k` or later. -/
def bestFrom (r : List Bool) (k : ℕ) : ℚ :=
  (((List.range r.length).drop k).map (precAt r)).foldr max 0

/-- Interpolated average precision: the best precision attained at or after each correct detection, averaged
over the `nGt` elements that should have been found. -/
def ap (r : List Bool) (nGt : ℕ) : ℚ :=
  (∑ k ∈ range r.length, if r.getD k false then bestFrom r k else 0) / nGt

/-- The hits and misses in the order `order`. -/
def ranked (order : List ℕ) (detMatches : List ℤ) : List Bool :=
  order.map (fun i => decide (detMatches.getD i 0 ≠ 0))

end ApSpec
end Sumo
