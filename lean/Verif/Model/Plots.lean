import Verif.Model.Assoc
import Mathlib.Algebra.Order.Field.Rat

/-!
# The plot of the precision-recall curve and the listing of the similarities

`plot_pr` (`sumo-api/sumo/metrics/utils.py:366-388`) as what it asks `matplotlib` to draw, and `_print_sim_cache`
(`sumo-api/sumo/metrics/evaluator.py:761-766`) as the values of the lines it prints.
-/

namespace Sumo
namespace Plots

/-- A figure with one curve: its vertices, its style, the labels and the window (`xmin`, `xmax`, `ymin`, `ymax`). -/
structure Figure where
  vertices : List (ℚ × ℚ)
  style : String
  xlabel : String
  ylabel : String
  window : (ℚ × ℚ) × (ℚ × ℚ)
  deriving DecidableEq

/-- `plot_pr` (`metrics/utils.py:366-388`).  `plt.plot` raises a `ValueError` for vectors of different lengths.  The number `1.1` is exact. -/
def plotPr (precision recall : List ℚ) : Except PyErr Figure :=
  if recall.length = precision.length then .ok ⟨recall.zip precision, "r-", "Recall", "Precision", ((0, 1), (0, 11 / 10))⟩
  else .error .valueError

/-- The values of one line of the listing: detection, ground truth element, similarity, score. -/
structure Line (ι σ τ : Type) where
  det : ι
  gt : ι
  sim : τ
  score : σ
  deriving DecidableEq

variable {ι σ τ : Type} [DecidableEq ι]

/-- One line (`metrics/evaluator.py:764-766`). -/
def printLine (d : ι) (row : Dict ι (Corr ι σ τ)) (g : ι) : Except PyErr (Line ι σ τ) := do
  let c ← row.get g
  pure ⟨d, g, c.similarity, c.detScore⟩

/-- The inner loop (`metrics/evaluator.py:763-766`). -/
def printRow (cache : SimCache ι σ τ) (d : ι) : Except PyErr (List (Line ι σ τ)) := do
  let row ← cache.get d
  row.keys.mapM (printLine d row)

/-- `_print_sim_cache` (`metrics/evaluator.py:761-766`), the values of the lines; their text is not modelled. -/
def printSimCache (cache : SimCache ι σ τ) : Except PyErr (List (Line ι σ τ)) := do
  let rows ← cache.keys.mapM (printRow cache)
  return rows.flatten

end Plots
end Sumo
