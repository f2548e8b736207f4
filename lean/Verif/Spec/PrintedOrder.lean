import Verif.Spec.Editing
import Verif.Spec.MonthlyRetrofit

/-!
# Specification: comparing two printed tables

When the texts of the cells of one table show at most the numbers that those of another show.
-/

namespace ISO.Spec.PrintedOrder
open ISO ISO.Numerals ISO.Spec ISO.Spec.Text ISO.Spec.Editing

/-- the first text is a number, and so is the second, and the number of the first is at most that of the second -/
def ShowsAtMost (s' s : Str) : Prop := ∃ q' q : ℚ, Numeral s' (.number q') ∧ Numeral s (.number q) ∧ q' ≤ q

/-- the cells of line `i` (from zero, after the title and the names) and column `k` of two tables: the first shows at most what the
second shows -/
def CellAtMost (i : ℕ) (k : Fin 13) (text' text : Str) : Prop :=
  ∃ s' s, cell text' (i + 2) (k + 1) = some s' ∧ cell text (i + 2) (k + 1) = some s ∧ ShowsAtMost s' s

/-- the cells of line `i` and column `k` of two tables both say that there is no number -/
def CellUndefined (i : ℕ) (k : Fin 13) (text' text : Str) : Prop :=
  cell text' (i + 2) (k + 1) = some "nan".toList ∧ cell text (i + 2) (k + 1) = some "nan".toList

/-- the cells of line `i` and column `k` of two tables: the first shows at most what the second shows, or one of them says that there is
no number -/
def CellNotAbove (i : ℕ) (k : Fin 13) (text' text : Str) : Prop :=
  CellAtMost i k text' text ∨ cell text' (i + 2) (k + 1) = some "nan".toList ∨ cell text (i + 2) (k + 1) = some "nan".toList

/-- the building with another efficiency of the boiler -/
def withBoiler (x : Sim ℝ) (e : ℝ) : Sim ℝ := { x with heating := { x.heating with efficiency := e } }

/-- the building with another coefficient of performance of the chiller -/
def withChiller (x : Sim ℝ) (c : ℝ) : Sim ℝ := { x with cooling := { x.cooling with cop := c } }

end ISO.Spec.PrintedOrder
