import Verif.Model.Data
import Mathlib.Algebra.BigOperators.Fin

/-! # Occupancy in whole hours and days, and the energy of a week: the words of C85 -/

namespace ISO.Spec.OccupiedHours
open ISO

/-- The occupancy window goes from clock hour `a` to clock hour `b` on the days `c` to `d` of the week, all whole numbers. -/
structure Whole (p : Population ℝ) (a b c d : ℕ) : Prop where
  first : p.hoursStart = a
  last : p.hoursEnd = b
  firstDay : p.daysStart = c
  lastDay : p.daysEnd = d

/-- energy of a week (kWh) in which a power (W) is `occupied` for `h` hours and `unoccupied` for the others -/
noncomputable def weekWith (h occupied unoccupied : ℝ) : ℝ := (h * occupied + (168 - h) * unoccupied) / 1000

/-- the energies `e` of the hours of the year, added up over week `k` (the first one is week 0) -/
noncomputable def weekOf (e : ℕ → ℝ) (k : ℕ) : ℝ := ∑ j ∈ Finset.range 168, e (168 * k + j)

end ISO.Spec.OccupiedHours
