import Verif.Model.Data
import Verif.Spec.Calendar
import Mathlib.Algebra.BigOperators.Fin

/-! # Specification: the week and the months of the monthly method -/

namespace ISO.Spec
open ISO

open Classical in
/-- hours of a day between start and end; a window whose end lies before its start goes on after midnight -/
noncomputable def windowHours (p : Population ℝ) : ℝ :=
  if p.hoursEnd < p.hoursStart then 24 + (p.hoursEnd - p.hoursStart) else p.hoursEnd - p.hoursStart

open Classical in
/-- number of days from the first to the last, both included; a window whose last day lies before its first goes on in the
next week -/
noncomputable def windowDays (p : Population ℝ) : ℝ :=
  if p.daysEnd < p.daysStart then 7 + (p.daysEnd - p.daysStart + 1) else p.daysEnd - p.daysStart + 1

/-- An occupancy window: at most a day, between one and seven days; seven days are not written as a last day just before the
first day. -/
structure WeekWindow (p : Population ℝ) : Prop where
  hours_nonneg : 0 ≤ windowHours p
  hours_le : windowHours p ≤ 24
  days_ge : 1 ≤ windowDays p
  days_le : windowDays p ≤ 7
  notJustBefore : p.daysEnd < p.daysStart → p.daysEnd + 1 < p.daysStart

/-- the days of month `m` -/
def days (m : Fin 12) : ℕ := monthDays[m.val]'m.isLt

/-- length of month `m` in millions of seconds -/
noncomputable def megaseconds (m : Fin 12) : ℝ := days m * 86400 / 1000000

/-- the clock hours counted as day: as many as the window has, from seven o'clock on (none after midnight) -/
noncomputable def dayHours (p : Population ℝ) : Finset (Fin 24) :=
  open Classical in Finset.univ.filter fun j => 7 ≤ j.val ∧ (j.val : ℝ) < 7 + windowHours p

/-- mean of a quantity over some clock hours -/
noncomputable def mean (s : Finset (Fin 24)) (row : Fin 24 → ℝ) : ℝ := (∑ j ∈ s, row j) / s.card

/-- `j` is the first, `k` the last clock hour with radiation -/
def Daylight (row : Fin 24 → ℝ) (j k : Fin 24) : Prop :=
  row j ≠ 0 ∧ row k ≠ 0 ∧ ∀ i, row i ≠ 0 → j ≤ i ∧ i ≤ k

end ISO.Spec
