import Verif.Model.Data

/-! # Specification: occupied hours -/

namespace ISO.Spec

/-- Hour `i` of the year (hour of day `i % 24`, weekday `i / 24 % 7`, weekday 0 on the first day) lies in the
occupancy window: the hour `[h, h+1)` does not end before the start, and does not begin after the end; the same for
days.  Start and end are both included. -/
def Occupied (p : Population ℝ) (i : ℕ) : Prop :=
  (p.hoursStart < (i % 24 : ℕ) + 1 ∧ ((i % 24 : ℕ) : ℝ) ≤ p.hoursEnd) ∧
  (p.daysStart < (i / 24 % 7 : ℕ) + 1 ∧ ((i / 24 % 7 : ℕ) : ℝ) ≤ p.daysEnd)

/-- only the hours count -/
def OccupiedHour (p : Population ℝ) (i : ℕ) : Prop :=
  p.hoursStart < (i % 24 : ℕ) + 1 ∧ ((i % 24 : ℕ) : ℝ) ≤ p.hoursEnd

end ISO.Spec
