import Mathlib.Data.List.Basic
import Mathlib.Order.Interval.Finset.Nat

/-! # Specification: the calendar of a 365-day year -/

namespace ISO.Spec

/-- lengths of January to December in a non-leap year -/
def monthDays : List Nat := [31, 28, 31, 30, 31, 30, 31, 31, 30, 31, 30, 31]

/-- days of the year before month `m` (1 = January) -/
def daysBefore (m : Nat) : Nat := (monthDays.take (m - 1)).sum

/-- `month/day` is a date of a non-leap year, `hour` an hour of the day -/
def ValidTime (month day hour : Nat) : Prop :=
  1 ≤ month ∧ month ≤ 12 ∧ 1 ≤ day ∧ day ≤ monthDays.getD (month - 1) 0 ∧ hour < 24

/-- how many hours of the year precede the given date and hour -/
def hourOfYear (month day hour : Nat) : Nat := 24 * (daysBefore month + (day - 1)) + hour

/-- the hours of the year that belong to month `m` (1 = January): from the midnight that starts it up to
the midnight that ends it -/
def hoursOfMonth (m : Nat) : Finset Nat := Finset.Ico (24 * daysBefore m) (24 * daysBefore (m + 1))

end ISO.Spec
