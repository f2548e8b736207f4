import Verif.Num.Sum
import Verif.Spec.Calendar

/-! # Specification: averages of an hourly series -/

namespace ISO.Spec
open ISO

/-- the value of the series in hour `i` of the year -/
noncomputable def atHour (f : Fin 8760 → Dbl) (i : ℕ) : Dbl := if h : i < 8760 then f ⟨i, h⟩ else 0

/-- number of days of month `m` (1 = January) -/
def daysIn (m : ℕ) : ℕ := monthDays.getD (m - 1) 0

/-- arithmetic mean over all hours of month `m` -/
noncomputable def monthMean (f : Fin 8760 → Dbl) (m : ℕ) : Dbl :=
  (∑ i ∈ hoursOfMonth m, atHour f i) / Dbl.fin (24 * daysIn m)

/-- arithmetic mean over the days of month `m` at hour `h` of the day -/
noncomputable def hourMean (f : Fin 8760 → Dbl) (m h : ℕ) : Dbl :=
  (∑ d ∈ Finset.range (daysIn m), atHour f (hourOfYear m (d + 1) h)) / Dbl.fin (daysIn m)

end ISO.Spec
