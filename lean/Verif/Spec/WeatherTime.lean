import Verif.Spec.Editing
import Verif.Spec.WeatherEditing
import Verif.Spec.Calendar

/-!
# Specification: when the weather of an hour has an effect

Two weather years that agree in some hours, and cells of two printed tables that agree.
-/

namespace ISO.Spec.WeatherTime
open ISO ISO.Spec ISO.Spec.Editing ISO.Spec.WeatherEditing

/-- the two years have the same temperatures, radiation and wind in the given hours; dew point and humidity may differ -/
def SameIn (hours : ℕ → Prop) (v v' : Fin 7 → Fin 8760 → ℝ) : Prop :=
  ∀ c, c ≠ dewPoint → c ≠ humidity → ∀ r : Fin 8760, hours r → v' c r = v c r

/-- the cells of line `i` (from zero, after the title and the names) and column `k` of two tables are the same text -/
def CellSame (i : ℕ) (k : Fin 13) (text' text : Str) : Prop := cell text' (i + 2) (k + 1) = cell text (i + 2) (k + 1)

/-- they are the same text, or one of them says that there is no number -/
def CellSameOrNan (i : ℕ) (k : Fin 13) (text' text : Str) : Prop :=
  CellSame i k text' text ∨ cell text' (i + 2) (k + 1) = some "nan".toList ∨ cell text (i + 2) (k + 1) = some "nan".toList

end ISO.Spec.WeatherTime
