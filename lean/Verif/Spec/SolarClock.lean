import Verif.Spec.WeatherEditing

/-! # Specification: two places where the sun stands alike at every hour of the clock -/

namespace ISO.Spec.SolarClock
open ISO ISO.Spec

/-- the full hours of a time zone: the digits after the point are dropped -/
noncomputable def fullHours (zone : ℝ) : ℤ := if 0 ≤ zone then ⌊zone⌋ else ⌈zone⌉

/-- how far the place lies east of the meridian of its clock, in degrees; a clock goes with the meridian of its full hours, 15 degrees each -/
noncomputable def eastOfMeridian (lon zone : ℝ) : ℝ := lon - 15 * fullHours zone

/-- two weather years of places at the same latitude and equally far from the meridians of their clocks, with the same numbers but for dew point
and humidity -/
structure SameSun (lat lon zone : ℝ) (v : Fin 7 → Fin 8760 → ℝ) (lat' lon' zone' : ℝ) (v' : Fin 7 → Fin 8760 → ℝ) : Prop where
  latitude : lat' = lat
  clock : eastOfMeridian lon' zone' = eastOfMeridian lon zone
  data : ∀ c, c ∉ [WeatherEditing.dewPoint, WeatherEditing.humidity] → ∀ r, v' c r = v c r

end ISO.Spec.SolarClock
