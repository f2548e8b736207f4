import Verif.Spec.WholeYear

/-! # Specification: two years of weather of which one is warmer -/

namespace ISO.Spec
open ISO ISO.Epw

/-- the years `w` and `w'` at the same place differ in nothing but the temperature (and dew point and humidity), and in no hour is `w'` the
cooler one -/
structure WarmerYear (w w' : Weather ℝ) : Prop where
  latitude : w'.latitude = w.latitude
  longitude : w'.longitude = w.longitude
  timezone : w'.timezone = w.timezone
  wind : w'.data WSPD = w.data WSPD
  direct : w'.data EB = w.data EB
  diffuse : w'.data ED = w.data ED
  global : w'.data EGH = w.data EGH
  temperature : ∀ i, w.data DBT i ≤ w'.data DBT i

end ISO.Spec
