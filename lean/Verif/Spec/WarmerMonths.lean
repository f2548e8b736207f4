import Verif.Spec.MonthlyGains

/-! # Specification: the averages of a warmer year -/

namespace ISO.Spec
open ISO

/-- the averages of two years with the same sun and wind; no month of the second is the cooler one -/
structure WarmerMonths (a a' : WeatherData ℝ) : Prop where
  facades : a'.msolar = a.msolar
  sun : a'.mEgh = a.mEgh
  sunAt : a'.mhEgh = a.mhEgh
  wind : a'.mwind = a.mwind
  temperature : ∀ m, a.mdbt m ≤ a'.mdbt m

end ISO.Spec
