import Verif.Spec.MonthlyTemp
import Mathlib.Analysis.SpecialFunctions.Pow.Real

/-! # Specification: air flows of the monthly method, per square metre of floor -/

namespace ISO.Spec
open ISO

/-- flow through leaks by the difference of indoor and outdoor temperature, at least 0.001 -/
noncomputable def stack (x : Sim ℝ) (m : Fin 12) (T : ℝ) : ℝ :=
  max 0.001 (x.ventilation.stack_coeff * x.bldg.infiltrationRate
    * (x.ventilation.zone_frac * max 0.1 x.bldg.buildingHeight * |x.weather.mdbt m - T|) ^ x.ventilation.stack_exp)

/-- flow through leaks by wind -/
noncomputable def windDriven (x : Sim ℝ) (m : Fin 12) : ℝ :=
  x.ventilation.wind_coeff * x.bldg.infiltrationRate
    * (x.ventilation.dCp * x.terrain * x.weather.mwind m ^ 2) ^ x.ventilation.wind_exp

/-- all flow through leaks: the larger of the two, a share of their product, and what the fans exhaust beyond what they supply -/
noncomputable def leakage (x : Sim ℝ) (m : Fin 12) (T : ℝ) : ℝ :=
  max (stack x m T) (windDriven x m) + 0.14 * (stack x m T * windDriven x m) / x.bldg.infiltrationRate
    + max 0 (-(x.ventilation.supplyDifference / x.bldg.floorArea / 3.6))

/-- share of the time in which the fans run, by the flag: always, in occupied time, or in proportion to the people -/
noncomputable def running (x : Sim ℝ) (d : ℝ) : ℝ :=
  if x.ventilation.vent_rate_flag = 0 then 1
  else if x.ventilation.vent_rate_flag = 1 then d
  else d + (1 - d) * (x.pop.densityOccupied / x.pop.densityUnoccupied)

/-- outside air by fans: none for natural ventilation (type 3); otherwise the supply without the recirculated part and without
the part whose heat is recovered -/
noncomputable def fanFlow (x : Sim ℝ) (d : ℝ) : ℝ :=
  open Classical in
  if x.ventilation.ventType = 3 then 0
  else running x d * (x.ventilation.supplyRate / x.bldg.floorArea / 3.6) * (1 - x.ventilation.exhaustAirRecirculated)
    * (1 - x.ventilation.heatRecoveryEfficiency)

/-- data with non-negative flows -/
structure VentilationData (x : Sim ℝ) : Prop where
  floorArea : 0 < x.bldg.floorArea
  leaky : 0 < x.bldg.infiltrationRate
  zone : 0 ≤ x.ventilation.zone_frac
  stackExp : 0 ≤ x.ventilation.stack_exp
  stackCoeff : 0 ≤ x.ventilation.stack_coeff
  windBase : 0 ≤ x.ventilation.dCp * x.terrain
  windExp : 0 ≤ x.ventilation.wind_exp
  windCoeff : 0 ≤ x.ventilation.wind_coeff
  occupied : 0 < x.pop.densityOccupied
  unoccupied : 0 < x.pop.densityUnoccupied
  supply : 0 ≤ x.ventilation.supplyRate
  recirculated : x.ventilation.exhaustAirRecirculated ≤ 1
  recovered : x.ventilation.heatRecoveryEfficiency ≤ 1
  air : 0 < x.phys.rhoCpAir

end ISO.Spec
