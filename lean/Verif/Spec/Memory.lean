import Verif.Spec.WholeYear

/-! # Specification: two years of weather whose temperatures differ by a few degrees -/

namespace ISO.Spec
open ISO ISO.Epw

/-- the years `w` and `w'` at the same place differ in nothing but the temperature (and dew point and humidity), and in no hour by more than
`D` degrees -/
structure WithinDegrees (D : ℝ) (w w' : Weather ℝ) : Prop where
  latitude : w'.latitude = w.latitude
  longitude : w'.longitude = w.longitude
  timezone : w'.timezone = w.timezone
  wind : w'.data WSPD = w.data WSPD
  direct : w'.data EB = w.data EB
  diffuse : w'.data ED = w.data ED
  global : w'.data EGH = w.data EGH
  temperature : ∀ i, |w'.data DBT i - w.data DBT i| ≤ D

/-- conductance between the inner surfaces and the air, W/K per m² of floor -/
noncomputable def surfaceToAir (x : Sim ℝ) : ℝ := x.bldg.totalAreaPerFloorArea / (1 / x.simSettings.hci - 1 / massCoefficient x)

/-- conductance between the mass and outdoors, W/K per m² of floor -/
noncomputable def massToOutdoor (x : Sim ℝ) : ℝ := 1 / (1 / wallConductance x - 1 / (massCoefficient x * massArea x))

/-- the most heat that the air takes with it when the wind has the speed `wind`, W/K per m² of floor: infiltration, and the fans at full speed -/
noncomputable def airBorne (x : Sim ℝ) (wind : ℝ) : ℝ :=
  0.34 * (max 0 (windFlow x wind) + x.ventilation.supplyRate * 3.6 / x.bldg.floorArea)

/-- the part of a difference of temperature of the mass that is left after an hour (`heatCapacity` is in kJ/K, an hour is 3.6 ks) -/
noncomputable def remembered (x : Sim ℝ) : ℝ :=
  (heatCapacity x / 3.6 - massToOutdoor x / 2) / (heatCapacity x / 3.6 + massToOutdoor x / 2)

/-- energy for an hour at 1 W/m², kWh/m² -/
noncomputable def heatingEnergy (x : Sim ℝ) : ℝ := (1 + x.heating.hvacLossFactor) / x.heating.efficiency / 1000
noncomputable def coolingEnergy (x : Sim ℝ) : ℝ := (1 + x.cooling.hvacLossFactor) / x.cooling.cop / 1000

end ISO.Spec
