import Verif.Model.Data
import Mathlib.Algebra.BigOperators.Fin

/-!
# Specification: physically meaningful input of the hourly model

Only the input records are used here, nothing of the calculation.
-/

namespace ISO.Spec
open ISO

/-- Signs and sizes one expects of the data of a real building. -/
structure Physical (x : Sim ℝ) : Prop where
  /-- there is floor -/
  floor : 0 < x.bldg.floorArea
  /-- areas and U-values are not negative -/
  wallArea : ∀ i, 0 ≤ x.bldg.wallArea i
  wallU : ∀ i, 0 ≤ x.bldg.wallUniform i
  windowArea : ∀ i, 0 ≤ x.bldg.windowArea i
  windowU : ∀ i, 0 ≤ x.bldg.windowUniform i
  /-- surface heat transfer coefficients are positive -/
  hci : 0 < x.simSettings.hci
  hri : 0 < x.simSettings.hri
  totalArea : 0 < x.bldg.totalAreaPerFloorArea
  irradiance : 0 < x.bldg.irradianceForMaxShadingUse
  /-- heat capacities -/
  interiorHeatCapacity : 0 < x.bldg.interiorHeatCapacity
  wallHeatCapacity : 0 ≤ x.bldg.wallHeatCapacity
  /-- the walls conduct less heat than the inner surfaces of the building can take up
  (2.5 m2 of mass area per m2 of floor, coefficient hci + 1.2 hri) -/
  opaque_ : max ((∑ i, x.bldg.wallArea i * x.bldg.wallUniform i) / x.bldg.floorArea) 0.000001 <
    2.5 * (x.simSettings.hci + 1.2 * x.simSettings.hri)
  /-- required illuminances are positive -/
  luxSensor : 0 < x.lights.presenceSensorLux
  luxAuto : 0 < x.lights.automaticLux
  luxBoth : 0 < x.lights.presenceAutoLux
  luxManual : 0 < x.lights.manualSwitchLux
  /-- ventilation -/
  supplyRate : 0 ≤ x.ventilation.supplyRate
  dCp : 0 ≤ x.ventilation.dCp
  /-- the thermostat is set sensibly -/
  setOccupied : x.heating.temperatureSetPointOccupied ≤ x.cooling.temperatureSetPointOccupied
  setUnoccupied : x.heating.temperatureSetPointUnoccupied ≤ x.cooling.temperatureSetPointUnoccupied

end ISO.Spec
