import Verif.Model.Data

/-! # Specification: lighting and auxiliary energy of the hourly model -/

namespace ISO.Spec
open ISO

open Classical in
/-- the largest fraction of the installed lighting power that is in use, by the lighting controls present -/
noncomputable def lightingFactor (x : Sim ℝ) : ℝ :=
  if x.building.lightingOccupancySensor < 1 then
    if x.lights.dimmingFraction < 1 then x.lights.presenceAutoAd else x.lights.presenceSensorAd
  else if x.lights.dimmingFraction < 1 then x.lights.automaticAd else x.lights.manualSwitchAd

/-- the fraction of the floor area with daylight -/
noncomputable def daylitFraction (x : Sim ℝ) : ℝ := max 0.0001 x.lights.naturallyLightedArea / x.bldg.floorArea

/-- lighting and auxiliary data as one expects them -/
structure Auxiliary (x : Sim ℝ) : Prop where
  factor : 0 ≤ lightingFactor x
  daylit : daylitFraction x ≤ 1
  transmittance : ∀ i, 0 ≤ x.bldg.windowShadingDevice i
  lightingOccupied : 0 ≤ x.lights.powerDensityOccupied
  lightingUnoccupied : 0 ≤ x.lights.powerDensityUnoccupied
  exterior : 0 ≤ x.lights.exteriorEnergy
  applianceOccupied : 0 ≤ x.building.electricApplianceHeatGainOccupied
  applianceUnoccupied : 0 ≤ x.building.electricApplianceHeatGainUnoccupied
  externalEquipment : 0 ≤ x.building.externalEquipment
  fanPower : 0 ≤ x.ventilation.fanPower
  pumpHeating : 0 ≤ x.heating.E_pumps * x.heating.pumpControlReduction
  pumpCooling : 0 ≤ x.cooling.E_pumps * x.cooling.pumpControlReduction

end ISO.Spec
