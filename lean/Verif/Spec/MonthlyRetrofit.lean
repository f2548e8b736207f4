import Verif.Spec.MonthlyBalance

/-! # Specification: changing the envelope of a building, or what gives off heat in it -/

namespace ISO.Spec
open ISO

/-- `x` with U-values, leakiness and heat recovery taken from `y` -/
def takeEnvelope {α : Type} (x y : Sim α) : Sim α :=
  { x with
    bldg := { x.bldg with
      wallUniform := y.bldg.wallUniform
      windowUniform := y.bldg.windowUniform
      infiltrationRate := y.bldg.infiltrationRate }
    ventilation := { x.ventilation with heatRecoveryEfficiency := y.ventilation.heatRecoveryEfficiency } }

/-- no U-value of `y` is higher than in `x`, it is not leakier and its heat recovery not worse -/
structure BetterEnvelope (x y : Sim ℝ) : Prop where
  walls0 : ∀ i, 0 ≤ y.bldg.wallUniform i
  walls : ∀ i, y.bldg.wallUniform i ≤ x.bldg.wallUniform i
  windows0 : ∀ i, 0 ≤ y.bldg.windowUniform i
  windows : ∀ i, y.bldg.windowUniform i ≤ x.bldg.windowUniform i
  leaks : y.bldg.infiltrationRate ≤ x.bldg.infiltrationRate
  recovery : x.ventilation.heatRecoveryEfficiency ≤ y.ventilation.heatRecoveryEfficiency

/-- areas, capacities and resistances are not negative -/
structure Sensible (x : Sim ℝ) : Prop where
  walls : ∀ i, 0 ≤ x.bldg.wallArea i
  windows : ∀ i, 0 ≤ x.bldg.windowArea i
  inside : 0 ≤ x.bldg.interiorHeatCapacity
  shell : 0 ≤ x.bldg.wallHeatCapacity
  air : 0 ≤ x.ventilation.H_ve
  reference : 0 < x.heating.tau_H0

/-- In month `m` no wall is heated by the sun above the temperature the building is heated to (mean over the month; the radiation
to the sky is subtracted). -/
def ColdWalls (x : Sim ℝ) (m : Fin 12) : Prop :=
  ∀ j, x.weather.mdbt m + x.bldg.R_sc_ext
    * (x.bldg.wallSolarAbsorption j * irradianceOn x.weather m j - skyView j * (5 * x.bldg.wallThermalEmissivity j) * 11) ≤ heatTo x

/-- `x` with people, appliances, lights, glass and wall colour of `y` -/
def takeHeatSources {α : Type} (x y : Sim α) : Sim α :=
  { x with
    pop := { x.pop with heatGainPerPerson := y.pop.heatGainPerPerson }
    building := { x.building with
      electricApplianceHeatGainOccupied := y.building.electricApplianceHeatGainOccupied
      electricApplianceHeatGainUnoccupied := y.building.electricApplianceHeatGainUnoccupied
      gasApplianceHeatGainOccupied := y.building.gasApplianceHeatGainOccupied
      gasApplianceHeatGainUnoccupied := y.building.gasApplianceHeatGainUnoccupied }
    lights := { x.lights with
      powerDensityOccupied := y.lights.powerDensityOccupied
      powerDensityUnoccupied := y.lights.powerDensityUnoccupied }
    bldg := { x.bldg with
      windowNormalIncidenceSolarEnergyTransmittance := y.bldg.windowNormalIncidenceSolarEnergyTransmittance
      wallSolarAbsorption := y.bldg.wallSolarAbsorption } }

/-- nothing in `y` gives less heat than in `x` -/
structure StrongerSources (x y : Sim ℝ) : Prop where
  people : x.pop.heatGainPerPerson ≤ y.pop.heatGainPerPerson
  electricOccupied : x.building.electricApplianceHeatGainOccupied ≤ y.building.electricApplianceHeatGainOccupied
  electricUnoccupied : x.building.electricApplianceHeatGainUnoccupied ≤ y.building.electricApplianceHeatGainUnoccupied
  gasOccupied : x.building.gasApplianceHeatGainOccupied ≤ y.building.gasApplianceHeatGainOccupied
  gasUnoccupied : x.building.gasApplianceHeatGainUnoccupied ≤ y.building.gasApplianceHeatGainUnoccupied
  lightsOccupied : x.lights.powerDensityOccupied ≤ y.lights.powerDensityOccupied
  lightsUnoccupied : x.lights.powerDensityUnoccupied ≤ y.lights.powerDensityUnoccupied
  glass : ∀ j, x.bldg.windowNormalIncidenceSolarEnergyTransmittance j ≤ y.bldg.windowNormalIncidenceSolarEnergyTransmittance j
  colour : ∀ j, x.bldg.wallSolarAbsorption j ≤ y.bldg.wallSolarAbsorption j

/-- No heat is wasted by simultaneous heating and cooling, and free and absorption shares of district systems are at most one. -/
structure Unmixed (x : Sim ℝ) : Prop where
  waste : x.heating.hotcoldWasteFactor = 0
  freeHeat : x.heating.frac_DH_free ≤ 1
  absorbed : x.cooling.eta_DC_frac_abs ≤ 1
  freeCold : x.cooling.frac_DC_free ≤ 1

/-- the building `x` with the set-points of `y` -/
def takeSetPoints {α : Type} (x y : Sim α) : Sim α :=
  { x with
    heating := { x.heating with
      temperatureSetPointOccupied := y.heating.temperatureSetPointOccupied
      temperatureSetPointUnoccupied := y.heating.temperatureSetPointUnoccupied }
    cooling := { x.cooling with
      temperatureSetPointOccupied := y.cooling.temperatureSetPointOccupied
      temperatureSetPointUnoccupied := y.cooling.temperatureSetPointUnoccupied } }

/-- both are numbers and the first is not larger -/
def NotAbove (d e : Dbl) : Prop := ∃ a b : ℝ, d = Dbl.fin a ∧ e = Dbl.fin b ∧ a ≤ b

end ISO.Spec
