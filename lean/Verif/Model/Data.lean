import Verif.Num.Dbl

/-!
# The parameter records of a simulation

One record per data class of the repository (plain getters/setters there).  Facade vectors are
`Fin 9 → α`: the code uses run-time sized vectors, the loader only accepts nine entries
(UserModel.hpp:1219-1224 and the eight similar setters), so a fixed length is used here.
Members that no simulation reads (fixed appliance and lighting powers, unoccupied ventilation rates, the
schedule file name) are not part of the records.

`map` applies a function to every number of a record; `map Dbl.fin` reads a record of reals as a
record of (finite) doubles.
-/

namespace ISO

/-- Building.hpp:178-193 -/
structure Building (α : Type) where
  lightingOccupancySensor : α
  constantIllumination : α
  electricApplianceHeatGainOccupied : α
  electricApplianceHeatGainUnoccupied : α
  gasApplianceHeatGainOccupied : α
  gasApplianceHeatGainUnoccupied : α
  buildingEnergyManagement : α
  externalEquipment : α

/-- apply a function to every number of the record (no counterpart in the code) -/
def Building.map {α β : Type} (f : α → β) (x : Building α) : Building β where
  lightingOccupancySensor := f x.lightingOccupancySensor
  constantIllumination := f x.constantIllumination
  electricApplianceHeatGainOccupied := f x.electricApplianceHeatGainOccupied
  electricApplianceHeatGainUnoccupied := f x.electricApplianceHeatGainUnoccupied
  gasApplianceHeatGainOccupied := f x.gasApplianceHeatGainOccupied
  gasApplianceHeatGainUnoccupied := f x.gasApplianceHeatGainUnoccupied
  buildingEnergyManagement := f x.buildingEnergyManagement
  externalEquipment := f x.externalEquipment

/-- Cooling.hpp:212-228 -/
structure Cooling (α : Type) where
  temperatureSetPointOccupied : α
  temperatureSetPointUnoccupied : α
  cop : α
  partialLoadValue : α
  hvacLossFactor : α
  pumpControlReduction : α
  forcedAirCooling : Bool
  T_cl_ctrl_flag : α
  dT_supp_cl : α
  DC_YesNo : α
  eta_DC_network : α
  eta_DC_COP : α
  eta_DC_frac_abs : α
  eta_DC_COP_abs : α
  frac_DC_free : α
  E_pumps : α

/-- apply a function to every number of the record (no counterpart in the code) -/
def Cooling.map {α β : Type} (f : α → β) (x : Cooling α) : Cooling β where
  temperatureSetPointOccupied := f x.temperatureSetPointOccupied
  temperatureSetPointUnoccupied := f x.temperatureSetPointUnoccupied
  cop := f x.cop
  partialLoadValue := f x.partialLoadValue
  hvacLossFactor := f x.hvacLossFactor
  pumpControlReduction := f x.pumpControlReduction
  forcedAirCooling := x.forcedAirCooling
  T_cl_ctrl_flag := f x.T_cl_ctrl_flag
  dT_supp_cl := f x.dT_supp_cl
  DC_YesNo := f x.DC_YesNo
  eta_DC_network := f x.eta_DC_network
  eta_DC_COP := f x.eta_DC_COP
  eta_DC_frac_abs := f x.eta_DC_frac_abs
  eta_DC_COP_abs := f x.eta_DC_COP_abs
  frac_DC_free := f x.frac_DC_free
  E_pumps := f x.E_pumps

/-- Heating.hpp:292-318 -/
structure Heating (α : Type) where
  temperatureSetPointOccupied : α
  temperatureSetPointUnoccupied : α
  hvacLossFactor : α
  efficiency : α
  energyType : α
  pumpControlReduction : α
  hotWaterDemand : α
  hotWaterDistributionEfficiency : α
  hotWaterSystemEfficiency : α
  hotWaterEnergyType : α
  hotcoldWasteFactor : α
  forcedAirHeating : Bool
  dT_supp_ht : α
  E_pumps : α
  T_ht_ctrl_flag : α
  a_H0 : α
  tau_H0 : α
  DH_YesNo : α
  eta_DH_network : α
  eta_DH_sys : α
  frac_DH_free : α
  dhw_tset : α
  dhw_tsupply : α

/-- apply a function to every number of the record (no counterpart in the code) -/
def Heating.map {α β : Type} (f : α → β) (x : Heating α) : Heating β where
  temperatureSetPointOccupied := f x.temperatureSetPointOccupied
  temperatureSetPointUnoccupied := f x.temperatureSetPointUnoccupied
  hvacLossFactor := f x.hvacLossFactor
  efficiency := f x.efficiency
  energyType := f x.energyType
  pumpControlReduction := f x.pumpControlReduction
  hotWaterDemand := f x.hotWaterDemand
  hotWaterDistributionEfficiency := f x.hotWaterDistributionEfficiency
  hotWaterSystemEfficiency := f x.hotWaterSystemEfficiency
  hotWaterEnergyType := f x.hotWaterEnergyType
  hotcoldWasteFactor := f x.hotcoldWasteFactor
  forcedAirHeating := x.forcedAirHeating
  dT_supp_ht := f x.dT_supp_ht
  E_pumps := f x.E_pumps
  T_ht_ctrl_flag := f x.T_ht_ctrl_flag
  a_H0 := f x.a_H0
  tau_H0 := f x.tau_H0
  DH_YesNo := f x.DH_YesNo
  eta_DH_network := f x.eta_DH_network
  eta_DH_sys := f x.eta_DH_sys
  frac_DH_free := f x.frac_DH_free
  dhw_tset := f x.dhw_tset
  dhw_tsupply := f x.dhw_tsupply

/-- Lighting.hpp:257-277 -/
structure Lighting (α : Type) where
  powerDensityOccupied : α
  powerDensityUnoccupied : α
  dimmingFraction : α
  exteriorEnergy : α
  n_day_start : α
  n_day_end : α
  n_weeks : α
  elecInternalGains : α
  permLightPowerDensity : α
  presenceSensorAd : α
  automaticAd : α
  presenceAutoAd : α
  manualSwitchAd : α
  presenceSensorLux : α
  automaticLux : α
  presenceAutoLux : α
  manualSwitchLux : α
  naturallyLightedArea : α

/-- apply a function to every number of the record (no counterpart in the code) -/
def Lighting.map {α β : Type} (f : α → β) (x : Lighting α) : Lighting β where
  powerDensityOccupied := f x.powerDensityOccupied
  powerDensityUnoccupied := f x.powerDensityUnoccupied
  dimmingFraction := f x.dimmingFraction
  exteriorEnergy := f x.exteriorEnergy
  n_day_start := f x.n_day_start
  n_day_end := f x.n_day_end
  n_weeks := f x.n_weeks
  elecInternalGains := f x.elecInternalGains
  permLightPowerDensity := f x.permLightPowerDensity
  presenceSensorAd := f x.presenceSensorAd
  automaticAd := f x.automaticAd
  presenceAutoAd := f x.presenceAutoAd
  manualSwitchAd := f x.manualSwitchAd
  presenceSensorLux := f x.presenceSensorLux
  automaticLux := f x.automaticLux
  presenceAutoLux := f x.presenceAutoLux
  manualSwitchLux := f x.manualSwitchLux
  naturallyLightedArea := f x.naturallyLightedArea

/-- Population.hpp:130-136 -/
structure Population (α : Type) where
  hoursEnd : α
  hoursStart : α
  daysEnd : α
  daysStart : α
  densityOccupied : α
  densityUnoccupied : α
  heatGainPerPerson : α

/-- apply a function to every number of the record (no counterpart in the code) -/
def Population.map {α β : Type} (f : α → β) (x : Population α) : Population β where
  hoursEnd := f x.hoursEnd
  hoursStart := f x.hoursStart
  daysEnd := f x.daysEnd
  daysStart := f x.daysStart
  densityOccupied := f x.densityOccupied
  densityUnoccupied := f x.densityUnoccupied
  heatGainPerPerson := f x.heatGainPerPerson

/-- PhysicalQuantities.hpp:57-58 -/
structure PhysicalQuantities (α : Type) where
  rhoCpAir : α
  rhoCpWater : α

/-- apply a function to every number of the record (no counterpart in the code) -/
def PhysicalQuantities.map {α β : Type} (f : α → β) (x : PhysicalQuantities α) : PhysicalQuantities β where
  rhoCpAir := f x.rhoCpAir
  rhoCpWater := f x.rhoCpWater

/-- SimulationSettings.hpp:87-90 -/
structure SimulationSettings (α : Type) where
  phiIntFractionToAirNode : α
  phiSolFractionToAirNode : α
  hci : α
  hri : α

/-- apply a function to every number of the record (no counterpart in the code) -/
def SimulationSettings.map {α β : Type} (f : α → β) (x : SimulationSettings α) : SimulationSettings β where
  phiIntFractionToAirNode := f x.phiIntFractionToAirNode
  phiSolFractionToAirNode := f x.phiSolFractionToAirNode
  hci := f x.hci
  hri := f x.hri

/-- Structure.hpp:321-342 -/
structure Structure (α : Type) where
  floorArea : α
  wallArea : Fin 9 → α
  windowArea : Fin 9 → α
  wallUniform : Fin 9 → α
  windowUniform : Fin 9 → α
  wallThermalEmissivity : Fin 9 → α
  wallSolarAbsorption : Fin 9 → α
  windowShadingDevice : Fin 9 → α
  windowNormalIncidenceSolarEnergyTransmittance : Fin 9 → α
  windowShadingCorrectionFactor : Fin 9 → α
  interiorHeatCapacity : α
  wallHeatCapacity : α
  buildingHeight : α
  infiltrationRate : α
  R_se : α
  irradianceForMaxShadingUse : α
  shadingFactorAtMaxUse : α
  totalAreaPerFloorArea : α
  win_ff : α
  win_F_W : α
  R_sc_ext : α

/-- apply a function to every number of the record (no counterpart in the code) -/
def Structure.map {α β : Type} (f : α → β) (x : Structure α) : Structure β where
  floorArea := f x.floorArea
  wallArea := fun i => f (x.wallArea i)
  windowArea := fun i => f (x.windowArea i)
  wallUniform := fun i => f (x.wallUniform i)
  windowUniform := fun i => f (x.windowUniform i)
  wallThermalEmissivity := fun i => f (x.wallThermalEmissivity i)
  wallSolarAbsorption := fun i => f (x.wallSolarAbsorption i)
  windowShadingDevice := fun i => f (x.windowShadingDevice i)
  windowNormalIncidenceSolarEnergyTransmittance := fun i => f (x.windowNormalIncidenceSolarEnergyTransmittance i)
  windowShadingCorrectionFactor := fun i => f (x.windowShadingCorrectionFactor i)
  interiorHeatCapacity := f x.interiorHeatCapacity
  wallHeatCapacity := f x.wallHeatCapacity
  buildingHeight := f x.buildingHeight
  infiltrationRate := f x.infiltrationRate
  R_se := f x.R_se
  irradianceForMaxShadingUse := f x.irradianceForMaxShadingUse
  shadingFactorAtMaxUse := f x.shadingFactorAtMaxUse
  totalAreaPerFloorArea := f x.totalAreaPerFloorArea
  win_ff := f x.win_ff
  win_F_W := f x.win_F_W
  R_sc_ext := f x.R_sc_ext

/-- Ventilation.hpp:307-326 -/
structure Ventilation (α : Type) where
  supplyRate : α
  supplyDifference : α
  heatRecoveryEfficiency : α
  exhaustAirRecirculated : α
  ventType : α
  fanPower : α
  fanControlFactor : α
  ventPreheatDegC : α
  n50 : α
  hzone : α
  p_exp : α
  zone_frac : α
  stack_exp : α
  stack_coeff : α
  wind_exp : α
  wind_coeff : α
  dCp : α
  vent_rate_flag : Int
  H_ve : α

/-- apply a function to every number of the record (no counterpart in the code) -/
def Ventilation.map {α β : Type} (f : α → β) (x : Ventilation α) : Ventilation β where
  supplyRate := f x.supplyRate
  supplyDifference := f x.supplyDifference
  heatRecoveryEfficiency := f x.heatRecoveryEfficiency
  exhaustAirRecirculated := f x.exhaustAirRecirculated
  ventType := f x.ventType
  fanPower := f x.fanPower
  fanControlFactor := f x.fanControlFactor
  ventPreheatDegC := f x.ventPreheatDegC
  n50 := f x.n50
  hzone := f x.hzone
  p_exp := f x.p_exp
  zone_frac := f x.zone_frac
  stack_exp := f x.stack_exp
  stack_coeff := f x.stack_coeff
  wind_exp := f x.wind_exp
  wind_coeff := f x.wind_coeff
  dCp := f x.dCp
  vent_rate_flag := x.vent_rate_flag
  H_ve := f x.H_ve

/-- WeatherData.hpp:112-117 (12 months; 24 hours of the day; 8 vertical surfaces) -/
structure WeatherData (α : Type) where
  msolar : Fin 12 → Fin 8 → α
  mhdbt : Fin 12 → Fin 24 → α
  mhEgh : Fin 12 → Fin 24 → α
  mEgh : Fin 12 → α
  mdbt : Fin 12 → α
  mwind : Fin 12 → α

/-- apply a function to every number of the record (no counterpart in the code) -/
def WeatherData.map {α β : Type} (f : α → β) (x : WeatherData α) : WeatherData β where
  msolar := fun i j => f (x.msolar i j)
  mhdbt := fun i j => f (x.mhdbt i j)
  mhEgh := fun i j => f (x.mhEgh i j)
  mEgh := fun i => f (x.mEgh i)
  mdbt := fun i => f (x.mdbt i)
  mwind := fun i => f (x.mwind i)

/-- Simulation.hpp:72-83 (`bldg` is the member `structure`): the data a simulation object holds (hourly weather is kept separately). -/
structure Sim (α : Type) where
  pop : Population α
  terrain : α
  weather : WeatherData α
  lights : Lighting α
  building : Building α
  bldg : Structure α
  heating : Heating α
  cooling : Cooling α
  ventilation : Ventilation α
  phys : PhysicalQuantities α
  simSettings : SimulationSettings α

/-- apply a function to every number of the record (no counterpart in the code) -/
def Sim.map {α β : Type} (f : α → β) (x : Sim α) : Sim β where
  pop := x.pop.map f
  terrain := f x.terrain
  weather := x.weather.map f
  lights := x.lights.map f
  building := x.building.map f
  bldg := x.bldg.map f
  heating := x.heating.map f
  cooling := x.cooling.map f
  ventilation := x.ventilation.map f
  phys := x.phys.map f
  simSettings := x.simSettings.map f

end ISO
