import Verif.Model.Accessors

/-! # Lemmas on the accessors of UserModel: each reads or writes one entry of one component -/

namespace ISO.User
open ISO CNum

namespace Accessor
variable {α : Type} [OfInt α]

/-- read from the component -/
def readBuilding : BuildingAccessor → Building α → Reading α
  | .constantIlluminationControl, c => .num c.constantIllumination
  | .elecPowerAppliancesOccupied, c => .num c.electricApplianceHeatGainOccupied
  | .elecPowerAppliancesUnoccupied, c => .num c.electricApplianceHeatGainUnoccupied
  | .externalEquipment, c => .num c.externalEquipment
  | .gasPowerAppliancesOccupied, c => .num c.gasApplianceHeatGainOccupied
  | .gasPowerAppliancesUnoccupied, c => .num c.gasApplianceHeatGainUnoccupied
  | .lightingOccupancySensorSystem, c => .num c.lightingOccupancySensor

/-- write to the component -/
def writeBuilding : (n : BuildingAccessor) → Arg α (.building n) → Building α → Building α
  | .constantIlluminationControl, v, c => { c with constantIllumination := v }
  | .elecPowerAppliancesOccupied, v, c => { c with electricApplianceHeatGainOccupied := v }
  | .elecPowerAppliancesUnoccupied, v, c => { c with electricApplianceHeatGainUnoccupied := v }
  | .externalEquipment, v, c => { c with externalEquipment := v }
  | .gasPowerAppliancesOccupied, v, c => { c with gasApplianceHeatGainOccupied := v }
  | .gasPowerAppliancesUnoccupied, v, c => { c with gasApplianceHeatGainUnoccupied := v }
  | .lightingOccupancySensorSystem, v, c => { c with lightingOccupancySensor := v }

/-- read from the component -/
def readCooling : CoolingAccessor → Cooling α → Reading α
  | .coolingOccupiedSetpoint, c => .num c.temperatureSetPointOccupied
  | .coolingPumpControl, c => .num c.pumpControlReduction
  | .coolingSystemCOP, c => .num c.cop
  | .coolingSystemIPLVToCOPRatio, c => .num c.partialLoadValue
  | .coolingUnoccupiedSetpoint, c => .num c.temperatureSetPointUnoccupied
  | .DC_YesNo, c => .num c.DC_YesNo
  | .dT_supp_cl, c => .num c.dT_supp_cl
  | .E_pumps_cl, c => .num c.E_pumps
  | .eta_DC_COP_abs, c => .num c.eta_DC_COP_abs
  | .eta_DC_COP, c => .num c.eta_DC_COP
  | .eta_DC_frac_abs, c => .num c.eta_DC_frac_abs
  | .eta_DC_network, c => .num c.eta_DC_network
  | .forcedAirCooling, c => .flag c.forcedAirCooling
  | .frac_DC_free, c => .num c.frac_DC_free
  | .hvacCoolingLossFactor, c => .num c.hvacLossFactor
  | .T_cl_ctrl_flag, c => .num c.T_cl_ctrl_flag

/-- write to the component -/
def writeCooling : (n : CoolingAccessor) → Arg α (.cooling n) → Cooling α → Cooling α
  | .coolingOccupiedSetpoint, v, c => { c with temperatureSetPointOccupied := v }
  | .coolingPumpControl, v, c => { c with pumpControlReduction := v }
  | .coolingSystemCOP, v, c => { c with cop := v }
  | .coolingSystemIPLVToCOPRatio, v, c => { c with partialLoadValue := v }
  | .coolingUnoccupiedSetpoint, v, c => { c with temperatureSetPointUnoccupied := v }
  | .DC_YesNo, v, c => { c with DC_YesNo := v }
  | .dT_supp_cl, v, c => { c with dT_supp_cl := v }
  | .E_pumps_cl, v, c => { c with E_pumps := v }
  | .eta_DC_COP_abs, v, c => { c with eta_DC_COP_abs := v }
  | .eta_DC_COP, v, c => { c with eta_DC_COP := v }
  | .eta_DC_frac_abs, v, c => { c with eta_DC_frac_abs := v }
  | .eta_DC_network, v, c => { c with eta_DC_network := v }
  | .forcedAirCooling, v, c => { c with forcedAirCooling := v }
  | .frac_DC_free, v, c => { c with frac_DC_free := v }
  | .hvacCoolingLossFactor, v, c => { c with hvacLossFactor := v }
  | .T_cl_ctrl_flag, v, c => { c with T_cl_ctrl_flag := v }

/-- read from the component -/
def readHeating : HeatingAccessor → Heating α → Reading α
  | .a_H0, c => .num c.a_H0
  | .DH_YesNo, c => .num c.DH_YesNo
  | .dhw_tset, c => .num c.dhw_tset
  | .dhw_tsupply, c => .num c.dhw_tsupply
  | .dhwDemand, c => .num c.hotWaterDemand
  | .dhwDistributionEfficiency, c => .num c.hotWaterDistributionEfficiency
  | .dhwEfficiency, c => .num c.hotWaterSystemEfficiency
  | .dT_supp_ht, c => .num c.dT_supp_ht
  | .E_pumps_ht, c => .num c.E_pumps
  | .eta_DH_network, c => .num c.eta_DH_network
  | .eta_DH_sys, c => .num c.eta_DH_sys
  | .forcedAirHeating, c => .flag c.forcedAirHeating
  | .frac_DH_free, c => .num c.frac_DH_free
  | .heatingOccupiedSetpoint, c => .num c.temperatureSetPointOccupied
  | .heatingPumpControl, c => .num c.pumpControlReduction
  | .heatingSystemEfficiency, c => .num c.efficiency
  | .heatingUnoccupiedSetpoint, c => .num c.temperatureSetPointUnoccupied
  | .hvacHeatingLossFactor, c => .num c.hvacLossFactor
  | .hvacWasteFactor, c => .num c.hotcoldWasteFactor
  | .T_ht_ctrl_flag, c => .num c.T_ht_ctrl_flag
  | .tau_H0, c => .num c.tau_H0

/-- write to the component -/
def writeHeating : (n : HeatingAccessor) → Arg α (.heating n) → Heating α → Heating α
  | .a_H0, v, c => { c with a_H0 := v }
  | .DH_YesNo, v, c => { c with DH_YesNo := v }
  | .dhw_tset, v, c => { c with dhw_tset := v }
  | .dhw_tsupply, v, c => { c with dhw_tsupply := v }
  | .dhwDemand, v, c => { c with hotWaterDemand := v }
  | .dhwDistributionEfficiency, v, c => { c with hotWaterDistributionEfficiency := v }
  | .dhwEfficiency, v, c => { c with hotWaterSystemEfficiency := v }
  | .dT_supp_ht, v, c => { c with dT_supp_ht := v }
  | .E_pumps_ht, v, c => { c with E_pumps := v }
  | .eta_DH_network, v, c => { c with eta_DH_network := v }
  | .eta_DH_sys, v, c => { c with eta_DH_sys := v }
  | .forcedAirHeating, v, c => { c with forcedAirHeating := v }
  | .frac_DH_free, v, c => { c with frac_DH_free := v }
  | .heatingOccupiedSetpoint, v, c => { c with temperatureSetPointOccupied := v }
  | .heatingPumpControl, v, c => { c with pumpControlReduction := v }
  | .heatingSystemEfficiency, v, c => { c with efficiency := v }
  | .heatingUnoccupiedSetpoint, v, c => { c with temperatureSetPointUnoccupied := v }
  | .hvacHeatingLossFactor, v, c => { c with hvacLossFactor := v }
  | .hvacWasteFactor, v, c => { c with hotcoldWasteFactor := v }
  | .T_ht_ctrl_flag, v, c => { c with T_ht_ctrl_flag := v }
  | .tau_H0, v, c => { c with tau_H0 := v }

/-- read from the component -/
def readLights : LightingAccessor → Lighting α → Reading α
  | .automaticAd, c => .num c.automaticAd
  | .automaticLux, c => .num c.automaticLux
  | .daylightSensorSystem, c => .num c.dimmingFraction
  | .elecInternalGains, c => .num c.elecInternalGains
  | .exteriorLightingPower, c => .num c.exteriorEnergy
  | .lightingPowerIntensityOccupied, c => .num c.powerDensityOccupied
  | .lightingPowerIntensityUnoccupied, c => .num c.powerDensityUnoccupied
  | .manualSwitchAd, c => .num c.manualSwitchAd
  | .manualSwitchLux, c => .num c.manualSwitchLux
  | .n_day_end, c => .num c.n_day_end
  | .n_day_start, c => .num c.n_day_start
  | .n_weeks, c => .num c.n_weeks
  | .naturallyLightedArea, c => .num c.naturallyLightedArea
  | .permLightPowerDensity, c => .num c.permLightPowerDensity
  | .presenceAutoAd, c => .num c.presenceAutoAd
  | .presenceAutoLux, c => .num c.presenceAutoLux
  | .presenceSensorAd, c => .num c.presenceSensorAd
  | .presenceSensorLux, c => .num c.presenceSensorLux

/-- write to the component -/
def writeLights : (n : LightingAccessor) → Arg α (.lights n) → Lighting α → Lighting α
  | .automaticAd, v, c => { c with automaticAd := v }
  | .automaticLux, v, c => { c with automaticLux := v }
  | .daylightSensorSystem, v, c => { c with dimmingFraction := v }
  | .elecInternalGains, v, c => { c with elecInternalGains := v }
  | .exteriorLightingPower, v, c => { c with exteriorEnergy := v }
  | .lightingPowerIntensityOccupied, v, c => { c with powerDensityOccupied := v }
  | .lightingPowerIntensityUnoccupied, v, c => { c with powerDensityUnoccupied := v }
  | .manualSwitchAd, v, c => { c with manualSwitchAd := v }
  | .manualSwitchLux, v, c => { c with manualSwitchLux := v }
  | .n_day_end, v, c => { c with n_day_end := v }
  | .n_day_start, v, c => { c with n_day_start := v }
  | .n_weeks, v, c => { c with n_weeks := v }
  | .naturallyLightedArea, v, c => { c with naturallyLightedArea := v }
  | .permLightPowerDensity, v, c => { c with permLightPowerDensity := v }
  | .presenceAutoAd, v, c => { c with presenceAutoAd := v }
  | .presenceAutoLux, v, c => { c with presenceAutoLux := v }
  | .presenceSensorAd, v, c => { c with presenceSensorAd := v }
  | .presenceSensorLux, v, c => { c with presenceSensorLux := v }

/-- read from the component -/
def readPhys : PhysicalAccessor → PhysicalQuantities α → Reading α
  | .rhoCpAir, c => .num c.rhoCpAir
  | .rhoCpWater, c => .num c.rhoCpWater

/-- write to the component -/
def writePhys : (n : PhysicalAccessor) → Arg α (.phys n) → PhysicalQuantities α → PhysicalQuantities α
  | .rhoCpAir, v, c => { c with rhoCpAir := v }
  | .rhoCpWater, v, c => { c with rhoCpWater := v }

/-- read from the component -/
def readPop : PopulationAccessor → Population α → Reading α
  | .buildingOccupancyFrom, c => .num c.daysStart
  | .buildingOccupancyTo, c => .num c.daysEnd
  | .equivFullLoadOccupancyFrom, c => .num c.hoursStart
  | .equivFullLoadOccupancyTo, c => .num c.hoursEnd
  | .heatGainPerPerson, c => .num c.heatGainPerPerson
  | .peopleDensityOccupied, c => .num c.densityOccupied
  | .peopleDensityUnoccupied, c => .num c.densityUnoccupied

/-- write to the component -/
def writePop : (n : PopulationAccessor) → Arg α (.pop n) → Population α → Population α
  | .buildingOccupancyFrom, v, c => { c with daysStart := v }
  | .buildingOccupancyTo, v, c => { c with daysEnd := v }
  | .equivFullLoadOccupancyFrom, v, c => { c with hoursStart := v }
  | .equivFullLoadOccupancyTo, v, c => { c with hoursEnd := v }
  | .heatGainPerPerson, v, c => { c with heatGainPerPerson := v }
  | .peopleDensityOccupied, v, c => { c with densityOccupied := v }
  | .peopleDensityUnoccupied, v, c => { c with densityUnoccupied := v }

/-- read from the component -/
def readSimSettings : SettingsAccessor → SimulationSettings α → Reading α
  | .hci, c => .num c.hci
  | .hri, c => .num c.hri
  | .phiIntFractionToAirNode, c => .num c.phiIntFractionToAirNode
  | .phiSolFractionToAirNode, c => .num c.phiSolFractionToAirNode

/-- write to the component -/
def writeSimSettings : (n : SettingsAccessor) → Arg α (.simSettings n) → SimulationSettings α → SimulationSettings α
  | .hci, v, c => { c with hci := v }
  | .hri, v, c => { c with hri := v }
  | .phiIntFractionToAirNode, v, c => { c with phiIntFractionToAirNode := v }
  | .phiSolFractionToAirNode, v, c => { c with phiSolFractionToAirNode := v }

/-- read from the component -/
def readVentilation : VentilationAccessor → Ventilation α → Reading α
  | .dCp, c => .num c.dCp
  | .exhaustAirRecirclation, c => .num c.exhaustAirRecirculated
  | .fanFlowControlFactor, c => .num c.fanControlFactor
  | .freshAirFlowRate, c => .num c.supplyRate
  | .H_ve, c => .num c.H_ve
  | .heatRecovery, c => .num c.heatRecoveryEfficiency
  | .hzone, c => .num c.hzone
  | .n50, c => .num c.n50
  | .p_exp, c => .num c.p_exp
  | .specificFanPower, c => .num c.fanPower
  | .stack_coeff, c => .num c.stack_coeff
  | .stack_exp, c => .num c.stack_exp
  | .supplyExhaustRate, c => .num c.supplyDifference
  | .vent_rate_flag, c => .num (OfInt.ofInt c.vent_rate_flag)
  | .ventPreheatDegC, c => .num c.ventPreheatDegC
  | .wind_coeff, c => .num c.wind_coeff
  | .wind_exp, c => .num c.wind_exp
  | .zone_frac, c => .num c.zone_frac

/-- write to the component -/
def writeVentilation : (n : VentilationAccessor) → Arg α (.ventilation n) → Ventilation α → Ventilation α
  | .dCp, v, c => { c with dCp := v }
  | .exhaustAirRecirclation, v, c => { c with exhaustAirRecirculated := v }
  | .fanFlowControlFactor, v, c => { c with fanControlFactor := v }
  | .freshAirFlowRate, v, c => { c with supplyRate := v }
  | .H_ve, v, c => { c with H_ve := v }
  | .heatRecovery, v, c => { c with heatRecoveryEfficiency := v }
  | .hzone, v, c => { c with hzone := v }
  | .n50, v, c => { c with n50 := v }
  | .p_exp, v, c => { c with p_exp := v }
  | .specificFanPower, v, c => { c with fanPower := v }
  | .stack_coeff, v, c => { c with stack_coeff := v }
  | .stack_exp, v, c => { c with stack_exp := v }
  | .supplyExhaustRate, v, c => { c with supplyDifference := v }
  | .vent_rate_flag, v, c => { c with vent_rate_flag := v }
  | .ventPreheatDegC, v, c => { c with ventPreheatDegC := v }
  | .wind_coeff, v, c => { c with wind_coeff := v }
  | .wind_exp, v, c => { c with wind_exp := v }
  | .zone_frac, v, c => { c with zone_frac := v }

/-- read from the component -/
def readBldg : StructureAccessor → Structure α → Reading α
  | .buildingAirLeakage, c => .num c.infiltrationRate
  | .buildingHeight, c => .num c.buildingHeight
  | .exteriorHeatCapacity, c => .num c.wallHeatCapacity
  | .floorArea, c => .num c.floorArea
  | .interiorHeatCapacity, c => .num c.interiorHeatCapacity
  | .irradianceForMaxShadingUse, c => .num c.irradianceForMaxShadingUse
  | .R_sc_ext, c => .num c.R_sc_ext
  | .R_se, c => .num c.R_se
  | .shadingFactorAtMaxUse, c => .num c.shadingFactorAtMaxUse
  | .totalAreaPerFloorArea, c => .num c.totalAreaPerFloorArea
  | .win_F_W, c => .num c.win_F_W
  | .win_ff, c => .num c.win_ff

/-- write to the component -/
def writeBldg : (n : StructureAccessor) → Arg α (.bldg n) → Structure α → Structure α
  | .buildingAirLeakage, v, c => { c with infiltrationRate := v }
  | .buildingHeight, v, c => { c with buildingHeight := v }
  | .exteriorHeatCapacity, v, c => { c with wallHeatCapacity := v }
  | .floorArea, v, c => { c with floorArea := v }
  | .interiorHeatCapacity, v, c => { c with interiorHeatCapacity := v }
  | .irradianceForMaxShadingUse, v, c => { c with irradianceForMaxShadingUse := v }
  | .R_sc_ext, v, c => { c with R_sc_ext := v }
  | .R_se, v, c => { c with R_se := v }
  | .shadingFactorAtMaxUse, v, c => { c with shadingFactorAtMaxUse := v }
  | .totalAreaPerFloorArea, v, c => { c with totalAreaPerFloorArea := v }
  | .win_F_W, v, c => { c with win_F_W := v }
  | .win_ff, v, c => { c with win_ff := v }

/-- read from the component -/
def readExtra : FixedAccessor → Extra α → Reading α
  | .electricAppliancePowerFixedOccupied, c => .num c.electricAppliancePowerFixedOccupied
  | .electricAppliancePowerFixedUnoccupied, c => .num c.electricAppliancePowerFixedUnoccupied
  | .gasAppliancePowerFixedOccupied, c => .num c.gasAppliancePowerFixedOccupied
  | .gasAppliancePowerFixedUnoccupied, c => .num c.gasAppliancePowerFixedUnoccupied
  | .lightingPowerFixedOccupied, c => .num c.lightingPowerFixedOccupied
  | .lightingPowerFixedUnoccupied, c => .num c.lightingPowerFixedUnoccupied
  | .scheduleFilePath, c => .text c.scheduleFilePath
  | .infiltrationRateUnoccupied, c => .num c.infiltrationRateUnoccupied
  | .ventilationExhaustRateUnoccupied, c => .num c.ventilationExhaustRateUnoccupied
  | .ventilationIntakeRateUnoccupied, c => .num c.ventilationIntakeRateUnoccupied

/-- write to the component -/
def writeExtra : (n : FixedAccessor) → Arg α (.extra n) → Extra α → Extra α
  | .electricAppliancePowerFixedOccupied, v, c => { c with electricAppliancePowerFixedOccupied := v }
  | .electricAppliancePowerFixedUnoccupied, v, c => { c with electricAppliancePowerFixedUnoccupied := v }
  | .gasAppliancePowerFixedOccupied, v, c => { c with gasAppliancePowerFixedOccupied := v }
  | .gasAppliancePowerFixedUnoccupied, v, c => { c with gasAppliancePowerFixedUnoccupied := v }
  | .lightingPowerFixedOccupied, v, c => { c with lightingPowerFixedOccupied := v }
  | .lightingPowerFixedUnoccupied, v, c => { c with lightingPowerFixedUnoccupied := v }
  | .scheduleFilePath, v, c => { c with scheduleFilePath := v }
  | .infiltrationRateUnoccupied, v, c => { c with infiltrationRateUnoccupied := v }
  | .ventilationExhaustRateUnoccupied, v, c => { c with ventilationExhaustRateUnoccupied := v }
  | .ventilationIntakeRateUnoccupied, v, c => { c with ventilationIntakeRateUnoccupied := v }

/-- one of the nine vectors -/
def vec : NineVector → Structure α → Fin 9 → α
  | .wallArea, c => c.wallArea
  | .wallU, c => c.wallUniform
  | .wallThermalEmissivity, c => c.wallThermalEmissivity
  | .wallSolarAbsorption, c => c.wallSolarAbsorption
  | .windowArea, c => c.windowArea
  | .windowU, c => c.windowUniform
  | .windowSHGC, c => c.windowNormalIncidenceSolarEnergyTransmittance
  | .windowSCF, c => c.windowShadingCorrectionFactor
  | .windowSDF, c => c.windowShadingDevice

/-- replace one of the nine vectors -/
def setVec : NineVector → (Fin 9 → α) → Structure α → Structure α
  | .wallArea, w, c => { c with wallArea := w }
  | .wallU, w, c => { c with wallUniform := w }
  | .wallThermalEmissivity, w, c => { c with wallThermalEmissivity := w }
  | .wallSolarAbsorption, w, c => { c with wallSolarAbsorption := w }
  | .windowArea, w, c => { c with windowArea := w }
  | .windowU, w, c => { c with windowUniform := w }
  | .windowSHGC, w, c => { c with windowNormalIncidenceSolarEnergyTransmittance := w }
  | .windowSCF, w, c => { c with windowShadingCorrectionFactor := w }
  | .windowSDF, w, c => { c with windowShadingDevice := w }

end Accessor

open Accessor

set_option linter.unusedSectionVars false
set_option linter.unusedSimpArgs false

section
variable {α : Type} [CNum α] [OfInt α]

theorem get_building (n : BuildingAccessor) (u : Object α) : get (.building n) u = readBuilding n u.params.building := by
  cases n <;> rfl

theorem set_building (n : BuildingAccessor) (v : Arg α (.building n)) (u : Object α) :
    set (.building n) v u = { u with params := { u.params with building := writeBuilding n v u.params.building } } := by
  cases n <;> rfl

theorem other_building (n m : BuildingAccessor) (h : m ≠ n) (v : Arg α (.building n)) (c : Building α) : readBuilding m (writeBuilding n v c) = readBuilding m c := by
  cases n <;> cases m <;> first | rfl | exact absurd rfl h

theorem same_building (n : BuildingAccessor) (v : Arg α (.building n)) (c : Building α) : readBuilding n (writeBuilding n v c) = shown (.building n) v := by
  cases n <;> rfl

theorem get_cooling (n : CoolingAccessor) (u : Object α) : get (.cooling n) u = readCooling n u.params.cooling := by
  cases n <;> rfl

theorem set_cooling (n : CoolingAccessor) (v : Arg α (.cooling n)) (u : Object α) :
    set (.cooling n) v u = { u with params := { u.params with cooling := writeCooling n v u.params.cooling } } := by
  cases n <;> rfl

theorem other_cooling (n m : CoolingAccessor) (h : m ≠ n) (v : Arg α (.cooling n)) (c : Cooling α) : readCooling m (writeCooling n v c) = readCooling m c := by
  cases n <;> cases m <;> first | rfl | exact absurd rfl h

theorem same_cooling (n : CoolingAccessor) (v : Arg α (.cooling n)) (c : Cooling α) : readCooling n (writeCooling n v c) = shown (.cooling n) v := by
  cases n <;> rfl

theorem get_heating (n : HeatingAccessor) (u : Object α) : get (.heating n) u = readHeating n u.params.heating := by
  cases n <;> rfl

theorem set_heating (n : HeatingAccessor) (v : Arg α (.heating n)) (u : Object α) :
    set (.heating n) v u = { u with params := { u.params with heating := writeHeating n v u.params.heating } } := by
  cases n <;> rfl

theorem other_heating (n m : HeatingAccessor) (h : m ≠ n) (v : Arg α (.heating n)) (c : Heating α) : readHeating m (writeHeating n v c) = readHeating m c := by
  cases n <;> cases m <;> first | rfl | exact absurd rfl h

theorem same_heating (n : HeatingAccessor) (v : Arg α (.heating n)) (c : Heating α) : readHeating n (writeHeating n v c) = shown (.heating n) v := by
  cases n <;> rfl

theorem get_lights (n : LightingAccessor) (u : Object α) : get (.lights n) u = readLights n u.params.lights := by
  cases n <;> rfl

theorem set_lights (n : LightingAccessor) (v : Arg α (.lights n)) (u : Object α) :
    set (.lights n) v u = { u with params := { u.params with lights := writeLights n v u.params.lights } } := by
  cases n <;> rfl

theorem other_lights (n m : LightingAccessor) (h : m ≠ n) (v : Arg α (.lights n)) (c : Lighting α) : readLights m (writeLights n v c) = readLights m c := by
  cases n <;> cases m <;> first | rfl | exact absurd rfl h

theorem same_lights (n : LightingAccessor) (v : Arg α (.lights n)) (c : Lighting α) : readLights n (writeLights n v c) = shown (.lights n) v := by
  cases n <;> rfl

theorem get_phys (n : PhysicalAccessor) (u : Object α) : get (.phys n) u = readPhys n u.params.phys := by
  cases n <;> rfl

theorem set_phys (n : PhysicalAccessor) (v : Arg α (.phys n)) (u : Object α) :
    set (.phys n) v u = { u with params := { u.params with phys := writePhys n v u.params.phys } } := by
  cases n <;> rfl

theorem other_phys (n m : PhysicalAccessor) (h : m ≠ n) (v : Arg α (.phys n)) (c : PhysicalQuantities α) : readPhys m (writePhys n v c) = readPhys m c := by
  cases n <;> cases m <;> first | rfl | exact absurd rfl h

theorem same_phys (n : PhysicalAccessor) (v : Arg α (.phys n)) (c : PhysicalQuantities α) : readPhys n (writePhys n v c) = shown (.phys n) v := by
  cases n <;> rfl

theorem get_pop (n : PopulationAccessor) (u : Object α) : get (.pop n) u = readPop n u.params.pop := by
  cases n <;> rfl

theorem set_pop (n : PopulationAccessor) (v : Arg α (.pop n)) (u : Object α) :
    set (.pop n) v u = { u with params := { u.params with pop := writePop n v u.params.pop } } := by
  cases n <;> rfl

theorem other_pop (n m : PopulationAccessor) (h : m ≠ n) (v : Arg α (.pop n)) (c : Population α) : readPop m (writePop n v c) = readPop m c := by
  cases n <;> cases m <;> first | rfl | exact absurd rfl h

theorem same_pop (n : PopulationAccessor) (v : Arg α (.pop n)) (c : Population α) : readPop n (writePop n v c) = shown (.pop n) v := by
  cases n <;> rfl

theorem get_simSettings (n : SettingsAccessor) (u : Object α) : get (.simSettings n) u = readSimSettings n u.params.simSettings := by
  cases n <;> rfl

theorem set_simSettings (n : SettingsAccessor) (v : Arg α (.simSettings n)) (u : Object α) :
    set (.simSettings n) v u = { u with params := { u.params with simSettings := writeSimSettings n v u.params.simSettings } } := by
  cases n <;> rfl

theorem other_simSettings (n m : SettingsAccessor) (h : m ≠ n) (v : Arg α (.simSettings n)) (c : SimulationSettings α) : readSimSettings m (writeSimSettings n v c) = readSimSettings m c := by
  cases n <;> cases m <;> first | rfl | exact absurd rfl h

theorem same_simSettings (n : SettingsAccessor) (v : Arg α (.simSettings n)) (c : SimulationSettings α) : readSimSettings n (writeSimSettings n v c) = shown (.simSettings n) v := by
  cases n <;> rfl

theorem get_ventilation (n : VentilationAccessor) (u : Object α) : get (.ventilation n) u = readVentilation n u.params.ventilation := by
  cases n <;> rfl

theorem set_ventilation (n : VentilationAccessor) (v : Arg α (.ventilation n)) (u : Object α) :
    set (.ventilation n) v u = { u with params := { u.params with ventilation := writeVentilation n v u.params.ventilation } } := by
  cases n <;> rfl

theorem other_ventilation (n m : VentilationAccessor) (h : m ≠ n) (v : Arg α (.ventilation n)) (c : Ventilation α) : readVentilation m (writeVentilation n v c) = readVentilation m c := by
  cases n <;> cases m <;> first | rfl | exact absurd rfl h

theorem same_ventilation (n : VentilationAccessor) (v : Arg α (.ventilation n)) (c : Ventilation α) : readVentilation n (writeVentilation n v c) = shown (.ventilation n) v := by
  cases n <;> rfl

theorem get_bldg (n : StructureAccessor) (u : Object α) : get (.bldg n) u = readBldg n u.params.bldg := by
  cases n <;> rfl

theorem set_bldg (n : StructureAccessor) (v : Arg α (.bldg n)) (u : Object α) :
    set (.bldg n) v u = { u with params := { u.params with bldg := writeBldg n v u.params.bldg } } := by
  cases n <;> rfl

theorem other_bldg (n m : StructureAccessor) (h : m ≠ n) (v : Arg α (.bldg n)) (c : Structure α) : readBldg m (writeBldg n v c) = readBldg m c := by
  cases n <;> cases m <;> first | rfl | exact absurd rfl h

theorem same_bldg (n : StructureAccessor) (v : Arg α (.bldg n)) (c : Structure α) : readBldg n (writeBldg n v c) = shown (.bldg n) v := by
  cases n <;> rfl

theorem get_extra (n : FixedAccessor) (u : Object α) : get (.extra n) u = readExtra n u.extra := by
  cases n <;> rfl

theorem set_extra (n : FixedAccessor) (v : Arg α (.extra n)) (u : Object α) :
    set (.extra n) v u = { u with extra := writeExtra n v u.extra } := by
  cases n <;> rfl

theorem other_extra (n m : FixedAccessor) (h : m ≠ n) (v : Arg α (.extra n)) (c : Extra α) : readExtra m (writeExtra n v c) = readExtra m c := by
  cases n <;> cases m <;> first | rfl | exact absurd rfl h

theorem same_extra (n : FixedAccessor) (v : Arg α (.extra n)) (c : Extra α) : readExtra n (writeExtra n v c) = shown (.extra n) v := by
  cases n <;> rfl

theorem get_facade (n : NineVector) (f : Facade) (u : Object α) : get (.facade n f) u = .num (vec n u.params.bldg (slot f)) := by
  cases n <;> cases f <;> rfl

theorem set_facade (n : NineVector) (f : Facade) (v : Arg α (.facade n f)) (u : Object α) :
    set (.facade n f) v u = { u with params := { u.params with bldg := setVec n (Function.update (vec n u.params.bldg) (slot f) v) u.params.bldg } } := by
  cases n <;> cases f <;> rfl

theorem shown_facade (n : NineVector) (f : Facade) (v : Arg α (.facade n f)) : shown (.facade n f) v = .num v := by
  cases n <;> cases f <;> rfl


theorem vec_setVec (n m : NineVector) (w : Fin 9 → α) (c : Structure α) : vec m (setVec n w c) = if m = n then w else vec m c := by
  cases n <;> cases m <;> rfl


theorem vec_write (n : StructureAccessor) (m : NineVector) (v : Arg α (.bldg n)) (c : Structure α) : vec m (writeBldg n v c) = vec m c := by
  cases n <;> cases m <;> rfl


theorem read_setVec (n : StructureAccessor) (m : NineVector) (w : Fin 9 → α) (c : Structure α) : readBldg n (setVec m w c) = readBldg n c := by
  cases n <;> cases m <;> rfl

theorem slot_injective : Function.Injective slot := by
  intro f g h
  cases f <;> cases g <;> first | rfl | exact absurd h (by decide)

theorem whole_building (x y : Building Dbl) (h : ∀ n, readBuilding n x = readBuilding n y) (h_0 : x.buildingEnergyManagement = y.buildingEnergyManagement) : x = y := by
  have e0 := h .constantIlluminationControl
  have e1 := h .elecPowerAppliancesOccupied
  have e2 := h .elecPowerAppliancesUnoccupied
  have e3 := h .externalEquipment
  have e4 := h .gasPowerAppliancesOccupied
  have e5 := h .gasPowerAppliancesUnoccupied
  have e6 := h .lightingOccupancySensorSystem
  clear h
  cases x; cases y
  simp only [readBuilding, Reading.num.injEq, Reading.flag.injEq, Reading.text.injEq, OfInt.ofInt, Dbl.fin.injEq, Int.cast_inj] at *
  subst_vars
  rfl

theorem whole_cooling (x y : Cooling Dbl) (h : ∀ n, readCooling n x = readCooling n y)  : x = y := by
  have e0 := h .coolingOccupiedSetpoint
  have e1 := h .coolingPumpControl
  have e2 := h .coolingSystemCOP
  have e3 := h .coolingSystemIPLVToCOPRatio
  have e4 := h .coolingUnoccupiedSetpoint
  have e5 := h .DC_YesNo
  have e6 := h .dT_supp_cl
  have e7 := h .E_pumps_cl
  have e8 := h .eta_DC_COP_abs
  have e9 := h .eta_DC_COP
  have e10 := h .eta_DC_frac_abs
  have e11 := h .eta_DC_network
  have e12 := h .forcedAirCooling
  have e13 := h .frac_DC_free
  have e14 := h .hvacCoolingLossFactor
  have e15 := h .T_cl_ctrl_flag
  clear h
  cases x; cases y
  simp only [readCooling, Reading.num.injEq, Reading.flag.injEq, Reading.text.injEq, OfInt.ofInt, Dbl.fin.injEq, Int.cast_inj] at *
  subst_vars
  rfl

theorem whole_heating (x y : Heating Dbl) (h : ∀ n, readHeating n x = readHeating n y) (h_0 : x.energyType = y.energyType) (h_1 : x.hotWaterEnergyType = y.hotWaterEnergyType) : x = y := by
  have e0 := h .a_H0
  have e1 := h .DH_YesNo
  have e2 := h .dhw_tset
  have e3 := h .dhw_tsupply
  have e4 := h .dhwDemand
  have e5 := h .dhwDistributionEfficiency
  have e6 := h .dhwEfficiency
  have e7 := h .dT_supp_ht
  have e8 := h .E_pumps_ht
  have e9 := h .eta_DH_network
  have e10 := h .eta_DH_sys
  have e11 := h .forcedAirHeating
  have e12 := h .frac_DH_free
  have e13 := h .heatingOccupiedSetpoint
  have e14 := h .heatingPumpControl
  have e15 := h .heatingSystemEfficiency
  have e16 := h .heatingUnoccupiedSetpoint
  have e17 := h .hvacHeatingLossFactor
  have e18 := h .hvacWasteFactor
  have e19 := h .T_ht_ctrl_flag
  have e20 := h .tau_H0
  clear h
  cases x; cases y
  simp only [readHeating, Reading.num.injEq, Reading.flag.injEq, Reading.text.injEq, OfInt.ofInt, Dbl.fin.injEq, Int.cast_inj] at *
  subst_vars
  rfl

theorem whole_lights (x y : Lighting Dbl) (h : ∀ n, readLights n x = readLights n y)  : x = y := by
  have e0 := h .automaticAd
  have e1 := h .automaticLux
  have e2 := h .daylightSensorSystem
  have e3 := h .elecInternalGains
  have e4 := h .exteriorLightingPower
  have e5 := h .lightingPowerIntensityOccupied
  have e6 := h .lightingPowerIntensityUnoccupied
  have e7 := h .manualSwitchAd
  have e8 := h .manualSwitchLux
  have e9 := h .n_day_end
  have e10 := h .n_day_start
  have e11 := h .n_weeks
  have e12 := h .naturallyLightedArea
  have e13 := h .permLightPowerDensity
  have e14 := h .presenceAutoAd
  have e15 := h .presenceAutoLux
  have e16 := h .presenceSensorAd
  have e17 := h .presenceSensorLux
  clear h
  cases x; cases y
  simp only [readLights, Reading.num.injEq, Reading.flag.injEq, Reading.text.injEq, OfInt.ofInt, Dbl.fin.injEq, Int.cast_inj] at *
  subst_vars
  rfl

theorem whole_phys (x y : PhysicalQuantities Dbl) (h : ∀ n, readPhys n x = readPhys n y)  : x = y := by
  have e0 := h .rhoCpAir
  have e1 := h .rhoCpWater
  clear h
  cases x; cases y
  simp only [readPhys, Reading.num.injEq, Reading.flag.injEq, Reading.text.injEq, OfInt.ofInt, Dbl.fin.injEq, Int.cast_inj] at *
  subst_vars
  rfl

theorem whole_pop (x y : Population Dbl) (h : ∀ n, readPop n x = readPop n y)  : x = y := by
  have e0 := h .buildingOccupancyFrom
  have e1 := h .buildingOccupancyTo
  have e2 := h .equivFullLoadOccupancyFrom
  have e3 := h .equivFullLoadOccupancyTo
  have e4 := h .heatGainPerPerson
  have e5 := h .peopleDensityOccupied
  have e6 := h .peopleDensityUnoccupied
  clear h
  cases x; cases y
  simp only [readPop, Reading.num.injEq, Reading.flag.injEq, Reading.text.injEq, OfInt.ofInt, Dbl.fin.injEq, Int.cast_inj] at *
  subst_vars
  rfl

theorem whole_simSettings (x y : SimulationSettings Dbl) (h : ∀ n, readSimSettings n x = readSimSettings n y)  : x = y := by
  have e0 := h .hci
  have e1 := h .hri
  have e2 := h .phiIntFractionToAirNode
  have e3 := h .phiSolFractionToAirNode
  clear h
  cases x; cases y
  simp only [readSimSettings, Reading.num.injEq, Reading.flag.injEq, Reading.text.injEq, OfInt.ofInt, Dbl.fin.injEq, Int.cast_inj] at *
  subst_vars
  rfl

theorem whole_ventilation (x y : Ventilation Dbl) (h : ∀ n, readVentilation n x = readVentilation n y) (h_0 : x.ventType = y.ventType) : x = y := by
  have e0 := h .dCp
  have e1 := h .exhaustAirRecirclation
  have e2 := h .fanFlowControlFactor
  have e3 := h .freshAirFlowRate
  have e4 := h .H_ve
  have e5 := h .heatRecovery
  have e6 := h .hzone
  have e7 := h .n50
  have e8 := h .p_exp
  have e9 := h .specificFanPower
  have e10 := h .stack_coeff
  have e11 := h .stack_exp
  have e12 := h .supplyExhaustRate
  have e13 := h .vent_rate_flag
  have e14 := h .ventPreheatDegC
  have e15 := h .wind_coeff
  have e16 := h .wind_exp
  have e17 := h .zone_frac
  clear h
  cases x; cases y
  simp only [readVentilation, Reading.num.injEq, Reading.flag.injEq, Reading.text.injEq, OfInt.ofInt, Dbl.fin.injEq, Int.cast_inj] at *
  subst_vars
  rfl

theorem whole_bldg (x y : Structure Dbl) (h : ∀ n, readBldg n x = readBldg n y) (h_0 : x.wallArea = y.wallArea) (h_1 : x.wallUniform = y.wallUniform) (h_2 : x.wallThermalEmissivity = y.wallThermalEmissivity) (h_3 : x.wallSolarAbsorption = y.wallSolarAbsorption) (h_4 : x.windowArea = y.windowArea) (h_5 : x.windowUniform = y.windowUniform) (h_6 : x.windowNormalIncidenceSolarEnergyTransmittance = y.windowNormalIncidenceSolarEnergyTransmittance) (h_7 : x.windowShadingCorrectionFactor = y.windowShadingCorrectionFactor) (h_8 : x.windowShadingDevice = y.windowShadingDevice) : x = y := by
  have e0 := h .buildingAirLeakage
  have e1 := h .buildingHeight
  have e2 := h .exteriorHeatCapacity
  have e3 := h .floorArea
  have e4 := h .interiorHeatCapacity
  have e5 := h .irradianceForMaxShadingUse
  have e6 := h .R_sc_ext
  have e7 := h .R_se
  have e8 := h .shadingFactorAtMaxUse
  have e9 := h .totalAreaPerFloorArea
  have e10 := h .win_F_W
  have e11 := h .win_ff
  clear h
  cases x; cases y
  simp only [readBldg, Reading.num.injEq, Reading.flag.injEq, Reading.text.injEq, OfInt.ofInt, Dbl.fin.injEq, Int.cast_inj] at *
  subst_vars
  rfl

theorem whole_extra (x y : Extra Dbl) (h : ∀ n, readExtra n x = readExtra n y)  : x = y := by
  have e0 := h .electricAppliancePowerFixedOccupied
  have e1 := h .electricAppliancePowerFixedUnoccupied
  have e2 := h .gasAppliancePowerFixedOccupied
  have e3 := h .gasAppliancePowerFixedUnoccupied
  have e4 := h .lightingPowerFixedOccupied
  have e5 := h .lightingPowerFixedUnoccupied
  have e6 := h .scheduleFilePath
  have e7 := h .infiltrationRateUnoccupied
  have e8 := h .ventilationExhaustRateUnoccupied
  have e9 := h .ventilationIntakeRateUnoccupied
  clear h
  cases x; cases y
  simp only [readExtra, Reading.num.injEq, Reading.flag.injEq, Reading.text.injEq, OfInt.ofInt, Dbl.fin.injEq, Int.cast_inj] at *
  subst_vars
  rfl

/-- the codes are members no pair writes -/
theorem code_building (n : BuildingAccessor) (v : Arg α (.building n)) (c : Building α) :
    (writeBuilding n v c).buildingEnergyManagement = c.buildingEnergyManagement := by cases n <;> rfl

theorem code_heating (n : HeatingAccessor) (v : Arg α (.heating n)) (c : Heating α) :
    (writeHeating n v c).energyType = c.energyType ∧ (writeHeating n v c).hotWaterEnergyType = c.hotWaterEnergyType := by
  cases n <;> exact ⟨rfl, rfl⟩

theorem code_ventilation (n : VentilationAccessor) (v : Arg α (.ventilation n)) (c : Ventilation α) :
    (writeVentilation n v c).ventType = c.ventType := by cases n <;> rfl

end

end ISO.User
