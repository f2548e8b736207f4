import Verif.Model.Data
import Verif.Model.Properties

/-!
# Loading the building parameters: UserModel::initializeParameters, initializeStructure

The setters of UserModel.hpp that the loader calls, the five overloads of `initializeParameter`, and the two
lists of calls.  The block `#if (USE_NEW_BUILDING_PARAMS)` (UserModel.cpp:176-188) is compiled only for the
unit test target (CMakeLists.txt:125-129) and is not modelled.
-/

namespace ISO.User
open ISO CNum

/-- The parameter members of `UserModel` (UserModel.hpp: `pop`, `location`, `lights`, `building`, `structure`,
`heating`, `cooling`, `ventilation`, `phys`, `simSettings`, `_weatherFilePath`). -/
structure Params (α : Type) where
  pop : Population α
  terrain : α
  lights : Lighting α
  building : Building α
  bldg : Structure α
  heating : Heating α
  cooling : Cooling α
  ventilation : Ventilation α
  phys : PhysicalQuantities α
  simSettings : SimulationSettings α
  weatherFilePath : Str

/-- exceptions while loading: a missing required parameter (UserModel.cpp:261, 269, 277, 289, 297), a vector
without nine values, an unknown keyword (UserModel.hpp setters), an exception of `std::stod`/`std::stoi` that
`Properties` lets through -/
inductive LoadError where
  | missing (name : Str)
  | wrongCount
  | badKeyword
  | conversion (e : Properties.ConvError)
  | badEscape
  deriving DecidableEq

variable {α : Type} [CNum α]

/-- UserModel.hpp:902-904 -/
def setTerrainClass (v : α) (u : Params α) : Params α := { u with terrain := v }

/-- UserModel.hpp:1044-1046 -/
def setBuildingHeight (v : α) (u : Params α) : Params α := { u with bldg := { u.bldg with buildingHeight := v } }

/-- UserModel.hpp:1064-1066 -/
def setFloorArea (v : α) (u : Params α) : Params α := { u with bldg := { u.bldg with floorArea := v } }

/-- UserModel.hpp:927-929 -/
def setBuildingOccupancyFrom (v : α) (u : Params α) : Params α := { u with pop := { u.pop with daysStart := v } }

/-- UserModel.hpp:932-934 -/
def setBuildingOccupancyTo (v : α) (u : Params α) : Params α := { u with pop := { u.pop with daysEnd := v } }

/-- UserModel.hpp:942-944 -/
def setEquivFullLoadOccupancyFrom (v : α) (u : Params α) : Params α := { u with pop := { u.pop with hoursStart := v } }

/-- UserModel.hpp:952-954 -/
def setEquivFullLoadOccupancyTo (v : α) (u : Params α) : Params α := { u with pop := { u.pop with hoursEnd := v } }

/-- UserModel.hpp:972-974 -/
def setPeopleDensityOccupied (v : α) (u : Params α) : Params α := { u with pop := { u.pop with densityOccupied := v } }

/-- UserModel.hpp:982-984 -/
def setPeopleDensityUnoccupied (v : α) (u : Params α) : Params α := { u with pop := { u.pop with densityUnoccupied := v } }

/-- UserModel.hpp:772-774 -/
def setLightingPowerIntensityOccupied (v : α) (u : Params α) : Params α := { u with lights := { u.lights with powerDensityOccupied := v } }

/-- UserModel.hpp:782-784 -/
def setLightingPowerIntensityUnoccupied (v : α) (u : Params α) : Params α := { u with lights := { u.lights with powerDensityUnoccupied := v } }

/-- UserModel.hpp:195-197 -/
def setElecPowerAppliancesOccupied (v : α) (u : Params α) : Params α := { u with building := { u.building with electricApplianceHeatGainOccupied := v } }

/-- UserModel.hpp:205-207 -/
def setElecPowerAppliancesUnoccupied (v : α) (u : Params α) : Params α := { u with building := { u.building with electricApplianceHeatGainUnoccupied := v } }

/-- UserModel.hpp:265-267 -/
def setGasPowerAppliancesOccupied (v : α) (u : Params α) : Params α := { u with building := { u.building with gasApplianceHeatGainOccupied := v } }

/-- UserModel.hpp:275-277 -/
def setGasPowerAppliancesUnoccupied (v : α) (u : Params α) : Params α := { u with building := { u.building with gasApplianceHeatGainUnoccupied := v } }

/-- UserModel.hpp:742-744 -/
def setExteriorLightingPower (v : α) (u : Params α) : Params α := { u with lights := { u.lights with exteriorEnergy := v } }

/-- UserModel.hpp:672-674 -/
def setHvacWasteFactor (v : α) (u : Params α) : Params α := { u with heating := { u.heating with hotcoldWasteFactor := v } }

/-- UserModel.hpp:662-664 -/
def setHvacHeatingLossFactor (v : α) (u : Params α) : Params α := { u with heating := { u.heating with hvacLossFactor := v } }

/-- UserModel.hpp:435-437 -/
def setHvacCoolingLossFactor (v : α) (u : Params α) : Params α := { u with cooling := { u.cooling with hvacLossFactor := v } }

/-- UserModel.hpp:722-724 -/
def setDaylightSensorSystem (v : α) (u : Params α) : Params α := { u with lights := { u.lights with dimmingFraction := v } }

/-- UserModel.hpp:285-287 -/
def setLightingOccupancySensorSystem (v : α) (u : Params α) : Params α := { u with building := { u.building with lightingOccupancySensor := v } }

/-- UserModel.hpp:185-187 -/
def setConstantIlluminationControl (v : α) (u : Params α) : Params α := { u with building := { u.building with constantIllumination := v } }

/-- UserModel.hpp:315-317 -/
def setCoolingSystemCOP (v : α) (u : Params α) : Params α := { u with cooling := { u.cooling with cop := v } }

/-- UserModel.hpp:325-327 -/
def setCoolingSystemIPLVToCOPRatio (v : α) (u : Params α) : Params α := { u with cooling := { u.cooling with partialLoadValue := v } }

/-- UserModel.hpp:642-644 -/
def setHeatingSystemEfficiency (v : α) (u : Params α) : Params α := { u with heating := { u.heating with efficiency := v } }

/-- UserModel.hpp:606-614 -/
def setHeatingEnergyCarrier (type : Str) (u : Params α) : Except LoadError (Params α) :=
  if lower type = "electric".toList then .ok { u with heating := { u.heating with energyType := (1.0 : α) } }
  else if lower type = "gas".toList then .ok { u with heating := { u.heating with energyType := (2.0 : α) } }
  else .error .badKeyword

/-- UserModel.hpp:2206-2216 -/
def setVentilationType (type : Str) (u : Params α) : Except LoadError (Params α) :=
  if lower type = "mechanical".toList then .ok { u with ventilation := { u.ventilation with ventType := (1.0 : α) } }
  else if lower type = "combined".toList then .ok { u with ventilation := { u.ventilation with ventType := (2.0 : α) } }
  else if lower type = "natural".toList then .ok { u with ventilation := { u.ventilation with ventType := (3.0 : α) } }
  else .error .badKeyword

/-- UserModel.hpp:530-538 -/
def setDhwEnergyCarrier (type : Str) (u : Params α) : Except LoadError (Params α) :=
  if lower type = "electric".toList then .ok { u with heating := { u.heating with hotWaterEnergyType := (1.0 : α) } }
  else if lower type = "gas".toList then .ok { u with heating := { u.heating with hotWaterEnergyType := (2.0 : α) } }
  else .error .badKeyword

/-- UserModel.hpp:147-157 -/
def setBemType (type : Str) (u : Params α) : Except LoadError (Params α) :=
  if lower type = "none".toList then .ok { u with building := { u.building with buildingEnergyManagement := (1.0 : α) } }
  else if lower type = "simple".toList then .ok { u with building := { u.building with buildingEnergyManagement := (2.0 : α) } }
  else if lower type = "advanced".toList then .ok { u with building := { u.building with buildingEnergyManagement := (3.0 : α) } }
  else .error .badKeyword

/-- UserModel.hpp:2066-2068 -/
def setFreshAirFlowRate (v : α) (u : Params α) : Params α := { u with ventilation := { u.ventilation with supplyRate := v } }

/-- UserModel.hpp:2166-2168 -/
def setSupplyExhaustRate (v : α) (u : Params α) : Params α := { u with ventilation := { u.ventilation with supplyDifference := v } }

/-- UserModel.hpp:2086-2088 -/
def setHeatRecovery (v : α) (u : Params α) : Params α := { u with ventilation := { u.ventilation with heatRecoveryEfficiency := v } }

/-- UserModel.hpp:2046-2048 -/
def setExhaustAirRecirclation (v : α) (u : Params α) : Params α := { u with ventilation := { u.ventilation with exhaustAirRecirculated := v } }

/-- UserModel.hpp:1039-1041 -/
def setBuildingAirLeakage (v : α) (u : Params α) : Params α := { u with bldg := { u.bldg with infiltrationRate := v } }

/-- UserModel.hpp:495-497 -/
def setDhwDemand (v : α) (u : Params α) : Params α := { u with heating := { u.heating with hotWaterDemand := v } }

/-- UserModel.hpp:520-522 -/
def setDhwEfficiency (v : α) (u : Params α) : Params α := { u with heating := { u.heating with hotWaterSystemEfficiency := v } }

/-- UserModel.hpp:505-507 -/
def setDhwDistributionEfficiency (v : α) (u : Params α) : Params α := { u with heating := { u.heating with hotWaterDistributionEfficiency := v } }

/-- UserModel.hpp:1074-1076 -/
def setInteriorHeatCapacity (v : α) (u : Params α) : Params α := { u with bldg := { u.bldg with interiorHeatCapacity := v } }

/-- UserModel.hpp:1054-1056 -/
def setExteriorHeatCapacity (v : α) (u : Params α) : Params α := { u with bldg := { u.bldg with wallHeatCapacity := v } }

/-- UserModel.hpp:632-634 -/
def setHeatingPumpControl (v : α) (u : Params α) : Params α := { u with heating := { u.heating with pumpControlReduction := v } }

/-- UserModel.hpp:305-307 -/
def setCoolingPumpControl (v : α) (u : Params α) : Params α := { u with cooling := { u.cooling with pumpControlReduction := v } }

/-- UserModel.hpp:962-964 -/
def setHeatGainPerPerson (v : α) (u : Params α) : Params α := { u with pop := { u.pop with heatGainPerPerson := v } }

/-- UserModel.hpp:2136-2138 -/
def setSpecificFanPower (v : α) (u : Params α) : Params α := { u with ventilation := { u.ventilation with fanPower := v } }

/-- UserModel.hpp:2056-2058 -/
def setFanFlowControlFactor (v : α) (u : Params α) : Params α := { u with ventilation := { u.ventilation with fanControlFactor := v } }

/-- UserModel.hpp:295-297 -/
def setCoolingOccupiedSetpoint (v : α) (u : Params α) : Params α := { u with cooling := { u.cooling with temperatureSetPointOccupied := v } }

/-- UserModel.hpp:335-337 -/
def setCoolingUnoccupiedSetpoint (v : α) (u : Params α) : Params α := { u with cooling := { u.cooling with temperatureSetPointUnoccupied := v } }

/-- UserModel.hpp:622-624 -/
def setHeatingOccupiedSetpoint (v : α) (u : Params α) : Params α := { u with heating := { u.heating with temperatureSetPointOccupied := v } }

/-- UserModel.hpp:652-654 -/
def setHeatingUnoccupiedSetpoint (v : α) (u : Params α) : Params α := { u with heating := { u.heating with temperatureSetPointUnoccupied := v } }

/-- UserModel.hpp:137-139 -/
def setWeatherFilePath (v : Str) (u : Params α) : Except LoadError (Params α) := .ok { u with weatherFilePath := v }

/-- UserModel.hpp:235-237 -/
def setExternalEquipment (v : α) (u : Params α) : Params α := { u with building := { u.building with externalEquipment := v } }

/-- UserModel.hpp:415-417 -/
def setForcedAirCooling (v : Bool) (u : Params α) : Params α := { u with cooling := { u.cooling with forcedAirCooling := v } }

/-- UserModel.hpp:445-447 -/
def setT_cl_ctrl_flag (v : α) (u : Params α) : Params α := { u with cooling := { u.cooling with T_cl_ctrl_flag := v } }

/-- UserModel.hpp:355-357 -/
def setDT_supp_cl (v : α) (u : Params α) : Params α := { u with cooling := { u.cooling with dT_supp_cl := v } }

/-- UserModel.hpp:345-347 -/
def setDC_YesNo (v : α) (u : Params α) : Params α := { u with cooling := { u.cooling with DC_YesNo := v } }

/-- UserModel.hpp:405-407 -/
def setEta_DC_network (v : α) (u : Params α) : Params α := { u with cooling := { u.cooling with eta_DC_network := v } }

/-- UserModel.hpp:385-387 -/
def setEta_DC_COP (v : α) (u : Params α) : Params α := { u with cooling := { u.cooling with eta_DC_COP := v } }

/-- UserModel.hpp:395-397 -/
def setEta_DC_frac_abs (v : α) (u : Params α) : Params α := { u with cooling := { u.cooling with eta_DC_frac_abs := v } }

/-- UserModel.hpp:375-377 -/
def setEta_DC_COP_abs (v : α) (u : Params α) : Params α := { u with cooling := { u.cooling with eta_DC_COP_abs := v } }

/-- UserModel.hpp:425-427 -/
def setFrac_DC_free (v : α) (u : Params α) : Params α := { u with cooling := { u.cooling with frac_DC_free := v } }

/-- UserModel.hpp:365-367 -/
def setE_pumps_cl (v : α) (u : Params α) : Params α := { u with cooling := { u.cooling with E_pumps := v } }

/-- UserModel.hpp:586-588 -/
def setForcedAirHeating (v : Bool) (u : Params α) : Params α := { u with heating := { u.heating with forcedAirHeating := v } }

/-- UserModel.hpp:546-548 -/
def setDT_supp_ht (v : α) (u : Params α) : Params α := { u with heating := { u.heating with dT_supp_ht := v } }

/-- UserModel.hpp:556-558 -/
def setE_pumps_ht (v : α) (u : Params α) : Params α := { u with heating := { u.heating with E_pumps := v } }

/-- UserModel.hpp:682-684 -/
def setT_ht_ctrl_flag (v : α) (u : Params α) : Params α := { u with heating := { u.heating with T_ht_ctrl_flag := v } }

/-- UserModel.hpp:455-457 -/
def setA_H0 (v : α) (u : Params α) : Params α := { u with heating := { u.heating with a_H0 := v } }

/-- UserModel.hpp:692-694 -/
def setTau_H0 (v : α) (u : Params α) : Params α := { u with heating := { u.heating with tau_H0 := v } }

/-- UserModel.hpp:465-467 -/
def setDH_YesNo (v : α) (u : Params α) : Params α := { u with heating := { u.heating with DH_YesNo := v } }

/-- UserModel.hpp:566-568 -/
def setEta_DH_network (v : α) (u : Params α) : Params α := { u with heating := { u.heating with eta_DH_network := v } }

/-- UserModel.hpp:576-578 -/
def setEta_DH_sys (v : α) (u : Params α) : Params α := { u with heating := { u.heating with eta_DH_sys := v } }

/-- UserModel.hpp:596-598 -/
def setFrac_DH_free (v : α) (u : Params α) : Params α := { u with heating := { u.heating with frac_DH_free := v } }

/-- UserModel.hpp:475-477 -/
def setDhw_tset (v : α) (u : Params α) : Params α := { u with heating := { u.heating with dhw_tset := v } }

/-- UserModel.hpp:485-487 -/
def setDhw_tsupply (v : α) (u : Params α) : Params α := { u with heating := { u.heating with dhw_tsupply := v } }

/-- UserModel.hpp:822-824 -/
def setN_day_start (v : α) (u : Params α) : Params α := { u with lights := { u.lights with n_day_start := v } }

/-- UserModel.hpp:812-814 -/
def setN_day_end (v : α) (u : Params α) : Params α := { u with lights := { u.lights with n_day_end := v } }

/-- UserModel.hpp:832-834 -/
def setN_weeks (v : α) (u : Params α) : Params α := { u with lights := { u.lights with n_weeks := v } }

/-- UserModel.hpp:732-734 -/
def setElecInternalGains (v : α) (u : Params α) : Params α := { u with lights := { u.lights with elecInternalGains := v } }

/-- UserModel.hpp:852-854 -/
def setPermLightPowerDensity (v : α) (u : Params α) : Params α := { u with lights := { u.lights with permLightPowerDensity := v } }

/-- UserModel.hpp:882-884 -/
def setPresenceSensorAd (v : α) (u : Params α) : Params α := { u with lights := { u.lights with presenceSensorAd := v } }

/-- UserModel.hpp:702-704 -/
def setAutomaticAd (v : α) (u : Params α) : Params α := { u with lights := { u.lights with automaticAd := v } }

/-- UserModel.hpp:862-864 -/
def setPresenceAutoAd (v : α) (u : Params α) : Params α := { u with lights := { u.lights with presenceAutoAd := v } }

/-- UserModel.hpp:792-794 -/
def setManualSwitchAd (v : α) (u : Params α) : Params α := { u with lights := { u.lights with manualSwitchAd := v } }

/-- UserModel.hpp:892-894 -/
def setPresenceSensorLux (v : α) (u : Params α) : Params α := { u with lights := { u.lights with presenceSensorLux := v } }

/-- UserModel.hpp:712-714 -/
def setAutomaticLux (v : α) (u : Params α) : Params α := { u with lights := { u.lights with automaticLux := v } }

/-- UserModel.hpp:872-874 -/
def setPresenceAutoLux (v : α) (u : Params α) : Params α := { u with lights := { u.lights with presenceAutoLux := v } }

/-- UserModel.hpp:802-804 -/
def setManualSwitchLux (v : α) (u : Params α) : Params α := { u with lights := { u.lights with manualSwitchLux := v } }

/-- UserModel.hpp:842-844 -/
def setNaturallyLightedArea (v : α) (u : Params α) : Params α := { u with lights := { u.lights with naturallyLightedArea := v } }

/-- UserModel.hpp:912-914 -/
def setRhoCpAir (v : α) (u : Params α) : Params α := { u with phys := { u.phys with rhoCpAir := v } }

/-- UserModel.hpp:922-924 -/
def setRhoCpWater (v : α) (u : Params α) : Params α := { u with phys := { u.phys with rhoCpWater := v } }

/-- UserModel.hpp:1024-1026 -/
def setPhiIntFractionToAirNode (v : α) (u : Params α) : Params α := { u with simSettings := { u.simSettings with phiIntFractionToAirNode := v } }

/-- UserModel.hpp:1034-1036 -/
def setPhiSolFractionToAirNode (v : α) (u : Params α) : Params α := { u with simSettings := { u.simSettings with phiSolFractionToAirNode := v } }

/-- UserModel.hpp:1004-1006 -/
def setHci (v : α) (u : Params α) : Params α := { u with simSettings := { u.simSettings with hci := v } }

/-- UserModel.hpp:1014-1016 -/
def setHri (v : α) (u : Params α) : Params α := { u with simSettings := { u.simSettings with hri := v } }

/-- UserModel.hpp:1104-1106 -/
def setR_se (v : α) (u : Params α) : Params α := { u with bldg := { u.bldg with R_se := v } }

/-- UserModel.hpp:1084-1086 -/
def setIrradianceForMaxShadingUse (v : α) (u : Params α) : Params α := { u with bldg := { u.bldg with irradianceForMaxShadingUse := v } }

/-- UserModel.hpp:1154-1156 -/
def setShadingFactorAtMaxUse (v : α) (u : Params α) : Params α := { u with bldg := { u.bldg with shadingFactorAtMaxUse := v } }

/-- UserModel.hpp:1214-1216 -/
def setTotalAreaPerFloorArea (v : α) (u : Params α) : Params α := { u with bldg := { u.bldg with totalAreaPerFloorArea := v } }

/-- UserModel.hpp:1586-1588 -/
def setWin_ff (v : α) (u : Params α) : Params α := { u with bldg := { u.bldg with win_ff := v } }

/-- UserModel.hpp:1576-1578 -/
def setWin_F_W (v : α) (u : Params α) : Params α := { u with bldg := { u.bldg with win_F_W := v } }

/-- UserModel.hpp:1094-1096 -/
def setR_sc_ext (v : α) (u : Params α) : Params α := { u with bldg := { u.bldg with R_sc_ext := v } }

/-- UserModel.hpp:2224-2226 -/
def setVentPreheatDegC (v : α) (u : Params α) : Params α := { u with ventilation := { u.ventilation with ventPreheatDegC := v } }

/-- UserModel.hpp:2116-2118 -/
def setN50 (v : α) (u : Params α) : Params α := { u with ventilation := { u.ventilation with n50 := v } }

/-- UserModel.hpp:2096-2098 -/
def setHzone (v : α) (u : Params α) : Params α := { u with ventilation := { u.ventilation with hzone := v } }

/-- UserModel.hpp:2126-2128 -/
def setP_exp (v : α) (u : Params α) : Params α := { u with ventilation := { u.ventilation with p_exp := v } }

/-- UserModel.hpp:2254-2256 -/
def setZone_frac (v : α) (u : Params α) : Params α := { u with ventilation := { u.ventilation with zone_frac := v } }

/-- UserModel.hpp:2156-2158 -/
def setStack_exp (v : α) (u : Params α) : Params α := { u with ventilation := { u.ventilation with stack_exp := v } }

/-- UserModel.hpp:2146-2148 -/
def setStack_coeff (v : α) (u : Params α) : Params α := { u with ventilation := { u.ventilation with stack_coeff := v } }

/-- UserModel.hpp:2244-2246 -/
def setWind_exp (v : α) (u : Params α) : Params α := { u with ventilation := { u.ventilation with wind_exp := v } }

/-- UserModel.hpp:2234-2236 -/
def setWind_coeff (v : α) (u : Params α) : Params α := { u with ventilation := { u.ventilation with wind_coeff := v } }

/-- UserModel.hpp:2036-2038 -/
def setDCp (v : α) (u : Params α) : Params α := { u with ventilation := { u.ventilation with dCp := v } }

/-- UserModel.hpp:2176-2178 -/
def setVent_rate_flag (v : Int) (u : Params α) : Params α := { u with ventilation := { u.ventilation with vent_rate_flag := v } }

/-- UserModel.hpp:2076-2078 -/
def setH_ve (v : α) (u : Params α) : Params α := { u with ventilation := { u.ventilation with H_ve := v } }

/-- UserModel.hpp:1219-1224 -/
def setWallArea (v : List α) (u : Params α) : Except LoadError (Params α) :=
  if h : v.length = 9 then .ok { u with bldg := { u.bldg with wallArea := fun i => v[i.1] } } else .error .wrongCount

/-- UserModel.hpp:1483-1488 -/
def setWallU (v : List α) (u : Params α) : Except LoadError (Params α) :=
  if h : v.length = 9 then .ok { u with bldg := { u.bldg with wallUniform := fun i => v[i.1] } } else .error .wrongCount

/-- UserModel.hpp:1395-1400 -/
def setWallThermalEmissivity (v : List α) (u : Params α) : Except LoadError (Params α) :=
  if h : v.length = 9 then .ok { u with bldg := { u.bldg with wallThermalEmissivity := fun i => v[i.1] } } else .error .wrongCount

/-- UserModel.hpp:1307-1312 -/
def setWallSolarAbsorption (v : List α) (u : Params α) : Except LoadError (Params α) :=
  if h : v.length = 9 then .ok { u with bldg := { u.bldg with wallSolarAbsorption := fun i => v[i.1] } } else .error .wrongCount

/-- UserModel.hpp:1591-1596 -/
def setWindowArea (v : List α) (u : Params α) : Except LoadError (Params α) :=
  if h : v.length = 9 then .ok { u with bldg := { u.bldg with windowArea := fun i => v[i.1] } } else .error .wrongCount

/-- UserModel.hpp:1943-1948 -/
def setWindowU (v : List α) (u : Params α) : Except LoadError (Params α) :=
  if h : v.length = 9 then .ok { u with bldg := { u.bldg with windowUniform := fun i => v[i.1] } } else .error .wrongCount

/-- UserModel.hpp:1855-1860 -/
def setWindowSHGC (v : List α) (u : Params α) : Except LoadError (Params α) :=
  if h : v.length = 9 then .ok { u with bldg := { u.bldg with windowNormalIncidenceSolarEnergyTransmittance := fun i => v[i.1] } } else .error .wrongCount

/-- UserModel.hpp:1679-1684 -/
def setWindowSCF (v : List α) (u : Params α) : Except LoadError (Params α) :=
  if h : v.length = 9 then .ok { u with bldg := { u.bldg with windowShadingCorrectionFactor := fun i => v[i.1] } } else .error .wrongCount

/-- UserModel.hpp:1767-1772 -/
def setWindowSDF (v : List α) (u : Params α) : Except LoadError (Params α) :=
  if h : v.length = 9 then .ok { u with bldg := { u.bldg with windowShadingDevice := fun i => v[i.1] } } else .error .wrongCount

/-- UserModel.cpp:301-320.  `none`: a read past the end (fewer than eight entries). -/
def northToSouth (v : List α) : Option (List α) :=
  match v with
  | a :: b :: c :: d :: e :: f :: g :: h :: rest => some (e :: d :: c :: b :: a :: h :: g :: f :: rest)
  | _ => none

/-- How a call ends: normally, with an exception (the object keeps what was set before), or with undefined behaviour. -/
inductive Outcome (σ : Type) where
  | ok (s : σ)
  | throw (e : LoadError) (s : σ)
  | undefined

/-- One call of `initializeParameter`: which overload, with which setter. -/
inductive Setter (α : Type) where
  | double (set : α → Params α → Params α)
  | int (set : Int → Params α → Params α)
  | bool (set : Bool → Params α → Params α)
  | vector (set : List α → Params α → Except LoadError (Params α))
  | string (set : Str → Params α → Except LoadError (Params α))

/-- the arguments of one call of `initializeParameter` -/
structure Call (α : Type) where
  setter : Setter α
  name : Str
  required : Bool

/-- the `else if (required) throw` branch (UserModel.cpp:260-262 and alike) -/
def absent (c : Call α) (u : Params α) : Outcome (Params α) := if c.required then .throw (.missing c.name) u else .ok u

/-- an exception of the setter itself -/
def ofSetter (u : Params α) : Except LoadError (Params α) → Outcome (Params α)
  | .ok u' => .ok u'
  | .error e => .throw e u

/-- UserModel.cpp:257-299: the five overloads -/
def initializeParameter (stod : Str → Except Properties.ConvError α) (props : Properties.Store) (c : Call α) (u : Params α) :
    Outcome (Params α) :=
  match c.setter with
  | .double set =>
    match Properties.getPropertyAsDouble stod c.name props with
    | .error e => .throw (.conversion e) u
    | .ok (some v) => .ok (set v u)
    | .ok none => absent c u
  | .int set =>
    match Properties.getPropertyAsInt c.name props with
    | .error e => .throw (.conversion e) u
    | .ok (some v) => .ok (set v u)
    | .ok none => absent c u
  | .bool set =>
    match Properties.getPropertyAsBool c.name props with
    | some v => .ok (set v u)
    | none => absent c u
  | .vector set =>
    match Properties.getPropertyAsDoubleVector stod c.name props with
    | .error .outOfRange => .throw (.conversion .outOfRange) u
    | .error .badEscape => .throw .badEscape u
    | .ok (some v) =>
      match northToSouth v with
      | none => .undefined
      | some v => ofSetter u (set v u)
    | .ok none => absent c u
  | .string set =>
    match Properties.getProperty c.name props with
    | some v => ofSetter u (set v u)
    | none => absent c u

/-- calls one after the other; the first exception ends the sequence -/
def runCalls (stod : Str → Except Properties.ConvError α) (props : Properties.Store) : List (Call α) → Params α → Outcome (Params α)
  | [], u => .ok u
  | c :: cs, u =>
    match initializeParameter stod props c u with
    | .ok u' => runCalls stod props cs u'
    | o => o

/-- UserModel.cpp:112-174, 190-254 -/
def initializeParametersCalls : List (Call α) := [
  ⟨.double setTerrainClass, "terrainclass".toList, true⟩,
  ⟨.double setBuildingHeight, "buildingheight".toList, true⟩,
  ⟨.double setFloorArea, "floorarea".toList, true⟩,
  ⟨.double setBuildingOccupancyFrom, "occupancydayfirst".toList, true⟩,
  ⟨.double setBuildingOccupancyTo, "occupancydaylast".toList, true⟩,
  ⟨.double setEquivFullLoadOccupancyFrom, "occupancyhourfirst".toList, true⟩,
  ⟨.double setEquivFullLoadOccupancyTo, "occupancyhourlast".toList, true⟩,
  ⟨.double setPeopleDensityOccupied, "peopledensityoccupied".toList, true⟩,
  ⟨.double setPeopleDensityUnoccupied, "peopledensityunoccupied".toList, true⟩,
  ⟨.double setLightingPowerIntensityOccupied, "lightingpowerdensityoccupied".toList, true⟩,
  ⟨.double setLightingPowerIntensityUnoccupied, "lightingpowerdensityunoccupied".toList, true⟩,
  ⟨.double setElecPowerAppliancesOccupied, "electricappliancepowerdensityoccupied".toList, true⟩,
  ⟨.double setElecPowerAppliancesUnoccupied, "electricappliancepowerdensityunoccupied".toList, true⟩,
  ⟨.double setGasPowerAppliancesOccupied, "gasappliancepowerdensityoccupied".toList, true⟩,
  ⟨.double setGasPowerAppliancesUnoccupied, "gasappliancepowerdensityunoccupied".toList, true⟩,
  ⟨.double setExteriorLightingPower, "exteriorlightingpower".toList, true⟩,
  ⟨.double setHvacWasteFactor, "hvacwastefactor".toList, true⟩,
  ⟨.double setHvacHeatingLossFactor, "hvacheatinglossfactor".toList, true⟩,
  ⟨.double setHvacCoolingLossFactor, "hvaccoolinglossfactor".toList, true⟩,
  ⟨.double setDaylightSensorSystem, "daylightsensordimmingfraction".toList, true⟩,
  ⟨.double setLightingOccupancySensorSystem, "lightingoccupancysensordimmingfraction".toList, true⟩,
  ⟨.double setConstantIlluminationControl, "constantilluminationcontrolmultiplier".toList, true⟩,
  ⟨.double setCoolingSystemCOP, "coolingsystemcop".toList, true⟩,
  ⟨.double setCoolingSystemIPLVToCOPRatio, "coolingsystemiplvtocopratio".toList, true⟩,
  ⟨.double setHeatingSystemEfficiency, "heatingsystemefficiency".toList, true⟩,
  ⟨.string setHeatingEnergyCarrier, "heatingfueltype".toList, true⟩,
  ⟨.string setVentilationType, "ventilationtype".toList, true⟩,
  ⟨.string setDhwEnergyCarrier, "dhwfueltype".toList, true⟩,
  ⟨.string setBemType, "bemtype".toList, true⟩,
  ⟨.double setFreshAirFlowRate, "ventilationintakerateoccupied".toList, true⟩,
  ⟨.double setSupplyExhaustRate, "ventilationExhaustRateOccupied".toList, true⟩,
  ⟨.double setHeatRecovery, "heatrecovery".toList, true⟩,
  ⟨.double setExhaustAirRecirclation, "exhaustairrecirculation".toList, true⟩,
  ⟨.double setBuildingAirLeakage, "infiltrationrateoccupied".toList, true⟩,
  ⟨.double setDhwDemand, "dhwdemand".toList, true⟩,
  ⟨.double setDhwEfficiency, "dhwsystemefficiency".toList, true⟩,
  ⟨.double setDhwDistributionEfficiency, "dhwdistributionefficiency".toList, true⟩,
  ⟨.double setInteriorHeatCapacity, "interiorheatcapacity".toList, true⟩,
  ⟨.double setExteriorHeatCapacity, "exteriorheatcapacity".toList, true⟩,
  ⟨.double setHeatingPumpControl, "heatingpumpcontrol".toList, true⟩,
  ⟨.double setCoolingPumpControl, "coolingpumpcontrol".toList, true⟩,
  ⟨.double setHeatGainPerPerson, "heatgainperperson".toList, true⟩,
  ⟨.double setSpecificFanPower, "specificfanpower".toList, true⟩,
  ⟨.double setFanFlowControlFactor, "fanflowcontrolfactor".toList, true⟩,
  ⟨.double setCoolingOccupiedSetpoint, "coolingsetpointoccupied".toList, true⟩,
  ⟨.double setCoolingUnoccupiedSetpoint, "coolingsetpointunoccupied".toList, true⟩,
  ⟨.double setHeatingOccupiedSetpoint, "heatingsetpointoccupied".toList, true⟩,
  ⟨.double setHeatingUnoccupiedSetpoint, "heatingsetpointunoccupied".toList, true⟩,
  ⟨.string setWeatherFilePath, "weatherfilepath".toList, true⟩,
  ⟨.double setExternalEquipment, "externalequipment".toList, false⟩,
  ⟨.bool setForcedAirCooling, "forcedaircooling".toList, false⟩,
  ⟨.double setT_cl_ctrl_flag, "t_cl_ctrl_flag".toList, false⟩,
  ⟨.double setDT_supp_cl, "dt_supp_cl".toList, false⟩,
  ⟨.double setDC_YesNo, "dc_yesno".toList, false⟩,
  ⟨.double setEta_DC_network, "eta_dc_network".toList, false⟩,
  ⟨.double setEta_DC_COP, "eta_dc_cop".toList, false⟩,
  ⟨.double setEta_DC_frac_abs, "eta_dc_frac_abs".toList, false⟩,
  ⟨.double setEta_DC_COP_abs, "eta_dc_cop_abs".toList, false⟩,
  ⟨.double setFrac_DC_free, "frac_dc_free".toList, false⟩,
  ⟨.double setE_pumps_cl, "e_pumps_cl".toList, false⟩,
  ⟨.bool setForcedAirHeating, "forcedairheating".toList, false⟩,
  ⟨.double setDT_supp_ht, "dt_supp_ht".toList, false⟩,
  ⟨.double setE_pumps_ht, "e_pumps_ht".toList, false⟩,
  ⟨.double setT_ht_ctrl_flag, "t_ht_ctrl_flag".toList, false⟩,
  ⟨.double setA_H0, "a_h0".toList, false⟩,
  ⟨.double setTau_H0, "tau_h0".toList, false⟩,
  ⟨.double setDH_YesNo, "dh_yesno".toList, false⟩,
  ⟨.double setEta_DH_network, "eta_dh_network".toList, false⟩,
  ⟨.double setEta_DH_sys, "eta_dh_sys".toList, false⟩,
  ⟨.double setFrac_DH_free, "frac_dh_free".toList, false⟩,
  ⟨.double setDhw_tset, "dhw_tset".toList, false⟩,
  ⟨.double setDhw_tsupply, "dhw_tsupply".toList, false⟩,
  ⟨.double setN_day_start, "n_day_start".toList, false⟩,
  ⟨.double setN_day_end, "n_day_end".toList, false⟩,
  ⟨.double setN_weeks, "n_weeks".toList, false⟩,
  ⟨.double setElecInternalGains, "elecinternalgains".toList, false⟩,
  ⟨.double setPermLightPowerDensity, "permlightpowerdensity".toList, false⟩,
  ⟨.double setPresenceSensorAd, "presencesensorad".toList, false⟩,
  ⟨.double setAutomaticAd, "automaticad".toList, false⟩,
  ⟨.double setPresenceAutoAd, "presenceautoad".toList, false⟩,
  ⟨.double setManualSwitchAd, "manualswitchad".toList, false⟩,
  ⟨.double setPresenceSensorLux, "presencesensorlux".toList, false⟩,
  ⟨.double setAutomaticLux, "automaticlux".toList, false⟩,
  ⟨.double setPresenceAutoLux, "presenceautolux".toList, false⟩,
  ⟨.double setManualSwitchLux, "manualswitchlux".toList, false⟩,
  ⟨.double setNaturallyLightedArea, "naturallylightedarea".toList, false⟩,
  ⟨.double setRhoCpAir, "rhocpair".toList, false⟩,
  ⟨.double setRhoCpWater, "rhocpwater".toList, false⟩,
  ⟨.double setPhiIntFractionToAirNode, "phiintfractiontoairnode".toList, false⟩,
  ⟨.double setPhiSolFractionToAirNode, "phisolfractiontoairnode".toList, false⟩,
  ⟨.double setHci, "hci".toList, false⟩,
  ⟨.double setHri, "hri".toList, false⟩,
  ⟨.double setR_se, "r_se".toList, false⟩,
  ⟨.double setIrradianceForMaxShadingUse, "irradianceformaxshadinguse".toList, false⟩,
  ⟨.double setShadingFactorAtMaxUse, "shadingfactoratmaxuse".toList, false⟩,
  ⟨.double setTotalAreaPerFloorArea, "totalareaperfloorarea".toList, false⟩,
  ⟨.double setWin_ff, "win_ff".toList, false⟩,
  ⟨.double setWin_F_W, "win_f_w".toList, false⟩,
  ⟨.double setR_sc_ext, "r_sc_ext".toList, false⟩,
  ⟨.double setVentPreheatDegC, "ventpreheatdegc".toList, false⟩,
  ⟨.double setN50, "n50".toList, false⟩,
  ⟨.double setHzone, "hzone".toList, false⟩,
  ⟨.double setP_exp, "p_exp".toList, false⟩,
  ⟨.double setZone_frac, "zone_frac".toList, false⟩,
  ⟨.double setStack_exp, "stack_exp".toList, false⟩,
  ⟨.double setStack_coeff, "stack_coeff".toList, false⟩,
  ⟨.double setWind_exp, "wind_exp".toList, false⟩,
  ⟨.double setWind_coeff, "wind_coeff".toList, false⟩,
  ⟨.double setDCp, "dcp".toList, false⟩,
  ⟨.int setVent_rate_flag, "vent_rate_flag".toList, false⟩,
  ⟨.double setH_ve, "h_ve".toList, false⟩]

/-- UserModel.cpp:99-107 -/
def initializeStructureCalls : List (Call α) := [
  ⟨.vector setWallArea, "wallArea".toList, true⟩,
  ⟨.vector setWallU, "wallU".toList, true⟩,
  ⟨.vector setWallThermalEmissivity, "wallEmissivity".toList, true⟩,
  ⟨.vector setWallSolarAbsorption, "wallAbsorption".toList, true⟩,
  ⟨.vector setWindowArea, "windowArea".toList, true⟩,
  ⟨.vector setWindowU, "windowU".toList, true⟩,
  ⟨.vector setWindowSHGC, "windowSHGC".toList, true⟩,
  ⟨.vector setWindowSCF, "windowSCF".toList, true⟩,
  ⟨.vector setWindowSDF, "windowSDF".toList, true⟩]

/-- UserModel.cpp:325-326, 332-333: `initializeParameters` then `initializeStructure` -/
def loadParameters (stod : Str → Except Properties.ConvError α) (props : Properties.Store) (u : Params α) : Outcome (Params α) :=
  runCalls stod props (initializeParametersCalls ++ initializeStructureCalls) u

/-- The members with in-class initialisers or set by the constructor (Structure.cpp:6-8; Building.hpp:187-187; Cooling.hpp:219-228; Heating.hpp:304-318; Lighting.hpp:262-277; PhysicalQuantities.hpp:57-58; SimulationSettings.hpp:87-90; Structure.hpp:336-342; Ventilation.hpp:315-326).  The other members are uninitialised: `junk`. -/
def newObject (junk : Params α) : Params α := { junk with
  building := { junk.building with
    externalEquipment := 0.0 }
  cooling := { junk.cooling with
    forcedAirCooling := true
    T_cl_ctrl_flag := 1.0
    dT_supp_cl := 7.0
    DC_YesNo := 0.0
    eta_DC_network := 0.9
    eta_DC_COP := 5.5
    eta_DC_frac_abs := 0.0
    eta_DC_COP_abs := 1.0
    frac_DC_free := 0.0
    E_pumps := 0.25 }
  heating := { junk.heating with
    forcedAirHeating := true
    dT_supp_ht := 7.0
    E_pumps := 0.25
    T_ht_ctrl_flag := 1.0
    a_H0 := 1.0
    tau_H0 := 15.0
    DH_YesNo := 0.0
    eta_DH_network := 0.9
    eta_DH_sys := 0.87
    frac_DH_free := 0.000
    dhw_tset := 60.0
    dhw_tsupply := 20.0 }
  lights := { junk.lights with
    n_day_start := 7.0
    n_day_end := 18.0
    n_weeks := 50.0
    elecInternalGains := 1.0
    permLightPowerDensity := 0.0
    presenceSensorAd := 0.6
    automaticAd := 0.8
    presenceAutoAd := 0.6
    manualSwitchAd := 1.0
    presenceSensorLux := 500.0
    automaticLux := 300.0
    presenceAutoLux := 300.0
    manualSwitchLux := 500.0
    naturallyLightedArea := 0.0 }
  phys := { junk.phys with
    rhoCpAir := 1.22521 * 0.001012
    rhoCpWater := 4.1813 }
  simSettings := { junk.simSettings with
    phiIntFractionToAirNode := 0.5
    phiSolFractionToAirNode := 0.0
    hci := 2.5
    hri := 5.5 }
  bldg := { junk.bldg with
    wallArea := fun _ => 0.0
    windowArea := fun _ => 0.0
    wallUniform := fun _ => 0.0
    windowUniform := fun _ => 0.0
    wallThermalEmissivity := fun _ => 0.0
    wallSolarAbsorption := fun _ => 0.0
    windowShadingDevice := fun _ => 0.0
    windowNormalIncidenceSolarEnergyTransmittance := fun _ => 0.0
    windowShadingCorrectionFactor := fun _ => 0.0
    R_se := 0.04
    irradianceForMaxShadingUse := 500.0
    shadingFactorAtMaxUse := 0.5
    totalAreaPerFloorArea := 4.5
    win_ff := 0.25
    win_F_W := 0.9
    R_sc_ext := 0.04 }
  ventilation := { junk.ventilation with
    ventPreheatDegC := -50.0
    n50 := 2.0
    hzone := 39.0
    p_exp := 0.65
    zone_frac := 0.7
    stack_exp := 0.667
    stack_coeff := 0.0146
    wind_exp := 0.667
    wind_coeff := 0.0769
    dCp := 0.75
    vent_rate_flag := 1
    H_ve := 0.0 }
  weatherFilePath := [] }

/-- the orientations that name the accessors of UserModel.hpp -/
inductive Facade where
  | N | NE | E | SE | S | SW | W | NW | roof
  deriving DecidableEq

/-- The index used by the accessors named after an orientation, e.g. `wallAreaN`, `setWallAreaN`; the same for all
nine vectors (UserModel.hpp:1109-1212 roof and skylight; 1227-1303, 1315-1391, 1403-1479, 1491-1567, 1599-1675,
1687-1763, 1775-1851, 1863-1939, 1951-2027 facades). -/
def slot : Facade → Fin 9
  | .S => 0 | .SE => 1 | .E => 2 | .NE => 3 | .N => 4 | .NW => 5 | .W => 6 | .SW => 7 | .roof => 8

end ISO.User
