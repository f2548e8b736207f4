import Verif.Model.HourlyRun

/-! # Specification: which results a change can touch -/

namespace ISO.Spec
open ISO

/-- `r` and `r'` are both undefined, or both lists of results of the same length that agree in every end use not listed in `uses` -/
def SameExcept {α : Type} (uses : List (Fin 13)) : Option (List (Hourly.EndUses α)) → Option (List (Hourly.EndUses α)) → Prop
  | none, none => True
  | some r, some r' => r.length = r'.length ∧
      ∀ (i : Nat) (h : i < r.length) (h' : i < r'.length) (k : Fin 13), k ∉ uses → r[i] k = r'[i] k
  | _, _ => False

/-- the end uses by their position in a result -/
abbrev heatingElectricity : Fin 13 := 0
abbrev coolingElectricity : Fin 13 := 1
abbrev interiorLights : Fin 13 := 2
abbrev exteriorLights : Fin 13 := 3
abbrev fans : Fin 13 := 4
abbrev pumps : Fin 13 := 5
abbrev equipment : Fin 13 := 6
abbrev exteriorEquipment : Fin 13 := 7
abbrev hotWaterElectricity : Fin 13 := 8
abbrev heatingGas : Fin 13 := 9
abbrev coolingGas : Fin 13 := 10
abbrev gasEquipment : Fin 13 := 11
abbrev hotWaterGas : Fin 13 := 12

/-! ## groups of parameters: `x` with the group taken from `y` -/

variable {α : Type}

/-- demand, efficiencies, fuel and temperatures of hot water -/
def takeHotWater (x y : Sim α) : Sim α :=
  { x with
    heating := { x.heating with
      hotWaterDemand := y.heating.hotWaterDemand
      hotWaterDistributionEfficiency := y.heating.hotWaterDistributionEfficiency
      hotWaterSystemEfficiency := y.heating.hotWaterSystemEfficiency
      hotWaterEnergyType := y.heating.hotWaterEnergyType
      dhw_tset := y.heating.dhw_tset
      dhw_tsupply := y.heating.dhw_tsupply }
    phys := { x.phys with rhoCpWater := y.phys.rhoCpWater } }

/-- the power of the lights outside -/
def takeExteriorLights (x y : Sim α) : Sim α :=
  { x with lights := { x.lights with exteriorEnergy := y.lights.exteriorEnergy } }

/-- the boiler and the district heating -/
def takeHeatingSystem (x y : Sim α) : Sim α :=
  { x with heating := { x.heating with
      efficiency := y.heating.efficiency
      energyType := y.heating.energyType
      DH_YesNo := y.heating.DH_YesNo
      eta_DH_network := y.heating.eta_DH_network
      eta_DH_sys := y.heating.eta_DH_sys
      frac_DH_free := y.heating.frac_DH_free } }

/-- the chiller and the district cooling -/
def takeCoolingSystem (x y : Sim α) : Sim α :=
  { x with cooling := { x.cooling with
      cop := y.cooling.cop
      partialLoadValue := y.cooling.partialLoadValue
      DC_YesNo := y.cooling.DC_YesNo
      eta_DC_network := y.cooling.eta_DC_network
      eta_DC_COP := y.cooling.eta_DC_COP
      eta_DC_frac_abs := y.cooling.eta_DC_frac_abs
      eta_DC_COP_abs := y.cooling.eta_DC_COP_abs
      frac_DC_free := y.cooling.frac_DC_free } }

/-- the losses of the distribution -/
def takeDistribution (x y : Sim α) : Sim α :=
  { x with
    heating := { x.heating with
      hvacLossFactor := y.heating.hvacLossFactor
      hotcoldWasteFactor := y.heating.hotcoldWasteFactor }
    cooling := { x.cooling with hvacLossFactor := y.cooling.hvacLossFactor } }

/-- power of the fans and temperatures of the air they supply (the control factor of the fans is not part of it: the hourly model
uses it for the air flow) -/
def takeFans (x y : Sim α) : Sim α :=
  { x with
    ventilation := { x.ventilation with fanPower := y.ventilation.fanPower }
    heating := { x.heating with dT_supp_ht := y.heating.dT_supp_ht, forcedAirHeating := y.heating.forcedAirHeating }
    cooling := { x.cooling with dT_supp_cl := y.cooling.dT_supp_cl, forcedAirCooling := y.cooling.forcedAirCooling } }

/-- power and control of the pumps -/
def takePumps (x y : Sim α) : Sim α :=
  { x with
    heating := { x.heating with E_pumps := y.heating.E_pumps, pumpControlReduction := y.heating.pumpControlReduction }
    cooling := { x.cooling with E_pumps := y.cooling.E_pumps, pumpControlReduction := y.cooling.pumpControlReduction } }

/-- envelope (areas, U-values, glazing, heat capacities, air tightness, height), set-points, people, site and air supply; the floor
area, the shading devices and the occupied hours are not part of it -/
def takeComfort (x y : Sim α) : Sim α :=
  { x with
    bldg := { y.bldg with floorArea := x.bldg.floorArea, windowShadingDevice := x.bldg.windowShadingDevice }
    heating := { x.heating with
      temperatureSetPointOccupied := y.heating.temperatureSetPointOccupied
      temperatureSetPointUnoccupied := y.heating.temperatureSetPointUnoccupied
      T_ht_ctrl_flag := y.heating.T_ht_ctrl_flag
      a_H0 := y.heating.a_H0
      tau_H0 := y.heating.tau_H0 }
    cooling := { x.cooling with
      temperatureSetPointOccupied := y.cooling.temperatureSetPointOccupied
      temperatureSetPointUnoccupied := y.cooling.temperatureSetPointUnoccupied
      T_cl_ctrl_flag := y.cooling.T_cl_ctrl_flag }
    pop := { x.pop with
      densityOccupied := y.pop.densityOccupied
      densityUnoccupied := y.pop.densityUnoccupied
      heatGainPerPerson := y.pop.heatGainPerPerson }
    terrain := y.terrain
    ventilation := y.ventilation
    phys := { x.phys with rhoCpAir := y.phys.rhoCpAir } }

/-- set-points, ventilation, thermal properties and the areas of the opaque parts, and the constants of the hourly model; the windows,
the shading and the floor are not part of it -/
def takeClimate (x y : Sim α) : Sim α :=
  { x with
    bldg := { x.bldg with
      buildingHeight := y.bldg.buildingHeight
      wallHeatCapacity := y.bldg.wallHeatCapacity
      interiorHeatCapacity := y.bldg.interiorHeatCapacity
      totalAreaPerFloorArea := y.bldg.totalAreaPerFloorArea
      R_se := y.bldg.R_se
      wallArea := y.bldg.wallArea
      wallUniform := y.bldg.wallUniform
      windowUniform := y.bldg.windowUniform
      wallSolarAbsorption := y.bldg.wallSolarAbsorption
      windowShadingCorrectionFactor := y.bldg.windowShadingCorrectionFactor
      windowNormalIncidenceSolarEnergyTransmittance := y.bldg.windowNormalIncidenceSolarEnergyTransmittance }
    heating := { x.heating with
      temperatureSetPointOccupied := y.heating.temperatureSetPointOccupied
      temperatureSetPointUnoccupied := y.heating.temperatureSetPointUnoccupied }
    cooling := { x.cooling with
      temperatureSetPointOccupied := y.cooling.temperatureSetPointOccupied
      temperatureSetPointUnoccupied := y.cooling.temperatureSetPointUnoccupied }
    lights := { x.lights with elecInternalGains := y.lights.elecInternalGains }
    ventilation := y.ventilation
    phys := { x.phys with rhoCpAir := y.phys.rhoCpAir }
    simSettings := y.simSettings }

/-- the power of the equipment outside -/
def takeExteriorEquipment (x y : Sim α) : Sim α :=
  { x with building := { x.building with externalEquipment := y.building.externalEquipment } }

/-- what only the hourly model uses -/
def takeHourlyOnly (x y : Sim α) : Sim α :=
  { x with
    lights := { x.lights with
      elecInternalGains := y.lights.elecInternalGains
      permLightPowerDensity := y.lights.permLightPowerDensity
      presenceSensorAd := y.lights.presenceSensorAd
      automaticAd := y.lights.automaticAd
      presenceAutoAd := y.lights.presenceAutoAd
      manualSwitchAd := y.lights.manualSwitchAd
      presenceSensorLux := y.lights.presenceSensorLux
      automaticLux := y.lights.automaticLux
      presenceAutoLux := y.lights.presenceAutoLux
      manualSwitchLux := y.lights.manualSwitchLux
      naturallyLightedArea := y.lights.naturallyLightedArea }
    building := { x.building with externalEquipment := y.building.externalEquipment }
    bldg := { x.bldg with
      R_se := y.bldg.R_se
      irradianceForMaxShadingUse := y.bldg.irradianceForMaxShadingUse
      shadingFactorAtMaxUse := y.bldg.shadingFactorAtMaxUse
      totalAreaPerFloorArea := y.bldg.totalAreaPerFloorArea }
    heating := { x.heating with forcedAirHeating := y.heating.forcedAirHeating }
    cooling := { x.cooling with forcedAirCooling := y.cooling.forcedAirCooling }
    ventilation := { x.ventilation with
      ventPreheatDegC := y.ventilation.ventPreheatDegC
      n50 := y.ventilation.n50
      hzone := y.ventilation.hzone
      p_exp := y.ventilation.p_exp }
    simSettings := y.simSettings }

/-- what only the monthly model uses: among others the people, the gas appliances, the energy management, the infiltration rate, the
control of temperatures, the recirculated air, the hot water, the district networks and the monthly weather -/
def takeMonthlyOnly (x y : Sim α) : Sim α :=
  { x with
    pop := { x.pop with
      densityOccupied := y.pop.densityOccupied
      densityUnoccupied := y.pop.densityUnoccupied
      heatGainPerPerson := y.pop.heatGainPerPerson }
    terrain := y.terrain
    weather := y.weather
    lights := { x.lights with
      n_day_start := y.lights.n_day_start
      n_day_end := y.lights.n_day_end
      n_weeks := y.lights.n_weeks
      permLightPowerDensity := y.lights.permLightPowerDensity }
    building := { x.building with
      constantIllumination := y.building.constantIllumination
      gasApplianceHeatGainOccupied := y.building.gasApplianceHeatGainOccupied
      gasApplianceHeatGainUnoccupied := y.building.gasApplianceHeatGainUnoccupied
      buildingEnergyManagement := y.building.buildingEnergyManagement }
    bldg := { x.bldg with
      wallThermalEmissivity := y.bldg.wallThermalEmissivity
      infiltrationRate := y.bldg.infiltrationRate
      win_ff := y.bldg.win_ff
      win_F_W := y.bldg.win_F_W
      R_sc_ext := y.bldg.R_sc_ext }
    heating := { x.heating with
      hotWaterDemand := y.heating.hotWaterDemand
      hotWaterDistributionEfficiency := y.heating.hotWaterDistributionEfficiency
      hotWaterSystemEfficiency := y.heating.hotWaterSystemEfficiency
      hotWaterEnergyType := y.heating.hotWaterEnergyType
      T_ht_ctrl_flag := y.heating.T_ht_ctrl_flag
      a_H0 := y.heating.a_H0
      tau_H0 := y.heating.tau_H0
      DH_YesNo := y.heating.DH_YesNo
      eta_DH_network := y.heating.eta_DH_network
      eta_DH_sys := y.heating.eta_DH_sys
      frac_DH_free := y.heating.frac_DH_free
      dhw_tset := y.heating.dhw_tset
      dhw_tsupply := y.heating.dhw_tsupply }
    cooling := { x.cooling with
      partialLoadValue := y.cooling.partialLoadValue
      T_cl_ctrl_flag := y.cooling.T_cl_ctrl_flag
      DC_YesNo := y.cooling.DC_YesNo
      eta_DC_network := y.cooling.eta_DC_network
      eta_DC_COP := y.cooling.eta_DC_COP
      eta_DC_frac_abs := y.cooling.eta_DC_frac_abs
      eta_DC_COP_abs := y.cooling.eta_DC_COP_abs
      frac_DC_free := y.cooling.frac_DC_free }
    ventilation := { x.ventilation with
      supplyDifference := y.ventilation.supplyDifference
      exhaustAirRecirculated := y.ventilation.exhaustAirRecirculated
      ventType := y.ventilation.ventType
      p_exp := y.ventilation.p_exp
      zone_frac := y.ventilation.zone_frac
      stack_exp := y.ventilation.stack_exp
      stack_coeff := y.ventilation.stack_coeff
      wind_exp := y.ventilation.wind_exp
      wind_coeff := y.ventilation.wind_coeff
      vent_rate_flag := y.ventilation.vent_rate_flag
      H_ve := y.ventilation.H_ve }
    phys := { x.phys with rhoCpWater := y.phys.rhoCpWater } }

/-! ## size -/

/-- the building `k` times as large: all areas, the outside air, the hot water, the exterior lights
and the exterior equipment times `k`; what is
given per square metre, the heights and everything else as before -/
noncomputable def enlarged (k : ℝ) (x : Sim ℝ) : Sim ℝ :=
  { x with
    bldg := { x.bldg with
      floorArea := k * x.bldg.floorArea
      wallArea := fun i => k * x.bldg.wallArea i
      windowArea := fun i => k * x.bldg.windowArea i }
    lights := { x.lights with
      exteriorEnergy := k * x.lights.exteriorEnergy
      naturallyLightedArea := k * x.lights.naturallyLightedArea }
    ventilation := { x.ventilation with
      supplyRate := k * x.ventilation.supplyRate
      supplyDifference := k * x.ventilation.supplyDifference }
    heating := { x.heating with hotWaterDemand := k * x.heating.hotWaterDemand }
    building := { x.building with externalEquipment := k * x.building.externalEquipment } }

end ISO.Spec
