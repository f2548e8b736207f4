import Verif.Model.Data
import Verif.Model.Epw

/-!
# A concrete building

The small office of test_data/SmallOffice_v2.ism (numbers shortened to a few digits, facade vectors already in
internal order S, SE, E, NE, N, NW, W, SW, Roof), with a made-up weather.  Used in the `example`s that show that
the hypotheses of the property theorems can be met.
-/

namespace ISO.Props
open ISO

/-- values for the facades S, E, N, W and the roof, 0 for the diagonal orientations -/
def nineOf (s e n w roof : ℝ) : Fin 9 → ℝ
  | 0 => s | 1 => 0 | 2 => e | 3 => 0 | 4 => n | 5 => 0 | 6 => w | 7 => 0 | 8 => roof

/-- test_data/SmallOffice_v2.ism -/
noncomputable def smallOffice : Sim ℝ where
  pop := { hoursEnd := 17, hoursStart := 8, daysEnd := 5, daysStart := 1, densityOccupied := 25.47,
           densityUnoccupied := 150.5, heatGainPerPerson := 120 }
  terrain := 0.8
  weather := { msolar := fun _ _ => 100, mhdbt := fun _ h => 5 + h.1 / 4,
               mhEgh := fun _ h => if 6 ≤ h.1 ∧ h.1 ≤ 18 then 200 else 0,
               mEgh := fun _ => 110, mdbt := fun m => if 4 ≤ m.1 ∧ m.1 ≤ 8 then 20 else 2, mwind := fun _ => 4 }
  lights := { powerDensityOccupied := 6.339, powerDensityUnoccupied := 2.586, dimmingFraction := 1,
              exteriorEnergy := 303.66, n_day_start := 7, n_day_end := 18, n_weeks := 50,
              elecInternalGains := 1, permLightPowerDensity := 0, presenceSensorAd := 0.6, automaticAd := 0.8,
              presenceAutoAd := 0.6, manualSwitchAd := 1, presenceSensorLux := 500, automaticLux := 300,
              presenceAutoLux := 300, manualSwitchLux := 500, naturallyLightedArea := 0 }
  building := { lightingOccupancySensor := 1, constantIllumination := 1,
                electricApplianceHeatGainOccupied := 4.831, electricApplianceHeatGainUnoccupied := 2.248,
                gasApplianceHeatGainOccupied := 0, gasApplianceHeatGainUnoccupied := 0,
                buildingEnergyManagement := 1, externalEquipment := 0 }
  bldg := { floorArea := 511.16, wallArea := nineOf 84.45 56.3 84.45 56.3 598.76,
            windowArea := nineOf 20.65 11.16 16.74 11.16 0,
            wallUniform := nineOf 0.363 0.363 0.363 0.363 2.494,
            windowUniform := nineOf 2.653 2.653 2.653 2.653 0,
            wallThermalEmissivity := nineOf 0.9 0.9 0.9 0.9 0.9,
            wallSolarAbsorption := nineOf 0.7 0.7 0.7 0.7 0.7,
            windowShadingDevice := nineOf 1 1 1 1 1,
            windowNormalIncidenceSolarEnergyTransmittance := nineOf 0.426 0.426 0.426 0.426 0,
            windowShadingCorrectionFactor := nineOf 1 1 1 1 1,
            interiorHeatCapacity := 98010, wallHeatCapacity := 29707, buildingHeight := 6.33,
            infiltrationRate := 7.089, R_se := 0.04, irradianceForMaxShadingUse := 500,
            shadingFactorAtMaxUse := 0.5, totalAreaPerFloorArea := 4.5, win_ff := 0.25, win_F_W := 0.9,
            R_sc_ext := 0.04 }
  heating := { temperatureSetPointOccupied := 24, temperatureSetPointUnoccupied := 24, hvacLossFactor := 0.25,
               efficiency := 2.135, energyType := 2, pumpControlReduction := 1, hotWaterDemand := 0,
               hotWaterDistributionEfficiency := 0.6, hotWaterSystemEfficiency := 0.8, hotWaterEnergyType := 2,
               hotcoldWasteFactor := 0, forcedAirHeating := true, dT_supp_ht := 7, E_pumps := 0.25,
               T_ht_ctrl_flag := 1, a_H0 := 1, tau_H0 := 15, DH_YesNo := 0, eta_DH_network := 0.9,
               eta_DH_sys := 0.87, frac_DH_free := 0, dhw_tset := 60, dhw_tsupply := 20 }
  cooling := { temperatureSetPointOccupied := 28, temperatureSetPointUnoccupied := 28, cop := 3.21,
               partialLoadValue := 1.048, hvacLossFactor := 0, pumpControlReduction := 1,
               forcedAirCooling := true, T_cl_ctrl_flag := 1, dT_supp_cl := 7, DC_YesNo := 0,
               eta_DC_network := 0.9, eta_DC_COP := 5.5, eta_DC_frac_abs := 0, eta_DC_COP_abs := 1,
               frac_DC_free := 0, E_pumps := 0.25 }
  ventilation := { supplyRate := 158.19, supplyDifference := 158.19, heatRecoveryEfficiency := 0,
                   exhaustAirRecirculated := 0, ventType := 1, fanPower := 0.893, fanControlFactor := 1,
                   ventPreheatDegC := -50, n50 := 2, hzone := 39, p_exp := 0.65, zone_frac := 0.7,
                   stack_exp := 0.667, stack_coeff := 0.0146, wind_exp := 0.667, wind_coeff := 0.0769,
                   dCp := 0.75, vent_rate_flag := 1, H_ve := 0 }
  phys := { rhoCpAir := 0.00124, rhoCpWater := 4.1813 }
  simSettings := { phiIntFractionToAirNode := 0.5, phiSolFractionToAirNode := 0, hci := 2.5, hri := 5.5 }

/-- a made-up year of weather in Chicago: 10 degrees by day, 0 by night, 200/300/100 W/m2 by day, 4 m/s wind -/
noncomputable def someWeather : Epw.Weather ℝ where
  latitude := 41.98
  longitude := -87.92
  timezone := -6
  data := fun c i =>
    if c = Epw.DBT then (if 6 ≤ i.1 % 24 ∧ i.1 % 24 ≤ 18 then 10 else 0)
    else if c = Epw.EGH then (if 6 ≤ i.1 % 24 ∧ i.1 % 24 ≤ 18 then 200 else 0)
    else if c = Epw.EB then (if 6 ≤ i.1 % 24 ∧ i.1 % 24 ≤ 18 then 300 else 0)
    else if c = Epw.ED then (if 6 ≤ i.1 % 24 ∧ i.1 % 24 ≤ 18 then 100 else 0)
    else if c = Epw.WSPD then 4
    else 50

end ISO.Props
