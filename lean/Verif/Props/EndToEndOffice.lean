import Verif.Lemmas.EndToEnd
import Verif.Props.WholeExample
import Verif.Props.SmallOffice

/-!
# C74: a building file and the building it describes

The building file that comes with the repository, with a line for the shading devices in front of it (the file itself gives the device 0
to facades without windows, see `C61_shipped`), and a year of weather.
-/

namespace ISO.Props
open ISO ISO.Numerals ISO.Properties ISO.Spec ISO.Spec.Text ISO.Spec.Whole ISO.Spec.EndToEnd ISO.User ISO.CommandLine ISO.Epw ISO.Lemmas Dbl

/-- the lines of the building file -/
def mendedLines : List Str := "windowSDF = 1,1,1,1,1,1,1,1,1".toList :: shippedLines

/-- the building file -/
def mended : Str := (mendedLines.map (· ++ ['\n'])).flatten

/-- its parameters -/
def mendedStore : Properties.Store := shippedStore.map fun p => if p.1 = "windowsdf".toList then (p.1, "1,1,1,1,1,1,1,1,1".toList) else p

theorem mendedStore_eq : Properties.ofFile (some mended) = .ok mendedStore := by
  have h : getlines mended = mendedLines := by
    have := getlines_flatten mendedLines [] (by decide +kernel)
    rw [List.append_nil] at this
    rw [mended, this]
    exact List.append_nil _
  show Properties.readLines 0 (getlines mended) empty = _
  rw [h]
  decide +kernel

theorem mended_accepted : ∀ r ∈ Param.table, Param.judge Numerals.stod mendedStore r = .accepted := accepted_value (by decide +kernel)

/-- the building that the file describes -/
noncomputable def mendedOffice : Sim ℝ where
  pop :=
    { hoursEnd := 17
      hoursStart := 8
      daysEnd := 5
      daysStart := 1
      densityOccupied := 25.4683514030612
      densityUnoccupied := 150.51041254091
      heatGainPerPerson := 120 }
  lights :=
    { powerDensityOccupied := 6.33869983780207
      powerDensityUnoccupied := 2.58639212251571
      dimmingFraction := 1
      exteriorEnergy := 303.660166666667
      n_day_start := 7
      n_day_end := 18
      n_weeks := 50
      elecInternalGains := 1
      permLightPowerDensity := 0
      presenceSensorAd := 0.6
      automaticAd := 0.8
      presenceAutoAd := 0.6
      manualSwitchAd := 1
      presenceSensorLux := 500
      automaticLux := 300
      presenceAutoLux := 300
      manualSwitchLux := 500
      naturallyLightedArea := 0 }
  building :=
    { lightingOccupancySensor := 1
      constantIllumination := 1
      electricApplianceHeatGainOccupied := 4.83103336902162
      electricApplianceHeatGainUnoccupied := 2.24818845302062
      gasApplianceHeatGainOccupied := 0
      gasApplianceHeatGainUnoccupied := 0
      buildingEnergyManagement := 1
      externalEquipment := 0 }
  bldg :=
    { floorArea := 511.16
      wallArea := nineOf 84.45 56.3 84.45 56.3 598.76
      windowArea := nineOf 20.65 11.16 16.74 11.16 0
      wallUniform := nineOf 0.363 0.363 0.363 0.363 2.494
      windowUniform := nineOf 2.653 2.653 2.653 2.653 0
      wallThermalEmissivity := nineOf 0.9 0.9 0.9 0.9 0.9
      wallSolarAbsorption := nineOf 0.7 0.7 0.7 0.7 0.7
      windowShadingDevice := fun _ => 1
      windowNormalIncidenceSolarEnergyTransmittance := nineOf 0.426 0.426 0.426 0.426 0
      windowShadingCorrectionFactor := nineOf 1 1 1 1 1
      interiorHeatCapacity := 98010.0000000022
      wallHeatCapacity := 29707.0229928189
      buildingHeight := 6.33
      infiltrationRate := 7.08899540065705
      R_se := 0.04
      irradianceForMaxShadingUse := 500
      shadingFactorAtMaxUse := 0.5
      totalAreaPerFloorArea := 4.5
      win_ff := 0.25
      win_F_W := 0.9
      R_sc_ext := 0.04 }
  heating :=
    { temperatureSetPointOccupied := 24
      temperatureSetPointUnoccupied := 24
      hvacLossFactor := 0.25
      efficiency := 2.13505737091766
      energyType := 2
      pumpControlReduction := 1
      hotWaterDemand := 0
      hotWaterDistributionEfficiency := 0.6
      hotWaterSystemEfficiency := 0.8
      hotWaterEnergyType := 2
      hotcoldWasteFactor := 0
      forcedAirHeating := true
      dT_supp_ht := 7
      E_pumps := 0.25
      T_ht_ctrl_flag := 1
      a_H0 := 1
      tau_H0 := 15
      DH_YesNo := 0
      eta_DH_network := 0.9
      eta_DH_sys := 0.87
      frac_DH_free := 0
      dhw_tset := 60
      dhw_tsupply := 20 }
  cooling :=
    { temperatureSetPointOccupied := 28
      temperatureSetPointUnoccupied := 28
      cop := 3.21030372594672
      partialLoadValue := 1.04773541524309
      hvacLossFactor := 0
      pumpControlReduction := 1
      forcedAirCooling := true
      T_cl_ctrl_flag := 1
      dT_supp_cl := 7
      DC_YesNo := 0
      eta_DC_network := 0.9
      eta_DC_COP := 5.5
      eta_DC_frac_abs := 0
      eta_DC_COP_abs := 1
      frac_DC_free := 0
      E_pumps := 0.25 }
  ventilation :=
    { supplyRate := 158.1941
      supplyDifference := 158.1941
      heatRecoveryEfficiency := 0
      exhaustAirRecirculated := 0
      ventType := 1
      fanPower := 0.892769460142308
      fanControlFactor := 1
      ventPreheatDegC := -50
      n50 := 2
      hzone := 39
      p_exp := 0.65
      zone_frac := 0.7
      stack_exp := 0.667
      stack_coeff := 0.0146
      wind_exp := 0.667
      wind_coeff := 0.0769
      dCp := 0.75
      vent_rate_flag := 1
      H_ve := 0 }
  phys :=
    { rhoCpAir := (1.22521 * 0.001012)
      rhoCpWater := 4.1813 }
  simSettings :=
    { phiIntFractionToAirNode := 0.5
      phiSolFractionToAirNode := 0
      hci := 2.5
      hri := 5.5 }
  terrain := 0.8
  weather := ⟨fun _ _ => 0, fun _ _ => 0, fun _ _ => 0, fun _ => 0, fun _ => 0, fun _ => 0⟩

theorem gives_value {file : Properties.Store} {name : String} {q : ℚ} (h : Param.number stodValue file name = some (.number q)) {v : ℝ}
    (e : (q : ℝ) = v) : EndToEnd.Gives file name v := by
  unfold EndToEnd.Gives
  rw [number_value h, e]

theorem gives_default {file : Properties.Store} {name : String} (h : Param.given file name = none) {v : ℝ} : GivesOr file name v v := by
  unfold GivesOr Param.number
  rw [h]
  rfl

theorem mended_values1 :
    Param.number stodValue mendedStore "occupancyhourlast" = some (.number (17)) ∧
    Param.number stodValue mendedStore "occupancyhourfirst" = some (.number (8)) ∧
    Param.number stodValue mendedStore "occupancydaylast" = some (.number (5)) ∧
    Param.number stodValue mendedStore "occupancydayfirst" = some (.number (1)) ∧
    Param.number stodValue mendedStore "peopledensityoccupied" = some (.number (63670878507653 / 2500000000000)) ∧
    Param.number stodValue mendedStore "peopledensityunoccupied" = some (.number (15051041254091 / 100000000000)) ∧
    Param.number stodValue mendedStore "heatgainperperson" = some (.number (120)) ∧
    Param.number stodValue mendedStore "lightingpowerdensityoccupied" = some (.number (633869983780207 / 100000000000000)) ∧
    Param.number stodValue mendedStore "lightingpowerdensityunoccupied" = some (.number (258639212251571 / 100000000000000)) ∧
    Param.number stodValue mendedStore "daylightsensordimmingfraction" = some (.number (1)) ∧
    Param.number stodValue mendedStore "exteriorlightingpower" = some (.number (303660166666667 / 1000000000000)) ∧
    Param.given mendedStore "n_day_start" = none ∧
    Param.given mendedStore "n_day_end" = none ∧
    Param.given mendedStore "n_weeks" = none ∧
    Param.given mendedStore "elecinternalgains" = none ∧
    Param.given mendedStore "permlightpowerdensity" = none ∧
    Param.given mendedStore "presencesensorad" = none := by
  decide +kernel

theorem mended_values2 :
    Param.given mendedStore "automaticad" = none ∧
    Param.given mendedStore "presenceautoad" = none ∧
    Param.given mendedStore "manualswitchad" = none ∧
    Param.given mendedStore "presencesensorlux" = none ∧
    Param.given mendedStore "automaticlux" = none ∧
    Param.given mendedStore "presenceautolux" = none ∧
    Param.given mendedStore "manualswitchlux" = none ∧
    Param.given mendedStore "naturallylightedarea" = none ∧
    Param.number stodValue mendedStore "lightingoccupancysensordimmingfraction" = some (.number (1)) ∧
    Param.number stodValue mendedStore "constantilluminationcontrolmultiplier" = some (.number (1)) ∧
    Param.number stodValue mendedStore "electricappliancepowerdensityoccupied" = some (.number (241551668451081 / 50000000000000)) ∧
    Param.number stodValue mendedStore "electricappliancepowerdensityunoccupied" = some (.number (112409422651031 / 50000000000000)) ∧
    Param.number stodValue mendedStore "gasappliancepowerdensityoccupied" = some (.number (0)) ∧
    Param.number stodValue mendedStore "gasappliancepowerdensityunoccupied" = some (.number (0)) ∧
    Param.given mendedStore "bemtype" = some "none".toList ∧
    Param.given mendedStore "externalequipment" = none ∧
    Param.number stodValue mendedStore "floorarea" = some (.number (12779 / 25)) := by
  decide +kernel

theorem mended_values3 :
    Properties.getPropertyAsDoubleVector stodValue "wallArea".toList mendedStore = .ok (some [.number (1689 / 20), .number (0), .number (563 / 10), .number (0), .number (1689 / 20), .number (0), .number (563 / 10), .number (0), .number (14969 / 25)]) ∧
    Properties.getPropertyAsDoubleVector stodValue "windowArea".toList mendedStore = .ok (some [.number (837 / 50), .number (0), .number (279 / 25), .number (0), .number (413 / 20), .number (0), .number (279 / 25), .number (0), .number (0)]) ∧
    Properties.getPropertyAsDoubleVector stodValue "wallU".toList mendedStore = .ok (some [.number (363 / 1000), .number (0), .number (363 / 1000), .number (0), .number (363 / 1000), .number (0), .number (363 / 1000), .number (0), .number (1247 / 500)]) ∧
    Properties.getPropertyAsDoubleVector stodValue "windowU".toList mendedStore = .ok (some [.number (2653 / 1000), .number (0), .number (2653 / 1000), .number (0), .number (2653 / 1000), .number (0), .number (2653 / 1000), .number (0), .number (0)]) ∧
    Properties.getPropertyAsDoubleVector stodValue "wallEmissivity".toList mendedStore = .ok (some [.number (9 / 10), .number (0), .number (9 / 10), .number (0), .number (9 / 10), .number (0), .number (9 / 10), .number (0), .number (9 / 10)]) ∧
    Properties.getPropertyAsDoubleVector stodValue "wallAbsorption".toList mendedStore = .ok (some [.number (7 / 10), .number (0), .number (7 / 10), .number (0), .number (7 / 10), .number (0), .number (7 / 10), .number (0), .number (7 / 10)]) ∧
    Properties.getPropertyAsDoubleVector stodValue "windowSDF".toList mendedStore = .ok (some [.number (1), .number (1), .number (1), .number (1), .number (1), .number (1), .number (1), .number (1), .number (1)]) ∧
    Properties.getPropertyAsDoubleVector stodValue "windowSHGC".toList mendedStore = .ok (some [.number (213 / 500), .number (0), .number (213 / 500), .number (0), .number (213 / 500), .number (0), .number (213 / 500), .number (0), .number (0)]) ∧
    Properties.getPropertyAsDoubleVector stodValue "windowSCF".toList mendedStore = .ok (some [.number (1), .number (0), .number (1), .number (0), .number (1), .number (0), .number (1), .number (0), .number (1)]) ∧
    Param.number stodValue mendedStore "interiorheatcapacity" = some (.number (490050000000011 / 5000000000)) ∧
    Param.number stodValue mendedStore "exteriorheatcapacity" = some (.number (297070229928189 / 10000000000)) ∧
    Param.number stodValue mendedStore "buildingheight" = some (.number (633 / 100)) ∧
    Param.number stodValue mendedStore "infiltrationrateoccupied" = some (.number (141779908013141 / 20000000000000)) ∧
    Param.given mendedStore "r_se" = none ∧
    Param.given mendedStore "irradianceformaxshadinguse" = none ∧
    Param.given mendedStore "shadingfactoratmaxuse" = none ∧
    Param.given mendedStore "totalareaperfloorarea" = none := by
  decide +kernel

theorem mended_values4 :
    Param.given mendedStore "win_ff" = none ∧
    Param.given mendedStore "win_f_w" = none ∧
    Param.given mendedStore "r_sc_ext" = none ∧
    Param.number stodValue mendedStore "heatingsetpointoccupied" = some (.number (24)) ∧
    Param.number stodValue mendedStore "heatingsetpointunoccupied" = some (.number (24)) ∧
    Param.number stodValue mendedStore "hvacheatinglossfactor" = some (.number (1 / 4)) ∧
    Param.number stodValue mendedStore "heatingsystemefficiency" = some (.number (106752868545883 / 50000000000000)) ∧
    Param.given mendedStore "heatingfueltype" = some "gas".toList ∧
    Param.number stodValue mendedStore "heatingpumpcontrol" = some (.number (1)) ∧
    Param.number stodValue mendedStore "dhwdemand" = some (.number (0)) ∧
    Param.number stodValue mendedStore "dhwdistributionefficiency" = some (.number (3 / 5)) ∧
    Param.number stodValue mendedStore "dhwsystemefficiency" = some (.number (4 / 5)) ∧
    Param.given mendedStore "dhwfueltype" = some "gas".toList ∧
    Param.number stodValue mendedStore "hvacwastefactor" = some (.number (0)) ∧
    Param.boolean mendedStore "forcedairheating" = none ∧
    Param.given mendedStore "dt_supp_ht" = none ∧
    Param.given mendedStore "e_pumps_ht" = none := by
  decide +kernel

theorem mended_values5 :
    Param.given mendedStore "t_ht_ctrl_flag" = none ∧
    Param.given mendedStore "a_h0" = none ∧
    Param.given mendedStore "tau_h0" = none ∧
    Param.given mendedStore "dh_yesno" = none ∧
    Param.given mendedStore "eta_dh_network" = none ∧
    Param.given mendedStore "eta_dh_sys" = none ∧
    Param.given mendedStore "frac_dh_free" = none ∧
    Param.given mendedStore "dhw_tset" = none ∧
    Param.given mendedStore "dhw_tsupply" = none ∧
    Param.number stodValue mendedStore "coolingsetpointoccupied" = some (.number (28)) ∧
    Param.number stodValue mendedStore "coolingsetpointunoccupied" = some (.number (28)) ∧
    Param.number stodValue mendedStore "coolingsystemcop" = some (.number (20064398287167 / 6250000000000)) ∧
    Param.number stodValue mendedStore "coolingsystemiplvtocopratio" = some (.number (104773541524309 / 100000000000000)) ∧
    Param.number stodValue mendedStore "hvaccoolinglossfactor" = some (.number (0)) ∧
    Param.number stodValue mendedStore "coolingpumpcontrol" = some (.number (1)) ∧
    Param.boolean mendedStore "forcedaircooling" = none ∧
    Param.given mendedStore "t_cl_ctrl_flag" = none := by
  decide +kernel

theorem mended_values6 :
    Param.given mendedStore "dt_supp_cl" = none ∧
    Param.given mendedStore "dc_yesno" = none ∧
    Param.given mendedStore "eta_dc_network" = none ∧
    Param.given mendedStore "eta_dc_cop" = none ∧
    Param.given mendedStore "eta_dc_frac_abs" = none ∧
    Param.given mendedStore "eta_dc_cop_abs" = none ∧
    Param.given mendedStore "frac_dc_free" = none ∧
    Param.given mendedStore "e_pumps_cl" = none ∧
    Param.number stodValue mendedStore "ventilationintakerateoccupied" = some (.number (1581941 / 10000)) ∧
    Param.number stodValue mendedStore "ventilationExhaustRateOccupied" = some (.number (1581941 / 10000)) ∧
    Param.number stodValue mendedStore "heatrecovery" = some (.number (0)) ∧
    Param.number stodValue mendedStore "exhaustairrecirculation" = some (.number (0)) ∧
    Param.given mendedStore "ventilationtype" = some "mechanical".toList ∧
    Param.number stodValue mendedStore "specificfanpower" = some (.number (223192365035577 / 250000000000000)) ∧
    Param.number stodValue mendedStore "fanflowcontrolfactor" = some (.number (1)) ∧
    Param.given mendedStore "ventpreheatdegc" = none ∧
    Param.given mendedStore "n50" = none := by
  decide +kernel

theorem mended_values7 :
    Param.given mendedStore "hzone" = none ∧
    Param.given mendedStore "p_exp" = none ∧
    Param.given mendedStore "zone_frac" = none ∧
    Param.given mendedStore "stack_exp" = none ∧
    Param.given mendedStore "stack_coeff" = none ∧
    Param.given mendedStore "wind_exp" = none ∧
    Param.given mendedStore "wind_coeff" = none ∧
    Param.given mendedStore "dcp" = none ∧
    Param.integer mendedStore "vent_rate_flag" = none ∧
    Param.given mendedStore "h_ve" = none ∧
    Param.given mendedStore "rhocpair" = none ∧
    Param.given mendedStore "rhocpwater" = none ∧
    Param.given mendedStore "phiintfractiontoairnode" = none ∧
    Param.given mendedStore "phisolfractiontoairnode" = none ∧
    Param.given mendedStore "hci" = none ∧
    Param.given mendedStore "hri" = none ∧
    Param.number stodValue mendedStore "terrainclass" = some (.number (4 / 5)) := by
  decide +kernel

set_option maxHeartbeats 4000000 in
/-- the file describes this building -/
theorem mended_describes : Describes mendedStore mendedOffice := by
  obtain ⟨h1, h2, h3, h4, h5, h6, h7, h8, h9, h10, h11, h12, h13, h14, h15, h16, h17⟩ := mended_values1
  obtain ⟨h18, h19, h20, h21, h22, h23, h24, h25, h26, h27, h28, h29, h30, h31, h32, h33, h34⟩ := mended_values2
  obtain ⟨h35, h36, h37, h38, h39, h40, h41, h42, h43, h44, h45, h46, h47, h48, h49, h50, h51⟩ := mended_values3
  obtain ⟨h52, h53, h54, h55, h56, h57, h58, h59, h60, h61, h62, h63, h64, h65, h66, h67, h68⟩ := mended_values4
  obtain ⟨h69, h70, h71, h72, h73, h74, h75, h76, h77, h78, h79, h80, h81, h82, h83, h84, h85⟩ := mended_values5
  obtain ⟨h86, h87, h88, h89, h90, h91, h92, h93, h94, h95, h96, h97, h98, h99, h100, h101, h102⟩ := mended_values6
  obtain ⟨h103, h104, h105, h106, h107, h108, h109, h110, h111, h112, h113, h114, h115, h116, h117, h118, h119⟩ := mended_values7
  exact {
    pop_hoursEnd := gives_value (v := 17) h1 (by norm_num),
    pop_hoursStart := gives_value (v := 8) h2 (by norm_num),
    pop_daysEnd := gives_value (v := 5) h3 (by norm_num),
    pop_daysStart := gives_value (v := 1) h4 (by norm_num),
    pop_densityOccupied := gives_value (v := 25.4683514030612) h5 (by norm_num),
    pop_densityUnoccupied := gives_value (v := 150.51041254091) h6 (by norm_num),
    pop_heatGainPerPerson := gives_value (v := 120) h7 (by norm_num),
    lights_powerDensityOccupied := gives_value (v := 6.33869983780207) h8 (by norm_num),
    lights_powerDensityUnoccupied := gives_value (v := 2.58639212251571) h9 (by norm_num),
    lights_dimmingFraction := gives_value (v := 1) h10 (by norm_num),
    lights_exteriorEnergy := gives_value (v := 303.660166666667) h11 (by norm_num),
    lights_n_day_start := gives_default (v := 7) h12,
    lights_n_day_end := gives_default (v := 18) h13,
    lights_n_weeks := gives_default (v := 50) h14,
    lights_elecInternalGains := gives_default (v := 1) h15,
    lights_permLightPowerDensity := gives_default (v := 0) h16,
    lights_presenceSensorAd := gives_default (v := 0.6) h17,
    lights_automaticAd := gives_default (v := 0.8) h18,
    lights_presenceAutoAd := gives_default (v := 0.6) h19,
    lights_manualSwitchAd := gives_default (v := 1) h20,
    lights_presenceSensorLux := gives_default (v := 500) h21,
    lights_automaticLux := gives_default (v := 300) h22,
    lights_presenceAutoLux := gives_default (v := 300) h23,
    lights_manualSwitchLux := gives_default (v := 500) h24,
    lights_naturallyLightedArea := gives_default (v := 0) h25,
    building_lightingOccupancySensor := gives_value (v := 1) h26 (by norm_num),
    building_constantIllumination := gives_value (v := 1) h27 (by norm_num),
    building_electricApplianceHeatGainOccupied := gives_value (v := 4.83103336902162) h28 (by norm_num),
    building_electricApplianceHeatGainUnoccupied := gives_value (v := 2.24818845302062) h29 (by norm_num),
    building_gasApplianceHeatGainOccupied := gives_value (v := 0) h30 (by norm_num),
    building_gasApplianceHeatGainUnoccupied := gives_value (v := 0) h31 (by norm_num),
    building_buildingEnergyManagement := ⟨_, h32, 0, by decide, by decide +kernel, show (1 : ℝ) = (0 : ℕ) + 1 by norm_num⟩,
    building_externalEquipment := gives_default (v := 0) h33,
    bldg_floorArea := gives_value (v := 511.16) h34 (by norm_num),
    bldg_wallArea := by
      refine (facades_value h35).trans (congrArg some (funext fun i => ?_))
      show _ = fin ((nineOf 84.45 56.3 84.45 56.3 598.76 : Fin 9 → ℝ) i)
      fin_cases i <;> simp [toDouble, nineOf] <;> norm_num,
    bldg_windowArea := by
      refine (facades_value h36).trans (congrArg some (funext fun i => ?_))
      show _ = fin ((nineOf 20.65 11.16 16.74 11.16 0 : Fin 9 → ℝ) i)
      fin_cases i <;> simp [toDouble, nineOf] <;> norm_num,
    bldg_wallUniform := by
      refine (facades_value h37).trans (congrArg some (funext fun i => ?_))
      show _ = fin ((nineOf 0.363 0.363 0.363 0.363 2.494 : Fin 9 → ℝ) i)
      fin_cases i <;> simp [toDouble, nineOf] <;> norm_num,
    bldg_windowUniform := by
      refine (facades_value h38).trans (congrArg some (funext fun i => ?_))
      show _ = fin ((nineOf 2.653 2.653 2.653 2.653 0 : Fin 9 → ℝ) i)
      fin_cases i <;> simp [toDouble, nineOf] <;> norm_num,
    bldg_wallThermalEmissivity := by
      refine (facades_value h39).trans (congrArg some (funext fun i => ?_))
      show _ = fin ((nineOf 0.9 0.9 0.9 0.9 0.9 : Fin 9 → ℝ) i)
      fin_cases i <;> simp [toDouble, nineOf] <;> norm_num,
    bldg_wallSolarAbsorption := by
      refine (facades_value h40).trans (congrArg some (funext fun i => ?_))
      show _ = fin ((nineOf 0.7 0.7 0.7 0.7 0.7 : Fin 9 → ℝ) i)
      fin_cases i <;> simp [toDouble, nineOf] <;> norm_num,
    bldg_windowShadingDevice := by
      refine (facades_value h41).trans (congrArg some (funext fun i => ?_))
      show _ = fin (1:ℝ)
      fin_cases i <;> simp [toDouble],
    bldg_windowNormalIncidenceSolarEnergyTransmittance := by
      refine (facades_value h42).trans (congrArg some (funext fun i => ?_))
      show _ = fin ((nineOf 0.426 0.426 0.426 0.426 0 : Fin 9 → ℝ) i)
      fin_cases i <;> simp [toDouble, nineOf] <;> norm_num,
    bldg_windowShadingCorrectionFactor := by
      refine (facades_value h43).trans (congrArg some (funext fun i => ?_))
      show _ = fin ((nineOf 1 1 1 1 1 : Fin 9 → ℝ) i)
      fin_cases i <;> simp [toDouble, nineOf] <;> norm_num,
    bldg_interiorHeatCapacity := gives_value (v := 98010.0000000022) h44 (by norm_num),
    bldg_wallHeatCapacity := gives_value (v := 29707.0229928189) h45 (by norm_num),
    bldg_buildingHeight := gives_value (v := 6.33) h46 (by norm_num),
    bldg_infiltrationRate := gives_value (v := 7.08899540065705) h47 (by norm_num),
    bldg_R_se := gives_default (v := 0.04) h48,
    bldg_irradianceForMaxShadingUse := gives_default (v := 500) h49,
    bldg_shadingFactorAtMaxUse := gives_default (v := 0.5) h50,
    bldg_totalAreaPerFloorArea := gives_default (v := 4.5) h51,
    bldg_win_ff := gives_default (v := 0.25) h52,
    bldg_win_F_W := gives_default (v := 0.9) h53,
    bldg_R_sc_ext := gives_default (v := 0.04) h54,
    heating_temperatureSetPointOccupied := gives_value (v := 24) h55 (by norm_num),
    heating_temperatureSetPointUnoccupied := gives_value (v := 24) h56 (by norm_num),
    heating_hvacLossFactor := gives_value (v := 0.25) h57 (by norm_num),
    heating_efficiency := gives_value (v := 2.13505737091766) h58 (by norm_num),
    heating_energyType := ⟨_, h59, 1, by decide, by decide +kernel, show (2 : ℝ) = (1 : ℕ) + 1 by norm_num⟩,
    heating_pumpControlReduction := gives_value (v := 1) h60 (by norm_num),
    heating_hotWaterDemand := gives_value (v := 0) h61 (by norm_num),
    heating_hotWaterDistributionEfficiency := gives_value (v := 0.6) h62 (by norm_num),
    heating_hotWaterSystemEfficiency := gives_value (v := 0.8) h63 (by norm_num),
    heating_hotWaterEnergyType := ⟨_, h64, 1, by decide, by decide +kernel, show (2 : ℝ) = (1 : ℕ) + 1 by norm_num⟩,
    heating_hotcoldWasteFactor := gives_value (v := 0) h65 (by norm_num),
    heating_forcedAirHeating := by rw [h66]; rfl,
    heating_dT_supp_ht := gives_default (v := 7) h67,
    heating_E_pumps := gives_default (v := 0.25) h68,
    heating_T_ht_ctrl_flag := gives_default (v := 1) h69,
    heating_a_H0 := gives_default (v := 1) h70,
    heating_tau_H0 := gives_default (v := 15) h71,
    heating_DH_YesNo := gives_default (v := 0) h72,
    heating_eta_DH_network := gives_default (v := 0.9) h73,
    heating_eta_DH_sys := gives_default (v := 0.87) h74,
    heating_frac_DH_free := gives_default (v := 0) h75,
    heating_dhw_tset := gives_default (v := 60) h76,
    heating_dhw_tsupply := gives_default (v := 20) h77,
    cooling_temperatureSetPointOccupied := gives_value (v := 28) h78 (by norm_num),
    cooling_temperatureSetPointUnoccupied := gives_value (v := 28) h79 (by norm_num),
    cooling_cop := gives_value (v := 3.21030372594672) h80 (by norm_num),
    cooling_partialLoadValue := gives_value (v := 1.04773541524309) h81 (by norm_num),
    cooling_hvacLossFactor := gives_value (v := 0) h82 (by norm_num),
    cooling_pumpControlReduction := gives_value (v := 1) h83 (by norm_num),
    cooling_forcedAirCooling := by rw [h84]; rfl,
    cooling_T_cl_ctrl_flag := gives_default (v := 1) h85,
    cooling_dT_supp_cl := gives_default (v := 7) h86,
    cooling_DC_YesNo := gives_default (v := 0) h87,
    cooling_eta_DC_network := gives_default (v := 0.9) h88,
    cooling_eta_DC_COP := gives_default (v := 5.5) h89,
    cooling_eta_DC_frac_abs := gives_default (v := 0) h90,
    cooling_eta_DC_COP_abs := gives_default (v := 1) h91,
    cooling_frac_DC_free := gives_default (v := 0) h92,
    cooling_E_pumps := gives_default (v := 0.25) h93,
    ventilation_supplyRate := gives_value (v := 158.1941) h94 (by norm_num),
    ventilation_supplyDifference := gives_value (v := 158.1941) h95 (by norm_num),
    ventilation_heatRecoveryEfficiency := gives_value (v := 0) h96 (by norm_num),
    ventilation_exhaustAirRecirculated := gives_value (v := 0) h97 (by norm_num),
    ventilation_ventType := ⟨_, h98, 0, by decide, by decide +kernel, show (1 : ℝ) = (0 : ℕ) + 1 by norm_num⟩,
    ventilation_fanPower := gives_value (v := 0.892769460142308) h99 (by norm_num),
    ventilation_fanControlFactor := gives_value (v := 1) h100 (by norm_num),
    ventilation_ventPreheatDegC := gives_default (v := -50) h101,
    ventilation_n50 := gives_default (v := 2) h102,
    ventilation_hzone := gives_default (v := 39) h103,
    ventilation_p_exp := gives_default (v := 0.65) h104,
    ventilation_zone_frac := gives_default (v := 0.7) h105,
    ventilation_stack_exp := gives_default (v := 0.667) h106,
    ventilation_stack_coeff := gives_default (v := 0.0146) h107,
    ventilation_wind_exp := gives_default (v := 0.667) h108,
    ventilation_wind_coeff := gives_default (v := 0.0769) h109,
    ventilation_dCp := gives_default (v := 0.75) h110,
    ventilation_vent_rate_flag := by rw [h111]; rfl,
    ventilation_H_ve := gives_default (v := 0) h112,
    phys_rhoCpAir := gives_default (v := (1.22521 * 0.001012)) h113,
    phys_rhoCpWater := gives_default (v := 4.1813) h114,
    simSettings_phiIntFractionToAirNode := gives_default (v := 0.5) h115,
    simSettings_phiSolFractionToAirNode := gives_default (v := 0) h116,
    simSettings_hci := gives_default (v := 2.5) h117,
    simSettings_hri := gives_default (v := 5.5) h118,
    terrain := gives_value (v := 0.8) h119 (by norm_num) }

end ISO.Props
