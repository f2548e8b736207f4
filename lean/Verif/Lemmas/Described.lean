import Verif.Lemmas.Editing
import Verif.Lemmas.EndToEnd
import Verif.Spec.PrintedOrder

/-! # Lemmas: the building that an edited file describes -/

namespace ISO.Lemmas.Described
open ISO ISO.Numerals ISO.User ISO.CommandLine ISO.Spec ISO.Spec.Editing ISO.Spec.EndToEnd ISO.Spec.PrintedOrder ISO.Lemmas.Editing

variable {file file' : Properties.Store} {names : List String} {n : String}

theorem same_given (he : Edited names file file') (h : (∃ r ∈ Param.table, r.name = n) ∧ n ∉ names) : Param.given file' n = Param.given file n := by
  obtain ⟨⟨r, hr, rfl⟩, hn⟩ := h
  exact he r hr hn

theorem gives_same (e : Param.given file' n = Param.given file n) {v : ℝ} (h : Gives file n v) : Gives file' n v := by
  unfold Gives at h ⊢
  rwa [number_of e]

theorem givesOr_same (e : Param.given file' n = Param.given file n) {d v : ℝ} (h : GivesOr file n d v) : GivesOr file' n d v := by
  unfold GivesOr at h ⊢
  rwa [number_of e]

theorem givesAll_same (e : Param.given file' n = Param.given file n) {v : Fin 9 → ℝ} (h : GivesAll file n v) : GivesAll file' n v := by
  unfold GivesAll at h ⊢
  rwa [facades_of e]

theorem chooses_same (e : Param.given file' n = Param.given file n) {l : List String} {v : ℝ} (h : Chooses file n l v) : Chooses file' n l v := by
  unfold Chooses at h ⊢
  rwa [e]

theorem boolean_same (e : Param.given file' n = Param.given file n) {d v : Bool} (h : (Param.boolean file n).getD d = v) :
    (Param.boolean file' n).getD d = v := by
  rwa [boolean_of e]

theorem integer_same (e : Param.given file' n = Param.given file n) {d v : ℤ} (h : (Param.integer file n).getD d = v) :
    (Param.integer file' n).getD d = v := by
  rwa [integer_of e]

/-- the parameters that make the building -/
def keys : List String :=
  ["occupancyhourlast", "occupancyhourfirst", "occupancydaylast", "occupancydayfirst", "peopledensityoccupied",
   "peopledensityunoccupied", "heatgainperperson", "lightingpowerdensityoccupied", "lightingpowerdensityunoccupied",
   "daylightsensordimmingfraction", "exteriorlightingpower", "n_day_start", "n_day_end", "n_weeks", "elecinternalgains",
   "permlightpowerdensity", "presencesensorad", "automaticad", "presenceautoad", "manualswitchad", "presencesensorlux",
   "automaticlux", "presenceautolux", "manualswitchlux", "naturallylightedarea", "lightingoccupancysensordimmingfraction",
   "constantilluminationcontrolmultiplier", "electricappliancepowerdensityoccupied",
   "electricappliancepowerdensityunoccupied", "gasappliancepowerdensityoccupied", "gasappliancepowerdensityunoccupied",
   "bemtype", "externalequipment", "floorarea", "wallArea", "windowArea", "wallU", "windowU", "wallEmissivity",
   "wallAbsorption", "windowSDF", "windowSHGC", "windowSCF", "interiorheatcapacity", "exteriorheatcapacity",
   "buildingheight", "infiltrationrateoccupied", "r_se", "irradianceformaxshadinguse", "shadingfactoratmaxuse",
   "totalareaperfloorarea", "win_ff", "win_f_w", "r_sc_ext", "heatingsetpointoccupied", "heatingsetpointunoccupied",
   "hvacheatinglossfactor", "heatingsystemefficiency", "heatingfueltype", "heatingpumpcontrol", "dhwdemand",
   "dhwdistributionefficiency", "dhwsystemefficiency", "dhwfueltype", "hvacwastefactor", "forcedairheating", "dt_supp_ht",
   "e_pumps_ht", "t_ht_ctrl_flag", "a_h0", "tau_h0", "dh_yesno", "eta_dh_network", "eta_dh_sys", "frac_dh_free",
   "dhw_tset", "dhw_tsupply", "coolingsetpointoccupied", "coolingsetpointunoccupied", "coolingsystemcop",
   "coolingsystemiplvtocopratio", "hvaccoolinglossfactor", "coolingpumpcontrol", "forcedaircooling", "t_cl_ctrl_flag",
   "dt_supp_cl", "dc_yesno", "eta_dc_network", "eta_dc_cop", "eta_dc_frac_abs", "eta_dc_cop_abs", "frac_dc_free",
   "e_pumps_cl", "ventilationintakerateoccupied", "ventilationExhaustRateOccupied", "heatrecovery",
   "exhaustairrecirculation", "ventilationtype", "specificfanpower", "fanflowcontrolfactor", "ventpreheatdegc", "n50",
   "hzone", "p_exp", "zone_frac", "stack_exp", "stack_coeff", "wind_exp", "wind_coeff", "dcp", "vent_rate_flag", "h_ve",
   "rhocpair", "rhocpwater", "phiintfractiontoairnode", "phisolfractiontoairnode", "hci", "hri", "terrainclass"]

theorem keys_known : ∀ n ∈ keys, ∃ r ∈ Param.table, r.name = n := by
  decide +kernel

/-- another boiler -/
theorem described_boiler {x : Sim ℝ} (h : Describes file x) (he : Edited ["heatingsystemefficiency"] file file') {e : ℝ} (hv : Gives file' "heatingsystemefficiency" e) :
    Describes file' (withBoiler x e) := by
  have g : ∀ n ∈ keys, n ∉ ["heatingsystemefficiency"] → Param.given file' n = Param.given file n := fun n hk hn => same_given he ⟨keys_known n hk, hn⟩
  simp only [keys, List.forall_mem_cons, List.not_mem_nil, IsEmpty.forall_iff, implies_true, and_true] at g
  simp only [List.mem_cons, List.not_mem_nil, or_false, or_true, or_self, String.reduceEq, not_false_eq_true, not_true_eq_false, forall_true_left,
    IsEmpty.forall_iff, true_and] at g
  obtain ⟨g0, g1, g2, g3, g4, g5, g6, g7, g8, g9, g10, g11, g12, g13, g14, g15, g16, g17, g18, g19, g20, g21, g22, g23, g24, g25, g26, g27, g28, g29, g30, g31, g32, g33, g34, g35, g36, g37, g38, g39, g40, g41, g42, g43, g44, g45, g46, g47, g48, g49, g50, g51, g52, g53, g54, g55, g56, g57, g58, g59, g60, g61, g62, g63, g64, g65, g66, g67, g68, g69, g70, g71, g72, g73, g74, g75, g76, g77, g78, g79, g80, g81, g82, g83, g84, g85, g86, g87, g88, g89, g90, g91, g92, g93, g94, g95, g96, g97, g98, g99, g100, g101, g102, g103, g104, g105, g106, g107, g108, g109, g110, g111, g112, g113, g114, g115, g116, g117⟩ := g
  exact {
    pop_hoursEnd := gives_same g0 h.pop_hoursEnd
    pop_hoursStart := gives_same g1 h.pop_hoursStart
    pop_daysEnd := gives_same g2 h.pop_daysEnd
    pop_daysStart := gives_same g3 h.pop_daysStart
    pop_densityOccupied := gives_same g4 h.pop_densityOccupied
    pop_densityUnoccupied := gives_same g5 h.pop_densityUnoccupied
    pop_heatGainPerPerson := gives_same g6 h.pop_heatGainPerPerson
    lights_powerDensityOccupied := gives_same g7 h.lights_powerDensityOccupied
    lights_powerDensityUnoccupied := gives_same g8 h.lights_powerDensityUnoccupied
    lights_dimmingFraction := gives_same g9 h.lights_dimmingFraction
    lights_exteriorEnergy := gives_same g10 h.lights_exteriorEnergy
    lights_n_day_start := givesOr_same g11 h.lights_n_day_start
    lights_n_day_end := givesOr_same g12 h.lights_n_day_end
    lights_n_weeks := givesOr_same g13 h.lights_n_weeks
    lights_elecInternalGains := givesOr_same g14 h.lights_elecInternalGains
    lights_permLightPowerDensity := givesOr_same g15 h.lights_permLightPowerDensity
    lights_presenceSensorAd := givesOr_same g16 h.lights_presenceSensorAd
    lights_automaticAd := givesOr_same g17 h.lights_automaticAd
    lights_presenceAutoAd := givesOr_same g18 h.lights_presenceAutoAd
    lights_manualSwitchAd := givesOr_same g19 h.lights_manualSwitchAd
    lights_presenceSensorLux := givesOr_same g20 h.lights_presenceSensorLux
    lights_automaticLux := givesOr_same g21 h.lights_automaticLux
    lights_presenceAutoLux := givesOr_same g22 h.lights_presenceAutoLux
    lights_manualSwitchLux := givesOr_same g23 h.lights_manualSwitchLux
    lights_naturallyLightedArea := givesOr_same g24 h.lights_naturallyLightedArea
    building_lightingOccupancySensor := gives_same g25 h.building_lightingOccupancySensor
    building_constantIllumination := gives_same g26 h.building_constantIllumination
    building_electricApplianceHeatGainOccupied := gives_same g27 h.building_electricApplianceHeatGainOccupied
    building_electricApplianceHeatGainUnoccupied := gives_same g28 h.building_electricApplianceHeatGainUnoccupied
    building_gasApplianceHeatGainOccupied := gives_same g29 h.building_gasApplianceHeatGainOccupied
    building_gasApplianceHeatGainUnoccupied := gives_same g30 h.building_gasApplianceHeatGainUnoccupied
    building_buildingEnergyManagement := chooses_same g31 h.building_buildingEnergyManagement
    building_externalEquipment := givesOr_same g32 h.building_externalEquipment
    bldg_floorArea := gives_same g33 h.bldg_floorArea
    bldg_wallArea := givesAll_same g34 h.bldg_wallArea
    bldg_windowArea := givesAll_same g35 h.bldg_windowArea
    bldg_wallUniform := givesAll_same g36 h.bldg_wallUniform
    bldg_windowUniform := givesAll_same g37 h.bldg_windowUniform
    bldg_wallThermalEmissivity := givesAll_same g38 h.bldg_wallThermalEmissivity
    bldg_wallSolarAbsorption := givesAll_same g39 h.bldg_wallSolarAbsorption
    bldg_windowShadingDevice := givesAll_same g40 h.bldg_windowShadingDevice
    bldg_windowNormalIncidenceSolarEnergyTransmittance := givesAll_same g41 h.bldg_windowNormalIncidenceSolarEnergyTransmittance
    bldg_windowShadingCorrectionFactor := givesAll_same g42 h.bldg_windowShadingCorrectionFactor
    bldg_interiorHeatCapacity := gives_same g43 h.bldg_interiorHeatCapacity
    bldg_wallHeatCapacity := gives_same g44 h.bldg_wallHeatCapacity
    bldg_buildingHeight := gives_same g45 h.bldg_buildingHeight
    bldg_infiltrationRate := gives_same g46 h.bldg_infiltrationRate
    bldg_R_se := givesOr_same g47 h.bldg_R_se
    bldg_irradianceForMaxShadingUse := givesOr_same g48 h.bldg_irradianceForMaxShadingUse
    bldg_shadingFactorAtMaxUse := givesOr_same g49 h.bldg_shadingFactorAtMaxUse
    bldg_totalAreaPerFloorArea := givesOr_same g50 h.bldg_totalAreaPerFloorArea
    bldg_win_ff := givesOr_same g51 h.bldg_win_ff
    bldg_win_F_W := givesOr_same g52 h.bldg_win_F_W
    bldg_R_sc_ext := givesOr_same g53 h.bldg_R_sc_ext
    heating_temperatureSetPointOccupied := gives_same g54 h.heating_temperatureSetPointOccupied
    heating_temperatureSetPointUnoccupied := gives_same g55 h.heating_temperatureSetPointUnoccupied
    heating_hvacLossFactor := gives_same g56 h.heating_hvacLossFactor
    heating_efficiency := hv
    heating_energyType := chooses_same g57 h.heating_energyType
    heating_pumpControlReduction := gives_same g58 h.heating_pumpControlReduction
    heating_hotWaterDemand := gives_same g59 h.heating_hotWaterDemand
    heating_hotWaterDistributionEfficiency := gives_same g60 h.heating_hotWaterDistributionEfficiency
    heating_hotWaterSystemEfficiency := gives_same g61 h.heating_hotWaterSystemEfficiency
    heating_hotWaterEnergyType := chooses_same g62 h.heating_hotWaterEnergyType
    heating_hotcoldWasteFactor := gives_same g63 h.heating_hotcoldWasteFactor
    heating_forcedAirHeating := boolean_same g64 h.heating_forcedAirHeating
    heating_dT_supp_ht := givesOr_same g65 h.heating_dT_supp_ht
    heating_E_pumps := givesOr_same g66 h.heating_E_pumps
    heating_T_ht_ctrl_flag := givesOr_same g67 h.heating_T_ht_ctrl_flag
    heating_a_H0 := givesOr_same g68 h.heating_a_H0
    heating_tau_H0 := givesOr_same g69 h.heating_tau_H0
    heating_DH_YesNo := givesOr_same g70 h.heating_DH_YesNo
    heating_eta_DH_network := givesOr_same g71 h.heating_eta_DH_network
    heating_eta_DH_sys := givesOr_same g72 h.heating_eta_DH_sys
    heating_frac_DH_free := givesOr_same g73 h.heating_frac_DH_free
    heating_dhw_tset := givesOr_same g74 h.heating_dhw_tset
    heating_dhw_tsupply := givesOr_same g75 h.heating_dhw_tsupply
    cooling_temperatureSetPointOccupied := gives_same g76 h.cooling_temperatureSetPointOccupied
    cooling_temperatureSetPointUnoccupied := gives_same g77 h.cooling_temperatureSetPointUnoccupied
    cooling_cop := gives_same g78 h.cooling_cop
    cooling_partialLoadValue := gives_same g79 h.cooling_partialLoadValue
    cooling_hvacLossFactor := gives_same g80 h.cooling_hvacLossFactor
    cooling_pumpControlReduction := gives_same g81 h.cooling_pumpControlReduction
    cooling_forcedAirCooling := boolean_same g82 h.cooling_forcedAirCooling
    cooling_T_cl_ctrl_flag := givesOr_same g83 h.cooling_T_cl_ctrl_flag
    cooling_dT_supp_cl := givesOr_same g84 h.cooling_dT_supp_cl
    cooling_DC_YesNo := givesOr_same g85 h.cooling_DC_YesNo
    cooling_eta_DC_network := givesOr_same g86 h.cooling_eta_DC_network
    cooling_eta_DC_COP := givesOr_same g87 h.cooling_eta_DC_COP
    cooling_eta_DC_frac_abs := givesOr_same g88 h.cooling_eta_DC_frac_abs
    cooling_eta_DC_COP_abs := givesOr_same g89 h.cooling_eta_DC_COP_abs
    cooling_frac_DC_free := givesOr_same g90 h.cooling_frac_DC_free
    cooling_E_pumps := givesOr_same g91 h.cooling_E_pumps
    ventilation_supplyRate := gives_same g92 h.ventilation_supplyRate
    ventilation_supplyDifference := gives_same g93 h.ventilation_supplyDifference
    ventilation_heatRecoveryEfficiency := gives_same g94 h.ventilation_heatRecoveryEfficiency
    ventilation_exhaustAirRecirculated := gives_same g95 h.ventilation_exhaustAirRecirculated
    ventilation_ventType := chooses_same g96 h.ventilation_ventType
    ventilation_fanPower := gives_same g97 h.ventilation_fanPower
    ventilation_fanControlFactor := gives_same g98 h.ventilation_fanControlFactor
    ventilation_ventPreheatDegC := givesOr_same g99 h.ventilation_ventPreheatDegC
    ventilation_n50 := givesOr_same g100 h.ventilation_n50
    ventilation_hzone := givesOr_same g101 h.ventilation_hzone
    ventilation_p_exp := givesOr_same g102 h.ventilation_p_exp
    ventilation_zone_frac := givesOr_same g103 h.ventilation_zone_frac
    ventilation_stack_exp := givesOr_same g104 h.ventilation_stack_exp
    ventilation_stack_coeff := givesOr_same g105 h.ventilation_stack_coeff
    ventilation_wind_exp := givesOr_same g106 h.ventilation_wind_exp
    ventilation_wind_coeff := givesOr_same g107 h.ventilation_wind_coeff
    ventilation_dCp := givesOr_same g108 h.ventilation_dCp
    ventilation_vent_rate_flag := integer_same g109 h.ventilation_vent_rate_flag
    ventilation_H_ve := givesOr_same g110 h.ventilation_H_ve
    phys_rhoCpAir := givesOr_same g111 h.phys_rhoCpAir
    phys_rhoCpWater := givesOr_same g112 h.phys_rhoCpWater
    simSettings_phiIntFractionToAirNode := givesOr_same g113 h.simSettings_phiIntFractionToAirNode
    simSettings_phiSolFractionToAirNode := givesOr_same g114 h.simSettings_phiSolFractionToAirNode
    simSettings_hci := givesOr_same g115 h.simSettings_hci
    simSettings_hri := givesOr_same g116 h.simSettings_hri
    terrain := gives_same g117 h.terrain
  }

/-- another chiller -/
theorem described_chiller {x : Sim ℝ} (h : Describes file x) (he : Edited ["coolingsystemcop"] file file') {e : ℝ} (hv : Gives file' "coolingsystemcop" e) :
    Describes file' (withChiller x e) := by
  have g : ∀ n ∈ keys, n ∉ ["coolingsystemcop"] → Param.given file' n = Param.given file n := fun n hk hn => same_given he ⟨keys_known n hk, hn⟩
  simp only [keys, List.forall_mem_cons, List.not_mem_nil, IsEmpty.forall_iff, implies_true, and_true] at g
  simp only [List.mem_cons, List.not_mem_nil, or_false, or_true, or_self, String.reduceEq, not_false_eq_true, not_true_eq_false, forall_true_left,
    IsEmpty.forall_iff, true_and] at g
  obtain ⟨g0, g1, g2, g3, g4, g5, g6, g7, g8, g9, g10, g11, g12, g13, g14, g15, g16, g17, g18, g19, g20, g21, g22, g23, g24, g25, g26, g27, g28, g29, g30, g31, g32, g33, g34, g35, g36, g37, g38, g39, g40, g41, g42, g43, g44, g45, g46, g47, g48, g49, g50, g51, g52, g53, g54, g55, g56, g57, g58, g59, g60, g61, g62, g63, g64, g65, g66, g67, g68, g69, g70, g71, g72, g73, g74, g75, g76, g77, g78, g79, g80, g81, g82, g83, g84, g85, g86, g87, g88, g89, g90, g91, g92, g93, g94, g95, g96, g97, g98, g99, g100, g101, g102, g103, g104, g105, g106, g107, g108, g109, g110, g111, g112, g113, g114, g115, g116, g117⟩ := g
  exact {
    pop_hoursEnd := gives_same g0 h.pop_hoursEnd
    pop_hoursStart := gives_same g1 h.pop_hoursStart
    pop_daysEnd := gives_same g2 h.pop_daysEnd
    pop_daysStart := gives_same g3 h.pop_daysStart
    pop_densityOccupied := gives_same g4 h.pop_densityOccupied
    pop_densityUnoccupied := gives_same g5 h.pop_densityUnoccupied
    pop_heatGainPerPerson := gives_same g6 h.pop_heatGainPerPerson
    lights_powerDensityOccupied := gives_same g7 h.lights_powerDensityOccupied
    lights_powerDensityUnoccupied := gives_same g8 h.lights_powerDensityUnoccupied
    lights_dimmingFraction := gives_same g9 h.lights_dimmingFraction
    lights_exteriorEnergy := gives_same g10 h.lights_exteriorEnergy
    lights_n_day_start := givesOr_same g11 h.lights_n_day_start
    lights_n_day_end := givesOr_same g12 h.lights_n_day_end
    lights_n_weeks := givesOr_same g13 h.lights_n_weeks
    lights_elecInternalGains := givesOr_same g14 h.lights_elecInternalGains
    lights_permLightPowerDensity := givesOr_same g15 h.lights_permLightPowerDensity
    lights_presenceSensorAd := givesOr_same g16 h.lights_presenceSensorAd
    lights_automaticAd := givesOr_same g17 h.lights_automaticAd
    lights_presenceAutoAd := givesOr_same g18 h.lights_presenceAutoAd
    lights_manualSwitchAd := givesOr_same g19 h.lights_manualSwitchAd
    lights_presenceSensorLux := givesOr_same g20 h.lights_presenceSensorLux
    lights_automaticLux := givesOr_same g21 h.lights_automaticLux
    lights_presenceAutoLux := givesOr_same g22 h.lights_presenceAutoLux
    lights_manualSwitchLux := givesOr_same g23 h.lights_manualSwitchLux
    lights_naturallyLightedArea := givesOr_same g24 h.lights_naturallyLightedArea
    building_lightingOccupancySensor := gives_same g25 h.building_lightingOccupancySensor
    building_constantIllumination := gives_same g26 h.building_constantIllumination
    building_electricApplianceHeatGainOccupied := gives_same g27 h.building_electricApplianceHeatGainOccupied
    building_electricApplianceHeatGainUnoccupied := gives_same g28 h.building_electricApplianceHeatGainUnoccupied
    building_gasApplianceHeatGainOccupied := gives_same g29 h.building_gasApplianceHeatGainOccupied
    building_gasApplianceHeatGainUnoccupied := gives_same g30 h.building_gasApplianceHeatGainUnoccupied
    building_buildingEnergyManagement := chooses_same g31 h.building_buildingEnergyManagement
    building_externalEquipment := givesOr_same g32 h.building_externalEquipment
    bldg_floorArea := gives_same g33 h.bldg_floorArea
    bldg_wallArea := givesAll_same g34 h.bldg_wallArea
    bldg_windowArea := givesAll_same g35 h.bldg_windowArea
    bldg_wallUniform := givesAll_same g36 h.bldg_wallUniform
    bldg_windowUniform := givesAll_same g37 h.bldg_windowUniform
    bldg_wallThermalEmissivity := givesAll_same g38 h.bldg_wallThermalEmissivity
    bldg_wallSolarAbsorption := givesAll_same g39 h.bldg_wallSolarAbsorption
    bldg_windowShadingDevice := givesAll_same g40 h.bldg_windowShadingDevice
    bldg_windowNormalIncidenceSolarEnergyTransmittance := givesAll_same g41 h.bldg_windowNormalIncidenceSolarEnergyTransmittance
    bldg_windowShadingCorrectionFactor := givesAll_same g42 h.bldg_windowShadingCorrectionFactor
    bldg_interiorHeatCapacity := gives_same g43 h.bldg_interiorHeatCapacity
    bldg_wallHeatCapacity := gives_same g44 h.bldg_wallHeatCapacity
    bldg_buildingHeight := gives_same g45 h.bldg_buildingHeight
    bldg_infiltrationRate := gives_same g46 h.bldg_infiltrationRate
    bldg_R_se := givesOr_same g47 h.bldg_R_se
    bldg_irradianceForMaxShadingUse := givesOr_same g48 h.bldg_irradianceForMaxShadingUse
    bldg_shadingFactorAtMaxUse := givesOr_same g49 h.bldg_shadingFactorAtMaxUse
    bldg_totalAreaPerFloorArea := givesOr_same g50 h.bldg_totalAreaPerFloorArea
    bldg_win_ff := givesOr_same g51 h.bldg_win_ff
    bldg_win_F_W := givesOr_same g52 h.bldg_win_F_W
    bldg_R_sc_ext := givesOr_same g53 h.bldg_R_sc_ext
    heating_temperatureSetPointOccupied := gives_same g54 h.heating_temperatureSetPointOccupied
    heating_temperatureSetPointUnoccupied := gives_same g55 h.heating_temperatureSetPointUnoccupied
    heating_hvacLossFactor := gives_same g56 h.heating_hvacLossFactor
    heating_efficiency := gives_same g57 h.heating_efficiency
    heating_energyType := chooses_same g58 h.heating_energyType
    heating_pumpControlReduction := gives_same g59 h.heating_pumpControlReduction
    heating_hotWaterDemand := gives_same g60 h.heating_hotWaterDemand
    heating_hotWaterDistributionEfficiency := gives_same g61 h.heating_hotWaterDistributionEfficiency
    heating_hotWaterSystemEfficiency := gives_same g62 h.heating_hotWaterSystemEfficiency
    heating_hotWaterEnergyType := chooses_same g63 h.heating_hotWaterEnergyType
    heating_hotcoldWasteFactor := gives_same g64 h.heating_hotcoldWasteFactor
    heating_forcedAirHeating := boolean_same g65 h.heating_forcedAirHeating
    heating_dT_supp_ht := givesOr_same g66 h.heating_dT_supp_ht
    heating_E_pumps := givesOr_same g67 h.heating_E_pumps
    heating_T_ht_ctrl_flag := givesOr_same g68 h.heating_T_ht_ctrl_flag
    heating_a_H0 := givesOr_same g69 h.heating_a_H0
    heating_tau_H0 := givesOr_same g70 h.heating_tau_H0
    heating_DH_YesNo := givesOr_same g71 h.heating_DH_YesNo
    heating_eta_DH_network := givesOr_same g72 h.heating_eta_DH_network
    heating_eta_DH_sys := givesOr_same g73 h.heating_eta_DH_sys
    heating_frac_DH_free := givesOr_same g74 h.heating_frac_DH_free
    heating_dhw_tset := givesOr_same g75 h.heating_dhw_tset
    heating_dhw_tsupply := givesOr_same g76 h.heating_dhw_tsupply
    cooling_temperatureSetPointOccupied := gives_same g77 h.cooling_temperatureSetPointOccupied
    cooling_temperatureSetPointUnoccupied := gives_same g78 h.cooling_temperatureSetPointUnoccupied
    cooling_cop := hv
    cooling_partialLoadValue := gives_same g79 h.cooling_partialLoadValue
    cooling_hvacLossFactor := gives_same g80 h.cooling_hvacLossFactor
    cooling_pumpControlReduction := gives_same g81 h.cooling_pumpControlReduction
    cooling_forcedAirCooling := boolean_same g82 h.cooling_forcedAirCooling
    cooling_T_cl_ctrl_flag := givesOr_same g83 h.cooling_T_cl_ctrl_flag
    cooling_dT_supp_cl := givesOr_same g84 h.cooling_dT_supp_cl
    cooling_DC_YesNo := givesOr_same g85 h.cooling_DC_YesNo
    cooling_eta_DC_network := givesOr_same g86 h.cooling_eta_DC_network
    cooling_eta_DC_COP := givesOr_same g87 h.cooling_eta_DC_COP
    cooling_eta_DC_frac_abs := givesOr_same g88 h.cooling_eta_DC_frac_abs
    cooling_eta_DC_COP_abs := givesOr_same g89 h.cooling_eta_DC_COP_abs
    cooling_frac_DC_free := givesOr_same g90 h.cooling_frac_DC_free
    cooling_E_pumps := givesOr_same g91 h.cooling_E_pumps
    ventilation_supplyRate := gives_same g92 h.ventilation_supplyRate
    ventilation_supplyDifference := gives_same g93 h.ventilation_supplyDifference
    ventilation_heatRecoveryEfficiency := gives_same g94 h.ventilation_heatRecoveryEfficiency
    ventilation_exhaustAirRecirculated := gives_same g95 h.ventilation_exhaustAirRecirculated
    ventilation_ventType := chooses_same g96 h.ventilation_ventType
    ventilation_fanPower := gives_same g97 h.ventilation_fanPower
    ventilation_fanControlFactor := gives_same g98 h.ventilation_fanControlFactor
    ventilation_ventPreheatDegC := givesOr_same g99 h.ventilation_ventPreheatDegC
    ventilation_n50 := givesOr_same g100 h.ventilation_n50
    ventilation_hzone := givesOr_same g101 h.ventilation_hzone
    ventilation_p_exp := givesOr_same g102 h.ventilation_p_exp
    ventilation_zone_frac := givesOr_same g103 h.ventilation_zone_frac
    ventilation_stack_exp := givesOr_same g104 h.ventilation_stack_exp
    ventilation_stack_coeff := givesOr_same g105 h.ventilation_stack_coeff
    ventilation_wind_exp := givesOr_same g106 h.ventilation_wind_exp
    ventilation_wind_coeff := givesOr_same g107 h.ventilation_wind_coeff
    ventilation_dCp := givesOr_same g108 h.ventilation_dCp
    ventilation_vent_rate_flag := integer_same g109 h.ventilation_vent_rate_flag
    ventilation_H_ve := givesOr_same g110 h.ventilation_H_ve
    phys_rhoCpAir := givesOr_same g111 h.phys_rhoCpAir
    phys_rhoCpWater := givesOr_same g112 h.phys_rhoCpWater
    simSettings_phiIntFractionToAirNode := givesOr_same g113 h.simSettings_phiIntFractionToAirNode
    simSettings_phiSolFractionToAirNode := givesOr_same g114 h.simSettings_phiSolFractionToAirNode
    simSettings_hci := givesOr_same g115 h.simSettings_hci
    simSettings_hri := givesOr_same g116 h.simSettings_hri
    terrain := gives_same g117 h.terrain
  }

/-- another heat recovery -/
theorem described_recovery {x : Sim ℝ} (h : Describes file x) (he : Edited ["heatrecovery"] file file') {e : ℝ} (hv : Gives file' "heatrecovery" e) :
    Describes file' { x with ventilation := { x.ventilation with heatRecoveryEfficiency := e } } := by
  have g : ∀ n ∈ keys, n ∉ ["heatrecovery"] → Param.given file' n = Param.given file n := fun n hk hn => same_given he ⟨keys_known n hk, hn⟩
  simp only [keys, List.forall_mem_cons, List.not_mem_nil, IsEmpty.forall_iff, implies_true, and_true] at g
  simp only [List.mem_cons, List.not_mem_nil, or_false, or_true, or_self, String.reduceEq, not_false_eq_true, not_true_eq_false, forall_true_left,
    IsEmpty.forall_iff, true_and] at g
  obtain ⟨g0, g1, g2, g3, g4, g5, g6, g7, g8, g9, g10, g11, g12, g13, g14, g15, g16, g17, g18, g19, g20, g21, g22, g23, g24, g25, g26, g27, g28, g29, g30, g31, g32, g33, g34, g35, g36, g37, g38, g39, g40, g41, g42, g43, g44, g45, g46, g47, g48, g49, g50, g51, g52, g53, g54, g55, g56, g57, g58, g59, g60, g61, g62, g63, g64, g65, g66, g67, g68, g69, g70, g71, g72, g73, g74, g75, g76, g77, g78, g79, g80, g81, g82, g83, g84, g85, g86, g87, g88, g89, g90, g91, g92, g93, g94, g95, g96, g97, g98, g99, g100, g101, g102, g103, g104, g105, g106, g107, g108, g109, g110, g111, g112, g113, g114, g115, g116, g117⟩ := g
  exact {
    pop_hoursEnd := gives_same g0 h.pop_hoursEnd
    pop_hoursStart := gives_same g1 h.pop_hoursStart
    pop_daysEnd := gives_same g2 h.pop_daysEnd
    pop_daysStart := gives_same g3 h.pop_daysStart
    pop_densityOccupied := gives_same g4 h.pop_densityOccupied
    pop_densityUnoccupied := gives_same g5 h.pop_densityUnoccupied
    pop_heatGainPerPerson := gives_same g6 h.pop_heatGainPerPerson
    lights_powerDensityOccupied := gives_same g7 h.lights_powerDensityOccupied
    lights_powerDensityUnoccupied := gives_same g8 h.lights_powerDensityUnoccupied
    lights_dimmingFraction := gives_same g9 h.lights_dimmingFraction
    lights_exteriorEnergy := gives_same g10 h.lights_exteriorEnergy
    lights_n_day_start := givesOr_same g11 h.lights_n_day_start
    lights_n_day_end := givesOr_same g12 h.lights_n_day_end
    lights_n_weeks := givesOr_same g13 h.lights_n_weeks
    lights_elecInternalGains := givesOr_same g14 h.lights_elecInternalGains
    lights_permLightPowerDensity := givesOr_same g15 h.lights_permLightPowerDensity
    lights_presenceSensorAd := givesOr_same g16 h.lights_presenceSensorAd
    lights_automaticAd := givesOr_same g17 h.lights_automaticAd
    lights_presenceAutoAd := givesOr_same g18 h.lights_presenceAutoAd
    lights_manualSwitchAd := givesOr_same g19 h.lights_manualSwitchAd
    lights_presenceSensorLux := givesOr_same g20 h.lights_presenceSensorLux
    lights_automaticLux := givesOr_same g21 h.lights_automaticLux
    lights_presenceAutoLux := givesOr_same g22 h.lights_presenceAutoLux
    lights_manualSwitchLux := givesOr_same g23 h.lights_manualSwitchLux
    lights_naturallyLightedArea := givesOr_same g24 h.lights_naturallyLightedArea
    building_lightingOccupancySensor := gives_same g25 h.building_lightingOccupancySensor
    building_constantIllumination := gives_same g26 h.building_constantIllumination
    building_electricApplianceHeatGainOccupied := gives_same g27 h.building_electricApplianceHeatGainOccupied
    building_electricApplianceHeatGainUnoccupied := gives_same g28 h.building_electricApplianceHeatGainUnoccupied
    building_gasApplianceHeatGainOccupied := gives_same g29 h.building_gasApplianceHeatGainOccupied
    building_gasApplianceHeatGainUnoccupied := gives_same g30 h.building_gasApplianceHeatGainUnoccupied
    building_buildingEnergyManagement := chooses_same g31 h.building_buildingEnergyManagement
    building_externalEquipment := givesOr_same g32 h.building_externalEquipment
    bldg_floorArea := gives_same g33 h.bldg_floorArea
    bldg_wallArea := givesAll_same g34 h.bldg_wallArea
    bldg_windowArea := givesAll_same g35 h.bldg_windowArea
    bldg_wallUniform := givesAll_same g36 h.bldg_wallUniform
    bldg_windowUniform := givesAll_same g37 h.bldg_windowUniform
    bldg_wallThermalEmissivity := givesAll_same g38 h.bldg_wallThermalEmissivity
    bldg_wallSolarAbsorption := givesAll_same g39 h.bldg_wallSolarAbsorption
    bldg_windowShadingDevice := givesAll_same g40 h.bldg_windowShadingDevice
    bldg_windowNormalIncidenceSolarEnergyTransmittance := givesAll_same g41 h.bldg_windowNormalIncidenceSolarEnergyTransmittance
    bldg_windowShadingCorrectionFactor := givesAll_same g42 h.bldg_windowShadingCorrectionFactor
    bldg_interiorHeatCapacity := gives_same g43 h.bldg_interiorHeatCapacity
    bldg_wallHeatCapacity := gives_same g44 h.bldg_wallHeatCapacity
    bldg_buildingHeight := gives_same g45 h.bldg_buildingHeight
    bldg_infiltrationRate := gives_same g46 h.bldg_infiltrationRate
    bldg_R_se := givesOr_same g47 h.bldg_R_se
    bldg_irradianceForMaxShadingUse := givesOr_same g48 h.bldg_irradianceForMaxShadingUse
    bldg_shadingFactorAtMaxUse := givesOr_same g49 h.bldg_shadingFactorAtMaxUse
    bldg_totalAreaPerFloorArea := givesOr_same g50 h.bldg_totalAreaPerFloorArea
    bldg_win_ff := givesOr_same g51 h.bldg_win_ff
    bldg_win_F_W := givesOr_same g52 h.bldg_win_F_W
    bldg_R_sc_ext := givesOr_same g53 h.bldg_R_sc_ext
    heating_temperatureSetPointOccupied := gives_same g54 h.heating_temperatureSetPointOccupied
    heating_temperatureSetPointUnoccupied := gives_same g55 h.heating_temperatureSetPointUnoccupied
    heating_hvacLossFactor := gives_same g56 h.heating_hvacLossFactor
    heating_efficiency := gives_same g57 h.heating_efficiency
    heating_energyType := chooses_same g58 h.heating_energyType
    heating_pumpControlReduction := gives_same g59 h.heating_pumpControlReduction
    heating_hotWaterDemand := gives_same g60 h.heating_hotWaterDemand
    heating_hotWaterDistributionEfficiency := gives_same g61 h.heating_hotWaterDistributionEfficiency
    heating_hotWaterSystemEfficiency := gives_same g62 h.heating_hotWaterSystemEfficiency
    heating_hotWaterEnergyType := chooses_same g63 h.heating_hotWaterEnergyType
    heating_hotcoldWasteFactor := gives_same g64 h.heating_hotcoldWasteFactor
    heating_forcedAirHeating := boolean_same g65 h.heating_forcedAirHeating
    heating_dT_supp_ht := givesOr_same g66 h.heating_dT_supp_ht
    heating_E_pumps := givesOr_same g67 h.heating_E_pumps
    heating_T_ht_ctrl_flag := givesOr_same g68 h.heating_T_ht_ctrl_flag
    heating_a_H0 := givesOr_same g69 h.heating_a_H0
    heating_tau_H0 := givesOr_same g70 h.heating_tau_H0
    heating_DH_YesNo := givesOr_same g71 h.heating_DH_YesNo
    heating_eta_DH_network := givesOr_same g72 h.heating_eta_DH_network
    heating_eta_DH_sys := givesOr_same g73 h.heating_eta_DH_sys
    heating_frac_DH_free := givesOr_same g74 h.heating_frac_DH_free
    heating_dhw_tset := givesOr_same g75 h.heating_dhw_tset
    heating_dhw_tsupply := givesOr_same g76 h.heating_dhw_tsupply
    cooling_temperatureSetPointOccupied := gives_same g77 h.cooling_temperatureSetPointOccupied
    cooling_temperatureSetPointUnoccupied := gives_same g78 h.cooling_temperatureSetPointUnoccupied
    cooling_cop := gives_same g79 h.cooling_cop
    cooling_partialLoadValue := gives_same g80 h.cooling_partialLoadValue
    cooling_hvacLossFactor := gives_same g81 h.cooling_hvacLossFactor
    cooling_pumpControlReduction := gives_same g82 h.cooling_pumpControlReduction
    cooling_forcedAirCooling := boolean_same g83 h.cooling_forcedAirCooling
    cooling_T_cl_ctrl_flag := givesOr_same g84 h.cooling_T_cl_ctrl_flag
    cooling_dT_supp_cl := givesOr_same g85 h.cooling_dT_supp_cl
    cooling_DC_YesNo := givesOr_same g86 h.cooling_DC_YesNo
    cooling_eta_DC_network := givesOr_same g87 h.cooling_eta_DC_network
    cooling_eta_DC_COP := givesOr_same g88 h.cooling_eta_DC_COP
    cooling_eta_DC_frac_abs := givesOr_same g89 h.cooling_eta_DC_frac_abs
    cooling_eta_DC_COP_abs := givesOr_same g90 h.cooling_eta_DC_COP_abs
    cooling_frac_DC_free := givesOr_same g91 h.cooling_frac_DC_free
    cooling_E_pumps := givesOr_same g92 h.cooling_E_pumps
    ventilation_supplyRate := gives_same g93 h.ventilation_supplyRate
    ventilation_supplyDifference := gives_same g94 h.ventilation_supplyDifference
    ventilation_heatRecoveryEfficiency := hv
    ventilation_exhaustAirRecirculated := gives_same g95 h.ventilation_exhaustAirRecirculated
    ventilation_ventType := chooses_same g96 h.ventilation_ventType
    ventilation_fanPower := gives_same g97 h.ventilation_fanPower
    ventilation_fanControlFactor := gives_same g98 h.ventilation_fanControlFactor
    ventilation_ventPreheatDegC := givesOr_same g99 h.ventilation_ventPreheatDegC
    ventilation_n50 := givesOr_same g100 h.ventilation_n50
    ventilation_hzone := givesOr_same g101 h.ventilation_hzone
    ventilation_p_exp := givesOr_same g102 h.ventilation_p_exp
    ventilation_zone_frac := givesOr_same g103 h.ventilation_zone_frac
    ventilation_stack_exp := givesOr_same g104 h.ventilation_stack_exp
    ventilation_stack_coeff := givesOr_same g105 h.ventilation_stack_coeff
    ventilation_wind_exp := givesOr_same g106 h.ventilation_wind_exp
    ventilation_wind_coeff := givesOr_same g107 h.ventilation_wind_coeff
    ventilation_dCp := givesOr_same g108 h.ventilation_dCp
    ventilation_vent_rate_flag := integer_same g109 h.ventilation_vent_rate_flag
    ventilation_H_ve := givesOr_same g110 h.ventilation_H_ve
    phys_rhoCpAir := givesOr_same g111 h.phys_rhoCpAir
    phys_rhoCpWater := givesOr_same g112 h.phys_rhoCpWater
    simSettings_phiIntFractionToAirNode := givesOr_same g113 h.simSettings_phiIntFractionToAirNode
    simSettings_phiSolFractionToAirNode := givesOr_same g114 h.simSettings_phiSolFractionToAirNode
    simSettings_hci := givesOr_same g115 h.simSettings_hci
    simSettings_hri := givesOr_same g116 h.simSettings_hri
    terrain := gives_same g117 h.terrain
  }

/-- other set-points for heating -/
theorem described_setpoints {x : Sim ℝ} (h : Describes file x) (he : Edited ["heatingsetpointoccupied", "heatingsetpointunoccupied"] file file') {e e' : ℝ} (hv : Gives file' "heatingsetpointoccupied" e)
    (hv' : Gives file' "heatingsetpointunoccupied" e') :
    Describes file' { x with heating := { x.heating with temperatureSetPointOccupied := e, temperatureSetPointUnoccupied := e' } } := by
  have g : ∀ n ∈ keys, n ∉ ["heatingsetpointoccupied", "heatingsetpointunoccupied"] → Param.given file' n = Param.given file n := fun n hk hn => same_given he ⟨keys_known n hk, hn⟩
  simp only [keys, List.forall_mem_cons, List.not_mem_nil, IsEmpty.forall_iff, implies_true, and_true] at g
  simp only [List.mem_cons, List.not_mem_nil, or_false, or_true, or_self, String.reduceEq, not_false_eq_true, not_true_eq_false, forall_true_left,
    IsEmpty.forall_iff, true_and] at g
  obtain ⟨g0, g1, g2, g3, g4, g5, g6, g7, g8, g9, g10, g11, g12, g13, g14, g15, g16, g17, g18, g19, g20, g21, g22, g23, g24, g25, g26, g27, g28, g29, g30, g31, g32, g33, g34, g35, g36, g37, g38, g39, g40, g41, g42, g43, g44, g45, g46, g47, g48, g49, g50, g51, g52, g53, g54, g55, g56, g57, g58, g59, g60, g61, g62, g63, g64, g65, g66, g67, g68, g69, g70, g71, g72, g73, g74, g75, g76, g77, g78, g79, g80, g81, g82, g83, g84, g85, g86, g87, g88, g89, g90, g91, g92, g93, g94, g95, g96, g97, g98, g99, g100, g101, g102, g103, g104, g105, g106, g107, g108, g109, g110, g111, g112, g113, g114, g115, g116⟩ := g
  exact {
    pop_hoursEnd := gives_same g0 h.pop_hoursEnd
    pop_hoursStart := gives_same g1 h.pop_hoursStart
    pop_daysEnd := gives_same g2 h.pop_daysEnd
    pop_daysStart := gives_same g3 h.pop_daysStart
    pop_densityOccupied := gives_same g4 h.pop_densityOccupied
    pop_densityUnoccupied := gives_same g5 h.pop_densityUnoccupied
    pop_heatGainPerPerson := gives_same g6 h.pop_heatGainPerPerson
    lights_powerDensityOccupied := gives_same g7 h.lights_powerDensityOccupied
    lights_powerDensityUnoccupied := gives_same g8 h.lights_powerDensityUnoccupied
    lights_dimmingFraction := gives_same g9 h.lights_dimmingFraction
    lights_exteriorEnergy := gives_same g10 h.lights_exteriorEnergy
    lights_n_day_start := givesOr_same g11 h.lights_n_day_start
    lights_n_day_end := givesOr_same g12 h.lights_n_day_end
    lights_n_weeks := givesOr_same g13 h.lights_n_weeks
    lights_elecInternalGains := givesOr_same g14 h.lights_elecInternalGains
    lights_permLightPowerDensity := givesOr_same g15 h.lights_permLightPowerDensity
    lights_presenceSensorAd := givesOr_same g16 h.lights_presenceSensorAd
    lights_automaticAd := givesOr_same g17 h.lights_automaticAd
    lights_presenceAutoAd := givesOr_same g18 h.lights_presenceAutoAd
    lights_manualSwitchAd := givesOr_same g19 h.lights_manualSwitchAd
    lights_presenceSensorLux := givesOr_same g20 h.lights_presenceSensorLux
    lights_automaticLux := givesOr_same g21 h.lights_automaticLux
    lights_presenceAutoLux := givesOr_same g22 h.lights_presenceAutoLux
    lights_manualSwitchLux := givesOr_same g23 h.lights_manualSwitchLux
    lights_naturallyLightedArea := givesOr_same g24 h.lights_naturallyLightedArea
    building_lightingOccupancySensor := gives_same g25 h.building_lightingOccupancySensor
    building_constantIllumination := gives_same g26 h.building_constantIllumination
    building_electricApplianceHeatGainOccupied := gives_same g27 h.building_electricApplianceHeatGainOccupied
    building_electricApplianceHeatGainUnoccupied := gives_same g28 h.building_electricApplianceHeatGainUnoccupied
    building_gasApplianceHeatGainOccupied := gives_same g29 h.building_gasApplianceHeatGainOccupied
    building_gasApplianceHeatGainUnoccupied := gives_same g30 h.building_gasApplianceHeatGainUnoccupied
    building_buildingEnergyManagement := chooses_same g31 h.building_buildingEnergyManagement
    building_externalEquipment := givesOr_same g32 h.building_externalEquipment
    bldg_floorArea := gives_same g33 h.bldg_floorArea
    bldg_wallArea := givesAll_same g34 h.bldg_wallArea
    bldg_windowArea := givesAll_same g35 h.bldg_windowArea
    bldg_wallUniform := givesAll_same g36 h.bldg_wallUniform
    bldg_windowUniform := givesAll_same g37 h.bldg_windowUniform
    bldg_wallThermalEmissivity := givesAll_same g38 h.bldg_wallThermalEmissivity
    bldg_wallSolarAbsorption := givesAll_same g39 h.bldg_wallSolarAbsorption
    bldg_windowShadingDevice := givesAll_same g40 h.bldg_windowShadingDevice
    bldg_windowNormalIncidenceSolarEnergyTransmittance := givesAll_same g41 h.bldg_windowNormalIncidenceSolarEnergyTransmittance
    bldg_windowShadingCorrectionFactor := givesAll_same g42 h.bldg_windowShadingCorrectionFactor
    bldg_interiorHeatCapacity := gives_same g43 h.bldg_interiorHeatCapacity
    bldg_wallHeatCapacity := gives_same g44 h.bldg_wallHeatCapacity
    bldg_buildingHeight := gives_same g45 h.bldg_buildingHeight
    bldg_infiltrationRate := gives_same g46 h.bldg_infiltrationRate
    bldg_R_se := givesOr_same g47 h.bldg_R_se
    bldg_irradianceForMaxShadingUse := givesOr_same g48 h.bldg_irradianceForMaxShadingUse
    bldg_shadingFactorAtMaxUse := givesOr_same g49 h.bldg_shadingFactorAtMaxUse
    bldg_totalAreaPerFloorArea := givesOr_same g50 h.bldg_totalAreaPerFloorArea
    bldg_win_ff := givesOr_same g51 h.bldg_win_ff
    bldg_win_F_W := givesOr_same g52 h.bldg_win_F_W
    bldg_R_sc_ext := givesOr_same g53 h.bldg_R_sc_ext
    heating_temperatureSetPointOccupied := hv
    heating_temperatureSetPointUnoccupied := hv'
    heating_hvacLossFactor := gives_same g54 h.heating_hvacLossFactor
    heating_efficiency := gives_same g55 h.heating_efficiency
    heating_energyType := chooses_same g56 h.heating_energyType
    heating_pumpControlReduction := gives_same g57 h.heating_pumpControlReduction
    heating_hotWaterDemand := gives_same g58 h.heating_hotWaterDemand
    heating_hotWaterDistributionEfficiency := gives_same g59 h.heating_hotWaterDistributionEfficiency
    heating_hotWaterSystemEfficiency := gives_same g60 h.heating_hotWaterSystemEfficiency
    heating_hotWaterEnergyType := chooses_same g61 h.heating_hotWaterEnergyType
    heating_hotcoldWasteFactor := gives_same g62 h.heating_hotcoldWasteFactor
    heating_forcedAirHeating := boolean_same g63 h.heating_forcedAirHeating
    heating_dT_supp_ht := givesOr_same g64 h.heating_dT_supp_ht
    heating_E_pumps := givesOr_same g65 h.heating_E_pumps
    heating_T_ht_ctrl_flag := givesOr_same g66 h.heating_T_ht_ctrl_flag
    heating_a_H0 := givesOr_same g67 h.heating_a_H0
    heating_tau_H0 := givesOr_same g68 h.heating_tau_H0
    heating_DH_YesNo := givesOr_same g69 h.heating_DH_YesNo
    heating_eta_DH_network := givesOr_same g70 h.heating_eta_DH_network
    heating_eta_DH_sys := givesOr_same g71 h.heating_eta_DH_sys
    heating_frac_DH_free := givesOr_same g72 h.heating_frac_DH_free
    heating_dhw_tset := givesOr_same g73 h.heating_dhw_tset
    heating_dhw_tsupply := givesOr_same g74 h.heating_dhw_tsupply
    cooling_temperatureSetPointOccupied := gives_same g75 h.cooling_temperatureSetPointOccupied
    cooling_temperatureSetPointUnoccupied := gives_same g76 h.cooling_temperatureSetPointUnoccupied
    cooling_cop := gives_same g77 h.cooling_cop
    cooling_partialLoadValue := gives_same g78 h.cooling_partialLoadValue
    cooling_hvacLossFactor := gives_same g79 h.cooling_hvacLossFactor
    cooling_pumpControlReduction := gives_same g80 h.cooling_pumpControlReduction
    cooling_forcedAirCooling := boolean_same g81 h.cooling_forcedAirCooling
    cooling_T_cl_ctrl_flag := givesOr_same g82 h.cooling_T_cl_ctrl_flag
    cooling_dT_supp_cl := givesOr_same g83 h.cooling_dT_supp_cl
    cooling_DC_YesNo := givesOr_same g84 h.cooling_DC_YesNo
    cooling_eta_DC_network := givesOr_same g85 h.cooling_eta_DC_network
    cooling_eta_DC_COP := givesOr_same g86 h.cooling_eta_DC_COP
    cooling_eta_DC_frac_abs := givesOr_same g87 h.cooling_eta_DC_frac_abs
    cooling_eta_DC_COP_abs := givesOr_same g88 h.cooling_eta_DC_COP_abs
    cooling_frac_DC_free := givesOr_same g89 h.cooling_frac_DC_free
    cooling_E_pumps := givesOr_same g90 h.cooling_E_pumps
    ventilation_supplyRate := gives_same g91 h.ventilation_supplyRate
    ventilation_supplyDifference := gives_same g92 h.ventilation_supplyDifference
    ventilation_heatRecoveryEfficiency := gives_same g93 h.ventilation_heatRecoveryEfficiency
    ventilation_exhaustAirRecirculated := gives_same g94 h.ventilation_exhaustAirRecirculated
    ventilation_ventType := chooses_same g95 h.ventilation_ventType
    ventilation_fanPower := gives_same g96 h.ventilation_fanPower
    ventilation_fanControlFactor := gives_same g97 h.ventilation_fanControlFactor
    ventilation_ventPreheatDegC := givesOr_same g98 h.ventilation_ventPreheatDegC
    ventilation_n50 := givesOr_same g99 h.ventilation_n50
    ventilation_hzone := givesOr_same g100 h.ventilation_hzone
    ventilation_p_exp := givesOr_same g101 h.ventilation_p_exp
    ventilation_zone_frac := givesOr_same g102 h.ventilation_zone_frac
    ventilation_stack_exp := givesOr_same g103 h.ventilation_stack_exp
    ventilation_stack_coeff := givesOr_same g104 h.ventilation_stack_coeff
    ventilation_wind_exp := givesOr_same g105 h.ventilation_wind_exp
    ventilation_wind_coeff := givesOr_same g106 h.ventilation_wind_coeff
    ventilation_dCp := givesOr_same g107 h.ventilation_dCp
    ventilation_vent_rate_flag := integer_same g108 h.ventilation_vent_rate_flag
    ventilation_H_ve := givesOr_same g109 h.ventilation_H_ve
    phys_rhoCpAir := givesOr_same g110 h.phys_rhoCpAir
    phys_rhoCpWater := givesOr_same g111 h.phys_rhoCpWater
    simSettings_phiIntFractionToAirNode := givesOr_same g112 h.simSettings_phiIntFractionToAirNode
    simSettings_phiSolFractionToAirNode := givesOr_same g113 h.simSettings_phiSolFractionToAirNode
    simSettings_hci := givesOr_same g114 h.simSettings_hci
    simSettings_hri := givesOr_same g115 h.simSettings_hri
    terrain := gives_same g116 h.terrain
  }

/-- other set-points for cooling -/
theorem described_coolpoints {x : Sim ℝ} (h : Describes file x) (he : Edited ["coolingsetpointoccupied", "coolingsetpointunoccupied"] file file') {e e' : ℝ} (hv : Gives file' "coolingsetpointoccupied" e)
    (hv' : Gives file' "coolingsetpointunoccupied" e') :
    Describes file' { x with cooling := { x.cooling with temperatureSetPointOccupied := e, temperatureSetPointUnoccupied := e' } } := by
  have g : ∀ n ∈ keys, n ∉ ["coolingsetpointoccupied", "coolingsetpointunoccupied"] → Param.given file' n = Param.given file n := fun n hk hn => same_given he ⟨keys_known n hk, hn⟩
  simp only [keys, List.forall_mem_cons, List.not_mem_nil, IsEmpty.forall_iff, implies_true, and_true] at g
  simp only [List.mem_cons, List.not_mem_nil, or_false, or_true, or_self, String.reduceEq, not_false_eq_true, not_true_eq_false, forall_true_left,
    IsEmpty.forall_iff, true_and] at g
  obtain ⟨g0, g1, g2, g3, g4, g5, g6, g7, g8, g9, g10, g11, g12, g13, g14, g15, g16, g17, g18, g19, g20, g21, g22, g23, g24, g25, g26, g27, g28, g29, g30, g31, g32, g33, g34, g35, g36, g37, g38, g39, g40, g41, g42, g43, g44, g45, g46, g47, g48, g49, g50, g51, g52, g53, g54, g55, g56, g57, g58, g59, g60, g61, g62, g63, g64, g65, g66, g67, g68, g69, g70, g71, g72, g73, g74, g75, g76, g77, g78, g79, g80, g81, g82, g83, g84, g85, g86, g87, g88, g89, g90, g91, g92, g93, g94, g95, g96, g97, g98, g99, g100, g101, g102, g103, g104, g105, g106, g107, g108, g109, g110, g111, g112, g113, g114, g115, g116⟩ := g
  exact {
    pop_hoursEnd := gives_same g0 h.pop_hoursEnd
    pop_hoursStart := gives_same g1 h.pop_hoursStart
    pop_daysEnd := gives_same g2 h.pop_daysEnd
    pop_daysStart := gives_same g3 h.pop_daysStart
    pop_densityOccupied := gives_same g4 h.pop_densityOccupied
    pop_densityUnoccupied := gives_same g5 h.pop_densityUnoccupied
    pop_heatGainPerPerson := gives_same g6 h.pop_heatGainPerPerson
    lights_powerDensityOccupied := gives_same g7 h.lights_powerDensityOccupied
    lights_powerDensityUnoccupied := gives_same g8 h.lights_powerDensityUnoccupied
    lights_dimmingFraction := gives_same g9 h.lights_dimmingFraction
    lights_exteriorEnergy := gives_same g10 h.lights_exteriorEnergy
    lights_n_day_start := givesOr_same g11 h.lights_n_day_start
    lights_n_day_end := givesOr_same g12 h.lights_n_day_end
    lights_n_weeks := givesOr_same g13 h.lights_n_weeks
    lights_elecInternalGains := givesOr_same g14 h.lights_elecInternalGains
    lights_permLightPowerDensity := givesOr_same g15 h.lights_permLightPowerDensity
    lights_presenceSensorAd := givesOr_same g16 h.lights_presenceSensorAd
    lights_automaticAd := givesOr_same g17 h.lights_automaticAd
    lights_presenceAutoAd := givesOr_same g18 h.lights_presenceAutoAd
    lights_manualSwitchAd := givesOr_same g19 h.lights_manualSwitchAd
    lights_presenceSensorLux := givesOr_same g20 h.lights_presenceSensorLux
    lights_automaticLux := givesOr_same g21 h.lights_automaticLux
    lights_presenceAutoLux := givesOr_same g22 h.lights_presenceAutoLux
    lights_manualSwitchLux := givesOr_same g23 h.lights_manualSwitchLux
    lights_naturallyLightedArea := givesOr_same g24 h.lights_naturallyLightedArea
    building_lightingOccupancySensor := gives_same g25 h.building_lightingOccupancySensor
    building_constantIllumination := gives_same g26 h.building_constantIllumination
    building_electricApplianceHeatGainOccupied := gives_same g27 h.building_electricApplianceHeatGainOccupied
    building_electricApplianceHeatGainUnoccupied := gives_same g28 h.building_electricApplianceHeatGainUnoccupied
    building_gasApplianceHeatGainOccupied := gives_same g29 h.building_gasApplianceHeatGainOccupied
    building_gasApplianceHeatGainUnoccupied := gives_same g30 h.building_gasApplianceHeatGainUnoccupied
    building_buildingEnergyManagement := chooses_same g31 h.building_buildingEnergyManagement
    building_externalEquipment := givesOr_same g32 h.building_externalEquipment
    bldg_floorArea := gives_same g33 h.bldg_floorArea
    bldg_wallArea := givesAll_same g34 h.bldg_wallArea
    bldg_windowArea := givesAll_same g35 h.bldg_windowArea
    bldg_wallUniform := givesAll_same g36 h.bldg_wallUniform
    bldg_windowUniform := givesAll_same g37 h.bldg_windowUniform
    bldg_wallThermalEmissivity := givesAll_same g38 h.bldg_wallThermalEmissivity
    bldg_wallSolarAbsorption := givesAll_same g39 h.bldg_wallSolarAbsorption
    bldg_windowShadingDevice := givesAll_same g40 h.bldg_windowShadingDevice
    bldg_windowNormalIncidenceSolarEnergyTransmittance := givesAll_same g41 h.bldg_windowNormalIncidenceSolarEnergyTransmittance
    bldg_windowShadingCorrectionFactor := givesAll_same g42 h.bldg_windowShadingCorrectionFactor
    bldg_interiorHeatCapacity := gives_same g43 h.bldg_interiorHeatCapacity
    bldg_wallHeatCapacity := gives_same g44 h.bldg_wallHeatCapacity
    bldg_buildingHeight := gives_same g45 h.bldg_buildingHeight
    bldg_infiltrationRate := gives_same g46 h.bldg_infiltrationRate
    bldg_R_se := givesOr_same g47 h.bldg_R_se
    bldg_irradianceForMaxShadingUse := givesOr_same g48 h.bldg_irradianceForMaxShadingUse
    bldg_shadingFactorAtMaxUse := givesOr_same g49 h.bldg_shadingFactorAtMaxUse
    bldg_totalAreaPerFloorArea := givesOr_same g50 h.bldg_totalAreaPerFloorArea
    bldg_win_ff := givesOr_same g51 h.bldg_win_ff
    bldg_win_F_W := givesOr_same g52 h.bldg_win_F_W
    bldg_R_sc_ext := givesOr_same g53 h.bldg_R_sc_ext
    heating_temperatureSetPointOccupied := gives_same g54 h.heating_temperatureSetPointOccupied
    heating_temperatureSetPointUnoccupied := gives_same g55 h.heating_temperatureSetPointUnoccupied
    heating_hvacLossFactor := gives_same g56 h.heating_hvacLossFactor
    heating_efficiency := gives_same g57 h.heating_efficiency
    heating_energyType := chooses_same g58 h.heating_energyType
    heating_pumpControlReduction := gives_same g59 h.heating_pumpControlReduction
    heating_hotWaterDemand := gives_same g60 h.heating_hotWaterDemand
    heating_hotWaterDistributionEfficiency := gives_same g61 h.heating_hotWaterDistributionEfficiency
    heating_hotWaterSystemEfficiency := gives_same g62 h.heating_hotWaterSystemEfficiency
    heating_hotWaterEnergyType := chooses_same g63 h.heating_hotWaterEnergyType
    heating_hotcoldWasteFactor := gives_same g64 h.heating_hotcoldWasteFactor
    heating_forcedAirHeating := boolean_same g65 h.heating_forcedAirHeating
    heating_dT_supp_ht := givesOr_same g66 h.heating_dT_supp_ht
    heating_E_pumps := givesOr_same g67 h.heating_E_pumps
    heating_T_ht_ctrl_flag := givesOr_same g68 h.heating_T_ht_ctrl_flag
    heating_a_H0 := givesOr_same g69 h.heating_a_H0
    heating_tau_H0 := givesOr_same g70 h.heating_tau_H0
    heating_DH_YesNo := givesOr_same g71 h.heating_DH_YesNo
    heating_eta_DH_network := givesOr_same g72 h.heating_eta_DH_network
    heating_eta_DH_sys := givesOr_same g73 h.heating_eta_DH_sys
    heating_frac_DH_free := givesOr_same g74 h.heating_frac_DH_free
    heating_dhw_tset := givesOr_same g75 h.heating_dhw_tset
    heating_dhw_tsupply := givesOr_same g76 h.heating_dhw_tsupply
    cooling_temperatureSetPointOccupied := hv
    cooling_temperatureSetPointUnoccupied := hv'
    cooling_cop := gives_same g77 h.cooling_cop
    cooling_partialLoadValue := gives_same g78 h.cooling_partialLoadValue
    cooling_hvacLossFactor := gives_same g79 h.cooling_hvacLossFactor
    cooling_pumpControlReduction := gives_same g80 h.cooling_pumpControlReduction
    cooling_forcedAirCooling := boolean_same g81 h.cooling_forcedAirCooling
    cooling_T_cl_ctrl_flag := givesOr_same g82 h.cooling_T_cl_ctrl_flag
    cooling_dT_supp_cl := givesOr_same g83 h.cooling_dT_supp_cl
    cooling_DC_YesNo := givesOr_same g84 h.cooling_DC_YesNo
    cooling_eta_DC_network := givesOr_same g85 h.cooling_eta_DC_network
    cooling_eta_DC_COP := givesOr_same g86 h.cooling_eta_DC_COP
    cooling_eta_DC_frac_abs := givesOr_same g87 h.cooling_eta_DC_frac_abs
    cooling_eta_DC_COP_abs := givesOr_same g88 h.cooling_eta_DC_COP_abs
    cooling_frac_DC_free := givesOr_same g89 h.cooling_frac_DC_free
    cooling_E_pumps := givesOr_same g90 h.cooling_E_pumps
    ventilation_supplyRate := gives_same g91 h.ventilation_supplyRate
    ventilation_supplyDifference := gives_same g92 h.ventilation_supplyDifference
    ventilation_heatRecoveryEfficiency := gives_same g93 h.ventilation_heatRecoveryEfficiency
    ventilation_exhaustAirRecirculated := gives_same g94 h.ventilation_exhaustAirRecirculated
    ventilation_ventType := chooses_same g95 h.ventilation_ventType
    ventilation_fanPower := gives_same g96 h.ventilation_fanPower
    ventilation_fanControlFactor := gives_same g97 h.ventilation_fanControlFactor
    ventilation_ventPreheatDegC := givesOr_same g98 h.ventilation_ventPreheatDegC
    ventilation_n50 := givesOr_same g99 h.ventilation_n50
    ventilation_hzone := givesOr_same g100 h.ventilation_hzone
    ventilation_p_exp := givesOr_same g101 h.ventilation_p_exp
    ventilation_zone_frac := givesOr_same g102 h.ventilation_zone_frac
    ventilation_stack_exp := givesOr_same g103 h.ventilation_stack_exp
    ventilation_stack_coeff := givesOr_same g104 h.ventilation_stack_coeff
    ventilation_wind_exp := givesOr_same g105 h.ventilation_wind_exp
    ventilation_wind_coeff := givesOr_same g106 h.ventilation_wind_coeff
    ventilation_dCp := givesOr_same g107 h.ventilation_dCp
    ventilation_vent_rate_flag := integer_same g108 h.ventilation_vent_rate_flag
    ventilation_H_ve := givesOr_same g109 h.ventilation_H_ve
    phys_rhoCpAir := givesOr_same g110 h.phys_rhoCpAir
    phys_rhoCpWater := givesOr_same g111 h.phys_rhoCpWater
    simSettings_phiIntFractionToAirNode := givesOr_same g112 h.simSettings_phiIntFractionToAirNode
    simSettings_phiSolFractionToAirNode := givesOr_same g113 h.simSettings_phiSolFractionToAirNode
    simSettings_hci := givesOr_same g114 h.simSettings_hci
    simSettings_hri := givesOr_same g115 h.simSettings_hri
    terrain := gives_same g116 h.terrain
  }

/-- other appliances -/
theorem described_appliances {x : Sim ℝ} (h : Describes file x) (he : Edited ["electricappliancepowerdensityoccupied", "electricappliancepowerdensityunoccupied"] file file') {e e' : ℝ} (hv : Gives file' "electricappliancepowerdensityoccupied" e)
    (hv' : Gives file' "electricappliancepowerdensityunoccupied" e') :
    Describes file' { x with building := { x.building with electricApplianceHeatGainOccupied := e, electricApplianceHeatGainUnoccupied := e' } } := by
  have g : ∀ n ∈ keys, n ∉ ["electricappliancepowerdensityoccupied", "electricappliancepowerdensityunoccupied"] → Param.given file' n = Param.given file n := fun n hk hn => same_given he ⟨keys_known n hk, hn⟩
  simp only [keys, List.forall_mem_cons, List.not_mem_nil, IsEmpty.forall_iff, implies_true, and_true] at g
  simp only [List.mem_cons, List.not_mem_nil, or_false, or_true, or_self, String.reduceEq, not_false_eq_true, not_true_eq_false, forall_true_left,
    IsEmpty.forall_iff, true_and] at g
  obtain ⟨g0, g1, g2, g3, g4, g5, g6, g7, g8, g9, g10, g11, g12, g13, g14, g15, g16, g17, g18, g19, g20, g21, g22, g23, g24, g25, g26, g27, g28, g29, g30, g31, g32, g33, g34, g35, g36, g37, g38, g39, g40, g41, g42, g43, g44, g45, g46, g47, g48, g49, g50, g51, g52, g53, g54, g55, g56, g57, g58, g59, g60, g61, g62, g63, g64, g65, g66, g67, g68, g69, g70, g71, g72, g73, g74, g75, g76, g77, g78, g79, g80, g81, g82, g83, g84, g85, g86, g87, g88, g89, g90, g91, g92, g93, g94, g95, g96, g97, g98, g99, g100, g101, g102, g103, g104, g105, g106, g107, g108, g109, g110, g111, g112, g113, g114, g115, g116⟩ := g
  exact {
    pop_hoursEnd := gives_same g0 h.pop_hoursEnd
    pop_hoursStart := gives_same g1 h.pop_hoursStart
    pop_daysEnd := gives_same g2 h.pop_daysEnd
    pop_daysStart := gives_same g3 h.pop_daysStart
    pop_densityOccupied := gives_same g4 h.pop_densityOccupied
    pop_densityUnoccupied := gives_same g5 h.pop_densityUnoccupied
    pop_heatGainPerPerson := gives_same g6 h.pop_heatGainPerPerson
    lights_powerDensityOccupied := gives_same g7 h.lights_powerDensityOccupied
    lights_powerDensityUnoccupied := gives_same g8 h.lights_powerDensityUnoccupied
    lights_dimmingFraction := gives_same g9 h.lights_dimmingFraction
    lights_exteriorEnergy := gives_same g10 h.lights_exteriorEnergy
    lights_n_day_start := givesOr_same g11 h.lights_n_day_start
    lights_n_day_end := givesOr_same g12 h.lights_n_day_end
    lights_n_weeks := givesOr_same g13 h.lights_n_weeks
    lights_elecInternalGains := givesOr_same g14 h.lights_elecInternalGains
    lights_permLightPowerDensity := givesOr_same g15 h.lights_permLightPowerDensity
    lights_presenceSensorAd := givesOr_same g16 h.lights_presenceSensorAd
    lights_automaticAd := givesOr_same g17 h.lights_automaticAd
    lights_presenceAutoAd := givesOr_same g18 h.lights_presenceAutoAd
    lights_manualSwitchAd := givesOr_same g19 h.lights_manualSwitchAd
    lights_presenceSensorLux := givesOr_same g20 h.lights_presenceSensorLux
    lights_automaticLux := givesOr_same g21 h.lights_automaticLux
    lights_presenceAutoLux := givesOr_same g22 h.lights_presenceAutoLux
    lights_manualSwitchLux := givesOr_same g23 h.lights_manualSwitchLux
    lights_naturallyLightedArea := givesOr_same g24 h.lights_naturallyLightedArea
    building_lightingOccupancySensor := gives_same g25 h.building_lightingOccupancySensor
    building_constantIllumination := gives_same g26 h.building_constantIllumination
    building_electricApplianceHeatGainOccupied := hv
    building_electricApplianceHeatGainUnoccupied := hv'
    building_gasApplianceHeatGainOccupied := gives_same g27 h.building_gasApplianceHeatGainOccupied
    building_gasApplianceHeatGainUnoccupied := gives_same g28 h.building_gasApplianceHeatGainUnoccupied
    building_buildingEnergyManagement := chooses_same g29 h.building_buildingEnergyManagement
    building_externalEquipment := givesOr_same g30 h.building_externalEquipment
    bldg_floorArea := gives_same g31 h.bldg_floorArea
    bldg_wallArea := givesAll_same g32 h.bldg_wallArea
    bldg_windowArea := givesAll_same g33 h.bldg_windowArea
    bldg_wallUniform := givesAll_same g34 h.bldg_wallUniform
    bldg_windowUniform := givesAll_same g35 h.bldg_windowUniform
    bldg_wallThermalEmissivity := givesAll_same g36 h.bldg_wallThermalEmissivity
    bldg_wallSolarAbsorption := givesAll_same g37 h.bldg_wallSolarAbsorption
    bldg_windowShadingDevice := givesAll_same g38 h.bldg_windowShadingDevice
    bldg_windowNormalIncidenceSolarEnergyTransmittance := givesAll_same g39 h.bldg_windowNormalIncidenceSolarEnergyTransmittance
    bldg_windowShadingCorrectionFactor := givesAll_same g40 h.bldg_windowShadingCorrectionFactor
    bldg_interiorHeatCapacity := gives_same g41 h.bldg_interiorHeatCapacity
    bldg_wallHeatCapacity := gives_same g42 h.bldg_wallHeatCapacity
    bldg_buildingHeight := gives_same g43 h.bldg_buildingHeight
    bldg_infiltrationRate := gives_same g44 h.bldg_infiltrationRate
    bldg_R_se := givesOr_same g45 h.bldg_R_se
    bldg_irradianceForMaxShadingUse := givesOr_same g46 h.bldg_irradianceForMaxShadingUse
    bldg_shadingFactorAtMaxUse := givesOr_same g47 h.bldg_shadingFactorAtMaxUse
    bldg_totalAreaPerFloorArea := givesOr_same g48 h.bldg_totalAreaPerFloorArea
    bldg_win_ff := givesOr_same g49 h.bldg_win_ff
    bldg_win_F_W := givesOr_same g50 h.bldg_win_F_W
    bldg_R_sc_ext := givesOr_same g51 h.bldg_R_sc_ext
    heating_temperatureSetPointOccupied := gives_same g52 h.heating_temperatureSetPointOccupied
    heating_temperatureSetPointUnoccupied := gives_same g53 h.heating_temperatureSetPointUnoccupied
    heating_hvacLossFactor := gives_same g54 h.heating_hvacLossFactor
    heating_efficiency := gives_same g55 h.heating_efficiency
    heating_energyType := chooses_same g56 h.heating_energyType
    heating_pumpControlReduction := gives_same g57 h.heating_pumpControlReduction
    heating_hotWaterDemand := gives_same g58 h.heating_hotWaterDemand
    heating_hotWaterDistributionEfficiency := gives_same g59 h.heating_hotWaterDistributionEfficiency
    heating_hotWaterSystemEfficiency := gives_same g60 h.heating_hotWaterSystemEfficiency
    heating_hotWaterEnergyType := chooses_same g61 h.heating_hotWaterEnergyType
    heating_hotcoldWasteFactor := gives_same g62 h.heating_hotcoldWasteFactor
    heating_forcedAirHeating := boolean_same g63 h.heating_forcedAirHeating
    heating_dT_supp_ht := givesOr_same g64 h.heating_dT_supp_ht
    heating_E_pumps := givesOr_same g65 h.heating_E_pumps
    heating_T_ht_ctrl_flag := givesOr_same g66 h.heating_T_ht_ctrl_flag
    heating_a_H0 := givesOr_same g67 h.heating_a_H0
    heating_tau_H0 := givesOr_same g68 h.heating_tau_H0
    heating_DH_YesNo := givesOr_same g69 h.heating_DH_YesNo
    heating_eta_DH_network := givesOr_same g70 h.heating_eta_DH_network
    heating_eta_DH_sys := givesOr_same g71 h.heating_eta_DH_sys
    heating_frac_DH_free := givesOr_same g72 h.heating_frac_DH_free
    heating_dhw_tset := givesOr_same g73 h.heating_dhw_tset
    heating_dhw_tsupply := givesOr_same g74 h.heating_dhw_tsupply
    cooling_temperatureSetPointOccupied := gives_same g75 h.cooling_temperatureSetPointOccupied
    cooling_temperatureSetPointUnoccupied := gives_same g76 h.cooling_temperatureSetPointUnoccupied
    cooling_cop := gives_same g77 h.cooling_cop
    cooling_partialLoadValue := gives_same g78 h.cooling_partialLoadValue
    cooling_hvacLossFactor := gives_same g79 h.cooling_hvacLossFactor
    cooling_pumpControlReduction := gives_same g80 h.cooling_pumpControlReduction
    cooling_forcedAirCooling := boolean_same g81 h.cooling_forcedAirCooling
    cooling_T_cl_ctrl_flag := givesOr_same g82 h.cooling_T_cl_ctrl_flag
    cooling_dT_supp_cl := givesOr_same g83 h.cooling_dT_supp_cl
    cooling_DC_YesNo := givesOr_same g84 h.cooling_DC_YesNo
    cooling_eta_DC_network := givesOr_same g85 h.cooling_eta_DC_network
    cooling_eta_DC_COP := givesOr_same g86 h.cooling_eta_DC_COP
    cooling_eta_DC_frac_abs := givesOr_same g87 h.cooling_eta_DC_frac_abs
    cooling_eta_DC_COP_abs := givesOr_same g88 h.cooling_eta_DC_COP_abs
    cooling_frac_DC_free := givesOr_same g89 h.cooling_frac_DC_free
    cooling_E_pumps := givesOr_same g90 h.cooling_E_pumps
    ventilation_supplyRate := gives_same g91 h.ventilation_supplyRate
    ventilation_supplyDifference := gives_same g92 h.ventilation_supplyDifference
    ventilation_heatRecoveryEfficiency := gives_same g93 h.ventilation_heatRecoveryEfficiency
    ventilation_exhaustAirRecirculated := gives_same g94 h.ventilation_exhaustAirRecirculated
    ventilation_ventType := chooses_same g95 h.ventilation_ventType
    ventilation_fanPower := gives_same g96 h.ventilation_fanPower
    ventilation_fanControlFactor := gives_same g97 h.ventilation_fanControlFactor
    ventilation_ventPreheatDegC := givesOr_same g98 h.ventilation_ventPreheatDegC
    ventilation_n50 := givesOr_same g99 h.ventilation_n50
    ventilation_hzone := givesOr_same g100 h.ventilation_hzone
    ventilation_p_exp := givesOr_same g101 h.ventilation_p_exp
    ventilation_zone_frac := givesOr_same g102 h.ventilation_zone_frac
    ventilation_stack_exp := givesOr_same g103 h.ventilation_stack_exp
    ventilation_stack_coeff := givesOr_same g104 h.ventilation_stack_coeff
    ventilation_wind_exp := givesOr_same g105 h.ventilation_wind_exp
    ventilation_wind_coeff := givesOr_same g106 h.ventilation_wind_coeff
    ventilation_dCp := givesOr_same g107 h.ventilation_dCp
    ventilation_vent_rate_flag := integer_same g108 h.ventilation_vent_rate_flag
    ventilation_H_ve := givesOr_same g109 h.ventilation_H_ve
    phys_rhoCpAir := givesOr_same g110 h.phys_rhoCpAir
    phys_rhoCpWater := givesOr_same g111 h.phys_rhoCpWater
    simSettings_phiIntFractionToAirNode := givesOr_same g112 h.simSettings_phiIntFractionToAirNode
    simSettings_phiSolFractionToAirNode := givesOr_same g113 h.simSettings_phiSolFractionToAirNode
    simSettings_hci := givesOr_same g114 h.simSettings_hci
    simSettings_hri := givesOr_same g115 h.simSettings_hri
    terrain := gives_same g116 h.terrain
  }

/-- other shades -/
theorem described_shades {x : Sim ℝ} (h : Describes file x) (he : Edited ["windowSCF"] file file') {v : Fin 9 → ℝ} (hv : GivesAll file' "windowSCF" v) :
    Describes file' { x with bldg := { x.bldg with windowShadingCorrectionFactor := v } } := by
  have g : ∀ n ∈ keys, n ∉ ["windowSCF"] → Param.given file' n = Param.given file n := fun n hk hn => same_given he ⟨keys_known n hk, hn⟩
  simp only [keys, List.forall_mem_cons, List.not_mem_nil, IsEmpty.forall_iff, implies_true, and_true] at g
  simp only [List.mem_cons, List.not_mem_nil, or_false, or_true, or_self, String.reduceEq, not_false_eq_true, not_true_eq_false, forall_true_left,
    IsEmpty.forall_iff, true_and] at g
  obtain ⟨g0, g1, g2, g3, g4, g5, g6, g7, g8, g9, g10, g11, g12, g13, g14, g15, g16, g17, g18, g19, g20, g21, g22, g23, g24, g25, g26, g27, g28, g29, g30, g31, g32, g33, g34, g35, g36, g37, g38, g39, g40, g41, g42, g43, g44, g45, g46, g47, g48, g49, g50, g51, g52, g53, g54, g55, g56, g57, g58, g59, g60, g61, g62, g63, g64, g65, g66, g67, g68, g69, g70, g71, g72, g73, g74, g75, g76, g77, g78, g79, g80, g81, g82, g83, g84, g85, g86, g87, g88, g89, g90, g91, g92, g93, g94, g95, g96, g97, g98, g99, g100, g101, g102, g103, g104, g105, g106, g107, g108, g109, g110, g111, g112, g113, g114, g115, g116, g117⟩ := g
  exact {
    pop_hoursEnd := gives_same g0 h.pop_hoursEnd
    pop_hoursStart := gives_same g1 h.pop_hoursStart
    pop_daysEnd := gives_same g2 h.pop_daysEnd
    pop_daysStart := gives_same g3 h.pop_daysStart
    pop_densityOccupied := gives_same g4 h.pop_densityOccupied
    pop_densityUnoccupied := gives_same g5 h.pop_densityUnoccupied
    pop_heatGainPerPerson := gives_same g6 h.pop_heatGainPerPerson
    lights_powerDensityOccupied := gives_same g7 h.lights_powerDensityOccupied
    lights_powerDensityUnoccupied := gives_same g8 h.lights_powerDensityUnoccupied
    lights_dimmingFraction := gives_same g9 h.lights_dimmingFraction
    lights_exteriorEnergy := gives_same g10 h.lights_exteriorEnergy
    lights_n_day_start := givesOr_same g11 h.lights_n_day_start
    lights_n_day_end := givesOr_same g12 h.lights_n_day_end
    lights_n_weeks := givesOr_same g13 h.lights_n_weeks
    lights_elecInternalGains := givesOr_same g14 h.lights_elecInternalGains
    lights_permLightPowerDensity := givesOr_same g15 h.lights_permLightPowerDensity
    lights_presenceSensorAd := givesOr_same g16 h.lights_presenceSensorAd
    lights_automaticAd := givesOr_same g17 h.lights_automaticAd
    lights_presenceAutoAd := givesOr_same g18 h.lights_presenceAutoAd
    lights_manualSwitchAd := givesOr_same g19 h.lights_manualSwitchAd
    lights_presenceSensorLux := givesOr_same g20 h.lights_presenceSensorLux
    lights_automaticLux := givesOr_same g21 h.lights_automaticLux
    lights_presenceAutoLux := givesOr_same g22 h.lights_presenceAutoLux
    lights_manualSwitchLux := givesOr_same g23 h.lights_manualSwitchLux
    lights_naturallyLightedArea := givesOr_same g24 h.lights_naturallyLightedArea
    building_lightingOccupancySensor := gives_same g25 h.building_lightingOccupancySensor
    building_constantIllumination := gives_same g26 h.building_constantIllumination
    building_electricApplianceHeatGainOccupied := gives_same g27 h.building_electricApplianceHeatGainOccupied
    building_electricApplianceHeatGainUnoccupied := gives_same g28 h.building_electricApplianceHeatGainUnoccupied
    building_gasApplianceHeatGainOccupied := gives_same g29 h.building_gasApplianceHeatGainOccupied
    building_gasApplianceHeatGainUnoccupied := gives_same g30 h.building_gasApplianceHeatGainUnoccupied
    building_buildingEnergyManagement := chooses_same g31 h.building_buildingEnergyManagement
    building_externalEquipment := givesOr_same g32 h.building_externalEquipment
    bldg_floorArea := gives_same g33 h.bldg_floorArea
    bldg_wallArea := givesAll_same g34 h.bldg_wallArea
    bldg_windowArea := givesAll_same g35 h.bldg_windowArea
    bldg_wallUniform := givesAll_same g36 h.bldg_wallUniform
    bldg_windowUniform := givesAll_same g37 h.bldg_windowUniform
    bldg_wallThermalEmissivity := givesAll_same g38 h.bldg_wallThermalEmissivity
    bldg_wallSolarAbsorption := givesAll_same g39 h.bldg_wallSolarAbsorption
    bldg_windowShadingDevice := givesAll_same g40 h.bldg_windowShadingDevice
    bldg_windowNormalIncidenceSolarEnergyTransmittance := givesAll_same g41 h.bldg_windowNormalIncidenceSolarEnergyTransmittance
    bldg_windowShadingCorrectionFactor := hv
    bldg_interiorHeatCapacity := gives_same g42 h.bldg_interiorHeatCapacity
    bldg_wallHeatCapacity := gives_same g43 h.bldg_wallHeatCapacity
    bldg_buildingHeight := gives_same g44 h.bldg_buildingHeight
    bldg_infiltrationRate := gives_same g45 h.bldg_infiltrationRate
    bldg_R_se := givesOr_same g46 h.bldg_R_se
    bldg_irradianceForMaxShadingUse := givesOr_same g47 h.bldg_irradianceForMaxShadingUse
    bldg_shadingFactorAtMaxUse := givesOr_same g48 h.bldg_shadingFactorAtMaxUse
    bldg_totalAreaPerFloorArea := givesOr_same g49 h.bldg_totalAreaPerFloorArea
    bldg_win_ff := givesOr_same g50 h.bldg_win_ff
    bldg_win_F_W := givesOr_same g51 h.bldg_win_F_W
    bldg_R_sc_ext := givesOr_same g52 h.bldg_R_sc_ext
    heating_temperatureSetPointOccupied := gives_same g53 h.heating_temperatureSetPointOccupied
    heating_temperatureSetPointUnoccupied := gives_same g54 h.heating_temperatureSetPointUnoccupied
    heating_hvacLossFactor := gives_same g55 h.heating_hvacLossFactor
    heating_efficiency := gives_same g56 h.heating_efficiency
    heating_energyType := chooses_same g57 h.heating_energyType
    heating_pumpControlReduction := gives_same g58 h.heating_pumpControlReduction
    heating_hotWaterDemand := gives_same g59 h.heating_hotWaterDemand
    heating_hotWaterDistributionEfficiency := gives_same g60 h.heating_hotWaterDistributionEfficiency
    heating_hotWaterSystemEfficiency := gives_same g61 h.heating_hotWaterSystemEfficiency
    heating_hotWaterEnergyType := chooses_same g62 h.heating_hotWaterEnergyType
    heating_hotcoldWasteFactor := gives_same g63 h.heating_hotcoldWasteFactor
    heating_forcedAirHeating := boolean_same g64 h.heating_forcedAirHeating
    heating_dT_supp_ht := givesOr_same g65 h.heating_dT_supp_ht
    heating_E_pumps := givesOr_same g66 h.heating_E_pumps
    heating_T_ht_ctrl_flag := givesOr_same g67 h.heating_T_ht_ctrl_flag
    heating_a_H0 := givesOr_same g68 h.heating_a_H0
    heating_tau_H0 := givesOr_same g69 h.heating_tau_H0
    heating_DH_YesNo := givesOr_same g70 h.heating_DH_YesNo
    heating_eta_DH_network := givesOr_same g71 h.heating_eta_DH_network
    heating_eta_DH_sys := givesOr_same g72 h.heating_eta_DH_sys
    heating_frac_DH_free := givesOr_same g73 h.heating_frac_DH_free
    heating_dhw_tset := givesOr_same g74 h.heating_dhw_tset
    heating_dhw_tsupply := givesOr_same g75 h.heating_dhw_tsupply
    cooling_temperatureSetPointOccupied := gives_same g76 h.cooling_temperatureSetPointOccupied
    cooling_temperatureSetPointUnoccupied := gives_same g77 h.cooling_temperatureSetPointUnoccupied
    cooling_cop := gives_same g78 h.cooling_cop
    cooling_partialLoadValue := gives_same g79 h.cooling_partialLoadValue
    cooling_hvacLossFactor := gives_same g80 h.cooling_hvacLossFactor
    cooling_pumpControlReduction := gives_same g81 h.cooling_pumpControlReduction
    cooling_forcedAirCooling := boolean_same g82 h.cooling_forcedAirCooling
    cooling_T_cl_ctrl_flag := givesOr_same g83 h.cooling_T_cl_ctrl_flag
    cooling_dT_supp_cl := givesOr_same g84 h.cooling_dT_supp_cl
    cooling_DC_YesNo := givesOr_same g85 h.cooling_DC_YesNo
    cooling_eta_DC_network := givesOr_same g86 h.cooling_eta_DC_network
    cooling_eta_DC_COP := givesOr_same g87 h.cooling_eta_DC_COP
    cooling_eta_DC_frac_abs := givesOr_same g88 h.cooling_eta_DC_frac_abs
    cooling_eta_DC_COP_abs := givesOr_same g89 h.cooling_eta_DC_COP_abs
    cooling_frac_DC_free := givesOr_same g90 h.cooling_frac_DC_free
    cooling_E_pumps := givesOr_same g91 h.cooling_E_pumps
    ventilation_supplyRate := gives_same g92 h.ventilation_supplyRate
    ventilation_supplyDifference := gives_same g93 h.ventilation_supplyDifference
    ventilation_heatRecoveryEfficiency := gives_same g94 h.ventilation_heatRecoveryEfficiency
    ventilation_exhaustAirRecirculated := gives_same g95 h.ventilation_exhaustAirRecirculated
    ventilation_ventType := chooses_same g96 h.ventilation_ventType
    ventilation_fanPower := gives_same g97 h.ventilation_fanPower
    ventilation_fanControlFactor := gives_same g98 h.ventilation_fanControlFactor
    ventilation_ventPreheatDegC := givesOr_same g99 h.ventilation_ventPreheatDegC
    ventilation_n50 := givesOr_same g100 h.ventilation_n50
    ventilation_hzone := givesOr_same g101 h.ventilation_hzone
    ventilation_p_exp := givesOr_same g102 h.ventilation_p_exp
    ventilation_zone_frac := givesOr_same g103 h.ventilation_zone_frac
    ventilation_stack_exp := givesOr_same g104 h.ventilation_stack_exp
    ventilation_stack_coeff := givesOr_same g105 h.ventilation_stack_coeff
    ventilation_wind_exp := givesOr_same g106 h.ventilation_wind_exp
    ventilation_wind_coeff := givesOr_same g107 h.ventilation_wind_coeff
    ventilation_dCp := givesOr_same g108 h.ventilation_dCp
    ventilation_vent_rate_flag := integer_same g109 h.ventilation_vent_rate_flag
    ventilation_H_ve := givesOr_same g110 h.ventilation_H_ve
    phys_rhoCpAir := givesOr_same g111 h.phys_rhoCpAir
    phys_rhoCpWater := givesOr_same g112 h.phys_rhoCpWater
    simSettings_phiIntFractionToAirNode := givesOr_same g113 h.simSettings_phiIntFractionToAirNode
    simSettings_phiSolFractionToAirNode := givesOr_same g114 h.simSettings_phiSolFractionToAirNode
    simSettings_hci := givesOr_same g115 h.simSettings_hci
    simSettings_hri := givesOr_same g116 h.simSettings_hri
    terrain := gives_same g117 h.terrain
  }

end ISO.Lemmas.Described
