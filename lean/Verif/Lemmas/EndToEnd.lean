import Verif.Spec.EndToEnd

/-! # The parameters that the program keeps of a building file are those of the building the file describes -/

namespace ISO.Lemmas
open ISO ISO.Numerals ISO.Spec ISO.Spec.Text ISO.Spec.EndToEnd ISO.User ISO.CommandLine Dbl

variable {file : Properties.Store}

theorem gives_getD {name : String} {v : ℝ} (h : EndToEnd.Gives file name v) (d : Dbl) : (Param.number stod file name).getD d = fin v := by
  rw [h]; rfl

theorem givesOr_getD {name : String} {c v : ℝ} (h : GivesOr file name c v) {d : Dbl} (e : d = fin c) :
    (Param.number stod file name).getD d = fin v := by
  rw [e]; exact h

theorem givesAll_getD {name : String} {v : Fin 9 → ℝ} (h : GivesAll file name v) (d : Fin 9 → Dbl) :
    (Param.facades stod file name).getD d = fun i => fin (v i) := by
  rw [h]; rfl

theorem chooses_two {name : String} {a b : String} (hab : b.toList ≠ a.toList) {v : ℝ} (h : Chooses file name [a, b] v) (d : Dbl) :
    (Param.code file name [(a, (1.0 : Dbl)), (b, 2.0)]).getD d = fin v := by
  obtain ⟨t, ht, i, hi, hl, rfl⟩ := h
  unfold Param.code
  rw [ht, Option.bind_some]
  have e1 : (1.0 : Dbl) = fin (0 + 1) := by show fin _ = fin _; norm_num
  have e2 : (2.0 : Dbl) = fin (1 + 1) := by show fin _ = fin _; norm_num
  simp only [List.length_cons, List.length_nil] at hi
  interval_cases i
  · have : lower t = a.toList := hl
    simp [this, e1]
  · have : lower t = b.toList := hl
    simp [this, hab, e2]

theorem chooses_three {name : String} {a b c : String} (hab : b.toList ≠ a.toList) (hac : c.toList ≠ a.toList) (hbc : c.toList ≠ b.toList)
    {v : ℝ} (h : Chooses file name [a, b, c] v) (d : Dbl) :
    (Param.code file name [(a, (1.0 : Dbl)), (b, 2.0), (c, 3.0)]).getD d = fin v := by
  obtain ⟨t, ht, i, hi, hl, rfl⟩ := h
  unfold Param.code
  rw [ht, Option.bind_some]
  have e1 : (1.0 : Dbl) = fin (0 + 1) := by show fin _ = fin _; norm_num
  have e2 : (2.0 : Dbl) = fin (1 + 1) := by show fin _ = fin _; norm_num
  have e3 : (3.0 : Dbl) = fin (2 + 1) := by show fin _ = fin _; norm_num
  simp only [List.length_cons, List.length_nil] at hi
  interval_cases i
  · have : lower t = a.toList := hl
    simp [this, e1]
  · have : lower t = b.toList := hl
    simp [this, hab, e2]
  · have : lower t = c.toList := hl
    simp [this, hac, hbc, e3]

theorem described_pop {x : Sim ℝ} (h : Describes file x) (junk : Params Dbl) :
    (Param.stored stod file (newObject junk)).pop = x.pop.map fin :=
  Eq.mpr (Population.mk.injEq ..) ⟨
    gives_getD h.pop_hoursEnd _,
    gives_getD h.pop_hoursStart _,
    gives_getD h.pop_daysEnd _,
    gives_getD h.pop_daysStart _,
    gives_getD h.pop_densityOccupied _,
    gives_getD h.pop_densityUnoccupied _,
    gives_getD h.pop_heatGainPerPerson _⟩

theorem described_lights {x : Sim ℝ} (h : Describes file x) (junk : Params Dbl) :
    (Param.stored stod file (newObject junk)).lights = x.lights.map fin :=
  Eq.mpr (Lighting.mk.injEq ..) ⟨
    gives_getD h.lights_powerDensityOccupied _,
    gives_getD h.lights_powerDensityUnoccupied _,
    gives_getD h.lights_dimmingFraction _,
    gives_getD h.lights_exteriorEnergy _,
    givesOr_getD h.lights_n_day_start (by show fin _ = fin _; norm_num),
    givesOr_getD h.lights_n_day_end (by show fin _ = fin _; norm_num),
    givesOr_getD h.lights_n_weeks (by show fin _ = fin _; norm_num),
    givesOr_getD h.lights_elecInternalGains (by show fin _ = fin _; norm_num),
    givesOr_getD h.lights_permLightPowerDensity (by show fin _ = fin _; norm_num),
    givesOr_getD h.lights_presenceSensorAd (by show fin _ = fin _; norm_num),
    givesOr_getD h.lights_automaticAd (by show fin _ = fin _; norm_num),
    givesOr_getD h.lights_presenceAutoAd (by show fin _ = fin _; norm_num),
    givesOr_getD h.lights_manualSwitchAd (by show fin _ = fin _; norm_num),
    givesOr_getD h.lights_presenceSensorLux (by show fin _ = fin _; norm_num),
    givesOr_getD h.lights_automaticLux (by show fin _ = fin _; norm_num),
    givesOr_getD h.lights_presenceAutoLux (by show fin _ = fin _; norm_num),
    givesOr_getD h.lights_manualSwitchLux (by show fin _ = fin _; norm_num),
    givesOr_getD h.lights_naturallyLightedArea (by show fin _ = fin _; norm_num)⟩

theorem described_building {x : Sim ℝ} (h : Describes file x) (junk : Params Dbl) :
    (Param.stored stod file (newObject junk)).building = x.building.map fin :=
  Eq.mpr (Building.mk.injEq ..) ⟨
    gives_getD h.building_lightingOccupancySensor _,
    gives_getD h.building_constantIllumination _,
    gives_getD h.building_electricApplianceHeatGainOccupied _,
    gives_getD h.building_electricApplianceHeatGainUnoccupied _,
    gives_getD h.building_gasApplianceHeatGainOccupied _,
    gives_getD h.building_gasApplianceHeatGainUnoccupied _,
    chooses_three (by decide) (by decide) (by decide) h.building_buildingEnergyManagement _,
    givesOr_getD h.building_externalEquipment (by show fin _ = fin _; norm_num)⟩

theorem described_bldg {x : Sim ℝ} (h : Describes file x) (junk : Params Dbl) :
    (Param.stored stod file (newObject junk)).bldg = x.bldg.map fin :=
  Eq.mpr (Structure.mk.injEq ..) ⟨
    gives_getD h.bldg_floorArea _,
    givesAll_getD h.bldg_wallArea _,
    givesAll_getD h.bldg_windowArea _,
    givesAll_getD h.bldg_wallUniform _,
    givesAll_getD h.bldg_windowUniform _,
    givesAll_getD h.bldg_wallThermalEmissivity _,
    givesAll_getD h.bldg_wallSolarAbsorption _,
    givesAll_getD h.bldg_windowShadingDevice _,
    givesAll_getD h.bldg_windowNormalIncidenceSolarEnergyTransmittance _,
    givesAll_getD h.bldg_windowShadingCorrectionFactor _,
    gives_getD h.bldg_interiorHeatCapacity _,
    gives_getD h.bldg_wallHeatCapacity _,
    gives_getD h.bldg_buildingHeight _,
    gives_getD h.bldg_infiltrationRate _,
    givesOr_getD h.bldg_R_se (by show fin _ = fin _; norm_num),
    givesOr_getD h.bldg_irradianceForMaxShadingUse (by show fin _ = fin _; norm_num),
    givesOr_getD h.bldg_shadingFactorAtMaxUse (by show fin _ = fin _; norm_num),
    givesOr_getD h.bldg_totalAreaPerFloorArea (by show fin _ = fin _; norm_num),
    givesOr_getD h.bldg_win_ff (by show fin _ = fin _; norm_num),
    givesOr_getD h.bldg_win_F_W (by show fin _ = fin _; norm_num),
    givesOr_getD h.bldg_R_sc_ext (by show fin _ = fin _; norm_num)⟩

theorem described_heating {x : Sim ℝ} (h : Describes file x) (junk : Params Dbl) :
    (Param.stored stod file (newObject junk)).heating = x.heating.map fin :=
  Eq.mpr (Heating.mk.injEq ..) ⟨
    gives_getD h.heating_temperatureSetPointOccupied _,
    gives_getD h.heating_temperatureSetPointUnoccupied _,
    gives_getD h.heating_hvacLossFactor _,
    gives_getD h.heating_efficiency _,
    chooses_two (by decide) h.heating_energyType _,
    gives_getD h.heating_pumpControlReduction _,
    gives_getD h.heating_hotWaterDemand _,
    gives_getD h.heating_hotWaterDistributionEfficiency _,
    gives_getD h.heating_hotWaterSystemEfficiency _,
    chooses_two (by decide) h.heating_hotWaterEnergyType _,
    gives_getD h.heating_hotcoldWasteFactor _,
    h.heating_forcedAirHeating,
    givesOr_getD h.heating_dT_supp_ht (by show fin _ = fin _; norm_num),
    givesOr_getD h.heating_E_pumps (by show fin _ = fin _; norm_num),
    givesOr_getD h.heating_T_ht_ctrl_flag (by show fin _ = fin _; norm_num),
    givesOr_getD h.heating_a_H0 (by show fin _ = fin _; norm_num),
    givesOr_getD h.heating_tau_H0 (by show fin _ = fin _; norm_num),
    givesOr_getD h.heating_DH_YesNo (by show fin _ = fin _; norm_num),
    givesOr_getD h.heating_eta_DH_network (by show fin _ = fin _; norm_num),
    givesOr_getD h.heating_eta_DH_sys (by show fin _ = fin _; norm_num),
    givesOr_getD h.heating_frac_DH_free (by show fin _ = fin _; norm_num),
    givesOr_getD h.heating_dhw_tset (by show fin _ = fin _; norm_num),
    givesOr_getD h.heating_dhw_tsupply (by show fin _ = fin _; norm_num)⟩

theorem described_cooling {x : Sim ℝ} (h : Describes file x) (junk : Params Dbl) :
    (Param.stored stod file (newObject junk)).cooling = x.cooling.map fin :=
  Eq.mpr (Cooling.mk.injEq ..) ⟨
    gives_getD h.cooling_temperatureSetPointOccupied _,
    gives_getD h.cooling_temperatureSetPointUnoccupied _,
    gives_getD h.cooling_cop _,
    gives_getD h.cooling_partialLoadValue _,
    gives_getD h.cooling_hvacLossFactor _,
    gives_getD h.cooling_pumpControlReduction _,
    h.cooling_forcedAirCooling,
    givesOr_getD h.cooling_T_cl_ctrl_flag (by show fin _ = fin _; norm_num),
    givesOr_getD h.cooling_dT_supp_cl (by show fin _ = fin _; norm_num),
    givesOr_getD h.cooling_DC_YesNo (by show fin _ = fin _; norm_num),
    givesOr_getD h.cooling_eta_DC_network (by show fin _ = fin _; norm_num),
    givesOr_getD h.cooling_eta_DC_COP (by show fin _ = fin _; norm_num),
    givesOr_getD h.cooling_eta_DC_frac_abs (by show fin _ = fin _; norm_num),
    givesOr_getD h.cooling_eta_DC_COP_abs (by show fin _ = fin _; norm_num),
    givesOr_getD h.cooling_frac_DC_free (by show fin _ = fin _; norm_num),
    givesOr_getD h.cooling_E_pumps (by show fin _ = fin _; norm_num)⟩

theorem described_ventilation {x : Sim ℝ} (h : Describes file x) (junk : Params Dbl) :
    (Param.stored stod file (newObject junk)).ventilation = x.ventilation.map fin :=
  Eq.mpr (Ventilation.mk.injEq ..) ⟨
    gives_getD h.ventilation_supplyRate _,
    gives_getD h.ventilation_supplyDifference _,
    gives_getD h.ventilation_heatRecoveryEfficiency _,
    gives_getD h.ventilation_exhaustAirRecirculated _,
    chooses_three (by decide) (by decide) (by decide) h.ventilation_ventType _,
    gives_getD h.ventilation_fanPower _,
    gives_getD h.ventilation_fanControlFactor _,
    givesOr_getD h.ventilation_ventPreheatDegC (by show fin _ = fin _; norm_num),
    givesOr_getD h.ventilation_n50 (by show fin _ = fin _; norm_num),
    givesOr_getD h.ventilation_hzone (by show fin _ = fin _; norm_num),
    givesOr_getD h.ventilation_p_exp (by show fin _ = fin _; norm_num),
    givesOr_getD h.ventilation_zone_frac (by show fin _ = fin _; norm_num),
    givesOr_getD h.ventilation_stack_exp (by show fin _ = fin _; norm_num),
    givesOr_getD h.ventilation_stack_coeff (by show fin _ = fin _; norm_num),
    givesOr_getD h.ventilation_wind_exp (by show fin _ = fin _; norm_num),
    givesOr_getD h.ventilation_wind_coeff (by show fin _ = fin _; norm_num),
    givesOr_getD h.ventilation_dCp (by show fin _ = fin _; norm_num),
    h.ventilation_vent_rate_flag,
    givesOr_getD h.ventilation_H_ve (by show fin _ = fin _; norm_num)⟩

theorem described_phys {x : Sim ℝ} (h : Describes file x) (junk : Params Dbl) :
    (Param.stored stod file (newObject junk)).phys = x.phys.map fin :=
  Eq.mpr (PhysicalQuantities.mk.injEq ..) ⟨
    givesOr_getD h.phys_rhoCpAir (by show fin _ = fin _; norm_num),
    givesOr_getD h.phys_rhoCpWater (by show fin _ = fin _; norm_num)⟩

theorem described_simSettings {x : Sim ℝ} (h : Describes file x) (junk : Params Dbl) :
    (Param.stored stod file (newObject junk)).simSettings = x.simSettings.map fin :=
  Eq.mpr (SimulationSettings.mk.injEq ..) ⟨
    givesOr_getD h.simSettings_phiIntFractionToAirNode (by show fin _ = fin _; norm_num),
    givesOr_getD h.simSettings_phiSolFractionToAirNode (by show fin _ = fin _; norm_num),
    givesOr_getD h.simSettings_hci (by show fin _ = fin _; norm_num),
    givesOr_getD h.simSettings_hri (by show fin _ = fin _; norm_num)⟩

/-- the simulation objects built from the file -/
theorem described {x : Sim ℝ} (h : Describes file x) (junk : Params Dbl) (a : WeatherData ℝ) :
    simOf (Param.stored stod file (newObject junk)) (a.map fin) = ({ x with weather := a } : Sim ℝ).map fin :=
  Eq.mpr (Sim.mk.injEq ..) ⟨described_pop h junk, gives_getD h.terrain _, rfl, described_lights h junk, described_building h junk,
    described_bldg h junk, described_heating h junk, described_cooling h junk, described_ventilation h junk, described_phys h junk,
    described_simSettings h junk⟩

end ISO.Lemmas
