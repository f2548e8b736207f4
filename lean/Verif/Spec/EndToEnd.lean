import Verif.Spec.HourlyWhole
import Verif.Spec.MonthlyBalance
import Verif.Spec.Whole
import Verif.Spec.Output
import Verif.Spec.Average
import Verif.Spec.Results

/-!
# Specification: from the texts of the input files to the printed numbers

Which number of the building file is which quantity of the building, which averages the monthly simulation gets from the weather
file, and what a reader of the printed table finds in a cell.
-/

namespace ISO.Spec.EndToEnd
open ISO ISO.Numerals ISO.Spec ISO.Spec.Text ISO.CommandLine ISO.Epw Dbl

/-! ## the building file -/

/-- the file gives the number `v` for a parameter that has no default -/
def Gives (file : Properties.Store) (name : String) (v : ℝ) : Prop := Param.number stod file name = some (fin v)

/-- the file gives the number `v` for a parameter, or none, and `v` is the default -/
def GivesOr (file : Properties.Store) (name : String) (default v : ℝ) : Prop := (Param.number stod file name).getD (fin default) = fin v

/-- the file gives the numbers `v` for the facades and the roof (from south, anticlockwise) -/
def GivesAll (file : Properties.Store) (name : String) (v : Fin 9 → ℝ) : Prop := Param.facades stod file name = some fun i => fin (v i)

/-- the file gives one of the keywords, whose number, from one, is `v` -/
def Chooses (file : Properties.Store) (name : String) (keywords : List String) (v : ℝ) : Prop :=
  ∃ t, Param.given file name = some t ∧ ∃ i, ∃ h : i < keywords.length, lower t = keywords[i].toList ∧ v = i + 1

/-- **The building that a file describes**: every quantity of the building is the number the file gives under this name, or the default. -/
structure Describes (file : Properties.Store) (x : Sim ℝ) : Prop where
  pop_hoursEnd : Gives file "occupancyhourlast" x.pop.hoursEnd
  pop_hoursStart : Gives file "occupancyhourfirst" x.pop.hoursStart
  pop_daysEnd : Gives file "occupancydaylast" x.pop.daysEnd
  pop_daysStart : Gives file "occupancydayfirst" x.pop.daysStart
  pop_densityOccupied : Gives file "peopledensityoccupied" x.pop.densityOccupied
  pop_densityUnoccupied : Gives file "peopledensityunoccupied" x.pop.densityUnoccupied
  pop_heatGainPerPerson : Gives file "heatgainperperson" x.pop.heatGainPerPerson
  lights_powerDensityOccupied : Gives file "lightingpowerdensityoccupied" x.lights.powerDensityOccupied
  lights_powerDensityUnoccupied : Gives file "lightingpowerdensityunoccupied" x.lights.powerDensityUnoccupied
  lights_dimmingFraction : Gives file "daylightsensordimmingfraction" x.lights.dimmingFraction
  lights_exteriorEnergy : Gives file "exteriorlightingpower" x.lights.exteriorEnergy
  lights_n_day_start : GivesOr file "n_day_start" 7 x.lights.n_day_start
  lights_n_day_end : GivesOr file "n_day_end" 18 x.lights.n_day_end
  lights_n_weeks : GivesOr file "n_weeks" 50 x.lights.n_weeks
  lights_elecInternalGains : GivesOr file "elecinternalgains" 1 x.lights.elecInternalGains
  lights_permLightPowerDensity : GivesOr file "permlightpowerdensity" 0 x.lights.permLightPowerDensity
  lights_presenceSensorAd : GivesOr file "presencesensorad" 0.6 x.lights.presenceSensorAd
  lights_automaticAd : GivesOr file "automaticad" 0.8 x.lights.automaticAd
  lights_presenceAutoAd : GivesOr file "presenceautoad" 0.6 x.lights.presenceAutoAd
  lights_manualSwitchAd : GivesOr file "manualswitchad" 1 x.lights.manualSwitchAd
  lights_presenceSensorLux : GivesOr file "presencesensorlux" 500 x.lights.presenceSensorLux
  lights_automaticLux : GivesOr file "automaticlux" 300 x.lights.automaticLux
  lights_presenceAutoLux : GivesOr file "presenceautolux" 300 x.lights.presenceAutoLux
  lights_manualSwitchLux : GivesOr file "manualswitchlux" 500 x.lights.manualSwitchLux
  lights_naturallyLightedArea : GivesOr file "naturallylightedarea" 0 x.lights.naturallyLightedArea
  building_lightingOccupancySensor : Gives file "lightingoccupancysensordimmingfraction" x.building.lightingOccupancySensor
  building_constantIllumination : Gives file "constantilluminationcontrolmultiplier" x.building.constantIllumination
  building_electricApplianceHeatGainOccupied : Gives file "electricappliancepowerdensityoccupied" x.building.electricApplianceHeatGainOccupied
  building_electricApplianceHeatGainUnoccupied : Gives file "electricappliancepowerdensityunoccupied" x.building.electricApplianceHeatGainUnoccupied
  building_gasApplianceHeatGainOccupied : Gives file "gasappliancepowerdensityoccupied" x.building.gasApplianceHeatGainOccupied
  building_gasApplianceHeatGainUnoccupied : Gives file "gasappliancepowerdensityunoccupied" x.building.gasApplianceHeatGainUnoccupied
  building_buildingEnergyManagement : Chooses file "bemtype" ["none", "simple", "advanced"] x.building.buildingEnergyManagement
  building_externalEquipment : GivesOr file "externalequipment" 0 x.building.externalEquipment
  bldg_floorArea : Gives file "floorarea" x.bldg.floorArea
  bldg_wallArea : GivesAll file "wallArea" x.bldg.wallArea
  bldg_windowArea : GivesAll file "windowArea" x.bldg.windowArea
  bldg_wallUniform : GivesAll file "wallU" x.bldg.wallUniform
  bldg_windowUniform : GivesAll file "windowU" x.bldg.windowUniform
  bldg_wallThermalEmissivity : GivesAll file "wallEmissivity" x.bldg.wallThermalEmissivity
  bldg_wallSolarAbsorption : GivesAll file "wallAbsorption" x.bldg.wallSolarAbsorption
  bldg_windowShadingDevice : GivesAll file "windowSDF" x.bldg.windowShadingDevice
  bldg_windowNormalIncidenceSolarEnergyTransmittance : GivesAll file "windowSHGC" x.bldg.windowNormalIncidenceSolarEnergyTransmittance
  bldg_windowShadingCorrectionFactor : GivesAll file "windowSCF" x.bldg.windowShadingCorrectionFactor
  bldg_interiorHeatCapacity : Gives file "interiorheatcapacity" x.bldg.interiorHeatCapacity
  bldg_wallHeatCapacity : Gives file "exteriorheatcapacity" x.bldg.wallHeatCapacity
  bldg_buildingHeight : Gives file "buildingheight" x.bldg.buildingHeight
  bldg_infiltrationRate : Gives file "infiltrationrateoccupied" x.bldg.infiltrationRate
  bldg_R_se : GivesOr file "r_se" 0.04 x.bldg.R_se
  bldg_irradianceForMaxShadingUse : GivesOr file "irradianceformaxshadinguse" 500 x.bldg.irradianceForMaxShadingUse
  bldg_shadingFactorAtMaxUse : GivesOr file "shadingfactoratmaxuse" 0.5 x.bldg.shadingFactorAtMaxUse
  bldg_totalAreaPerFloorArea : GivesOr file "totalareaperfloorarea" 4.5 x.bldg.totalAreaPerFloorArea
  bldg_win_ff : GivesOr file "win_ff" 0.25 x.bldg.win_ff
  bldg_win_F_W : GivesOr file "win_f_w" 0.9 x.bldg.win_F_W
  bldg_R_sc_ext : GivesOr file "r_sc_ext" 0.04 x.bldg.R_sc_ext
  heating_temperatureSetPointOccupied : Gives file "heatingsetpointoccupied" x.heating.temperatureSetPointOccupied
  heating_temperatureSetPointUnoccupied : Gives file "heatingsetpointunoccupied" x.heating.temperatureSetPointUnoccupied
  heating_hvacLossFactor : Gives file "hvacheatinglossfactor" x.heating.hvacLossFactor
  heating_efficiency : Gives file "heatingsystemefficiency" x.heating.efficiency
  heating_energyType : Chooses file "heatingfueltype" ["electric", "gas"] x.heating.energyType
  heating_pumpControlReduction : Gives file "heatingpumpcontrol" x.heating.pumpControlReduction
  heating_hotWaterDemand : Gives file "dhwdemand" x.heating.hotWaterDemand
  heating_hotWaterDistributionEfficiency : Gives file "dhwdistributionefficiency" x.heating.hotWaterDistributionEfficiency
  heating_hotWaterSystemEfficiency : Gives file "dhwsystemefficiency" x.heating.hotWaterSystemEfficiency
  heating_hotWaterEnergyType : Chooses file "dhwfueltype" ["electric", "gas"] x.heating.hotWaterEnergyType
  heating_hotcoldWasteFactor : Gives file "hvacwastefactor" x.heating.hotcoldWasteFactor
  heating_forcedAirHeating : (Param.boolean file "forcedairheating").getD true = x.heating.forcedAirHeating
  heating_dT_supp_ht : GivesOr file "dt_supp_ht" 7 x.heating.dT_supp_ht
  heating_E_pumps : GivesOr file "e_pumps_ht" 0.25 x.heating.E_pumps
  heating_T_ht_ctrl_flag : GivesOr file "t_ht_ctrl_flag" 1 x.heating.T_ht_ctrl_flag
  heating_a_H0 : GivesOr file "a_h0" 1 x.heating.a_H0
  heating_tau_H0 : GivesOr file "tau_h0" 15 x.heating.tau_H0
  heating_DH_YesNo : GivesOr file "dh_yesno" 0 x.heating.DH_YesNo
  heating_eta_DH_network : GivesOr file "eta_dh_network" 0.9 x.heating.eta_DH_network
  heating_eta_DH_sys : GivesOr file "eta_dh_sys" 0.87 x.heating.eta_DH_sys
  heating_frac_DH_free : GivesOr file "frac_dh_free" 0 x.heating.frac_DH_free
  heating_dhw_tset : GivesOr file "dhw_tset" 60 x.heating.dhw_tset
  heating_dhw_tsupply : GivesOr file "dhw_tsupply" 20 x.heating.dhw_tsupply
  cooling_temperatureSetPointOccupied : Gives file "coolingsetpointoccupied" x.cooling.temperatureSetPointOccupied
  cooling_temperatureSetPointUnoccupied : Gives file "coolingsetpointunoccupied" x.cooling.temperatureSetPointUnoccupied
  cooling_cop : Gives file "coolingsystemcop" x.cooling.cop
  cooling_partialLoadValue : Gives file "coolingsystemiplvtocopratio" x.cooling.partialLoadValue
  cooling_hvacLossFactor : Gives file "hvaccoolinglossfactor" x.cooling.hvacLossFactor
  cooling_pumpControlReduction : Gives file "coolingpumpcontrol" x.cooling.pumpControlReduction
  cooling_forcedAirCooling : (Param.boolean file "forcedaircooling").getD true = x.cooling.forcedAirCooling
  cooling_T_cl_ctrl_flag : GivesOr file "t_cl_ctrl_flag" 1 x.cooling.T_cl_ctrl_flag
  cooling_dT_supp_cl : GivesOr file "dt_supp_cl" 7 x.cooling.dT_supp_cl
  cooling_DC_YesNo : GivesOr file "dc_yesno" 0 x.cooling.DC_YesNo
  cooling_eta_DC_network : GivesOr file "eta_dc_network" 0.9 x.cooling.eta_DC_network
  cooling_eta_DC_COP : GivesOr file "eta_dc_cop" 5.5 x.cooling.eta_DC_COP
  cooling_eta_DC_frac_abs : GivesOr file "eta_dc_frac_abs" 0 x.cooling.eta_DC_frac_abs
  cooling_eta_DC_COP_abs : GivesOr file "eta_dc_cop_abs" 1 x.cooling.eta_DC_COP_abs
  cooling_frac_DC_free : GivesOr file "frac_dc_free" 0 x.cooling.frac_DC_free
  cooling_E_pumps : GivesOr file "e_pumps_cl" 0.25 x.cooling.E_pumps
  ventilation_supplyRate : Gives file "ventilationintakerateoccupied" x.ventilation.supplyRate
  ventilation_supplyDifference : Gives file "ventilationExhaustRateOccupied" x.ventilation.supplyDifference
  ventilation_heatRecoveryEfficiency : Gives file "heatrecovery" x.ventilation.heatRecoveryEfficiency
  ventilation_exhaustAirRecirculated : Gives file "exhaustairrecirculation" x.ventilation.exhaustAirRecirculated
  ventilation_ventType : Chooses file "ventilationtype" ["mechanical", "combined", "natural"] x.ventilation.ventType
  ventilation_fanPower : Gives file "specificfanpower" x.ventilation.fanPower
  ventilation_fanControlFactor : Gives file "fanflowcontrolfactor" x.ventilation.fanControlFactor
  ventilation_ventPreheatDegC : GivesOr file "ventpreheatdegc" (-50) x.ventilation.ventPreheatDegC
  ventilation_n50 : GivesOr file "n50" 2 x.ventilation.n50
  ventilation_hzone : GivesOr file "hzone" 39 x.ventilation.hzone
  ventilation_p_exp : GivesOr file "p_exp" 0.65 x.ventilation.p_exp
  ventilation_zone_frac : GivesOr file "zone_frac" 0.7 x.ventilation.zone_frac
  ventilation_stack_exp : GivesOr file "stack_exp" 0.667 x.ventilation.stack_exp
  ventilation_stack_coeff : GivesOr file "stack_coeff" 0.0146 x.ventilation.stack_coeff
  ventilation_wind_exp : GivesOr file "wind_exp" 0.667 x.ventilation.wind_exp
  ventilation_wind_coeff : GivesOr file "wind_coeff" 0.0769 x.ventilation.wind_coeff
  ventilation_dCp : GivesOr file "dcp" 0.75 x.ventilation.dCp
  ventilation_vent_rate_flag : (Param.integer file "vent_rate_flag").getD 1 = x.ventilation.vent_rate_flag
  ventilation_H_ve : GivesOr file "h_ve" 0 x.ventilation.H_ve
  phys_rhoCpAir : GivesOr file "rhocpair" (1.22521 * 0.001012) x.phys.rhoCpAir
  phys_rhoCpWater : GivesOr file "rhocpwater" 4.1813 x.phys.rhoCpWater
  simSettings_phiIntFractionToAirNode : GivesOr file "phiintfractiontoairnode" 0.5 x.simSettings.phiIntFractionToAirNode
  simSettings_phiSolFractionToAirNode : GivesOr file "phisolfractiontoairnode" 0 x.simSettings.phiSolFractionToAirNode
  simSettings_hci : GivesOr file "hci" 2.5 x.simSettings.hci
  simSettings_hri : GivesOr file "hri" 5.5 x.simSettings.hri
  terrain : Gives file "terrainclass" x.terrain

/-! ## the files -/

/-- The files are in place: the building file, and the file with defaults if there is one, exist and have the parameters `file`, all
of them acceptable, and the weather file that the building file names (as it stands, or relative to the building file) has the text
`text`. -/
structure Inputs (fs : User.FileSystem) (o : Options) (file : Properties.Store) (text : Str) : Prop where
  building : fs.exists_ o.ism = true
  defaults : ∀ d, o.defaults = some d → fs.exists_ d = true
  parameters : (match o.defaults with
    | none => Properties.ofFile (fs.read o.ism)
    | some d => Properties.ofFiles (fs.read o.ism) (fs.read d)) = .ok file
  accepted : ∀ r ∈ Param.table, Param.judge stod file r = .accepted
  weather : ∃ path weather, Param.given file "weatherfilepath" = some path ∧
    (if fs.exists_ path then weather = path else weather = User.resolveFilename o.ism path ∧ fs.exists_ weather = true) ∧
    fs.read weather = some text

/-- the weather year of a file; of the time zone the digits after the point do not count -/
noncomputable def yearOf (lat lon zone : ℝ) (v : Fin 7 → Fin 8760 → ℝ) : Weather ℝ :=
  ⟨lat, lon, if 0 ≤ zone then ⌊zone⌋ else ⌈zone⌉, v⟩

/-- the first and last occupied day of the week and hour of the day, as they are on a calendar and a clock; the last may lie before the
first -/
structure Timetable (p : Population ℝ) : Prop where
  days : |p.daysStart| ≤ 7 ∧ 0 ≤ p.daysEnd ∧ p.daysEnd ≤ 7
  hours : |p.hoursStart| ≤ 24 ∧ 0 ≤ p.hoursEnd ∧ p.hoursEnd ≤ 24

/-! ## the averages of the weather -/

/-- **The averages that the monthly simulation uses** are those of the weather year to six digits: of temperature, wind, global
radiation, the radiation on the eight facades, and of temperature and global radiation for every hour of the day. -/
structure Averaged (w : Weather ℝ) (a : WeatherData ℝ) : Prop where
  temperature : ∀ m : Fin 12, Rounded 6 (monthMean (fun i => fin (w.data DBT i)) (m + 1)) (fin (a.mdbt m))
  wind : ∀ m : Fin 12, Rounded 6 (monthMean (fun i => fin (w.data WSPD i)) (m + 1)) (fin (a.mwind m))
  sun : ∀ m : Fin 12, Rounded 6 (monthMean (fun i => fin (w.data EGH i)) (m + 1)) (fin (a.mEgh m))
  facades : ∀ (m : Fin 12) (s : Fin 8),
    Rounded 6 (monthMean (fun i => fin (HourlyWhole.radiation w i ⟨s, by omega⟩)) (m + 1)) (fin (a.msolar m s))
  temperatureAt : ∀ (m : Fin 12) (h : Fin 24), Rounded 6 (hourMean (fun i => fin (w.data DBT i)) (m + 1) h) (fin (a.mhdbt m h))
  sunAt : ∀ (m : Fin 12) (h : Fin 24), Rounded 6 (hourMean (fun i => fin (w.data EGH i)) (m + 1) h) (fin (a.mhEgh m h))

/-! ## results -/

open Classical in
/-- End use `k` of hour `i` in the results, kWh per m².  In a year without any demand the energy for heating and for cooling is not a
number. -/
noncomputable def hourResult (x : Sim ℝ) (w : Weather ℝ) (air power : ℕ → ℝ) (i : Fin 8760) (k : Fin 13) : Dbl :=
  if (∀ j < 8760, power j = 0) ∧ (k = 1 ∨ k = if x.heating.energyType = 1 then 0 else 9) then nan
  else fin (HourlyWhole.endUse x w air power i k / 1000)

open Classical in
/-- the same for month `m` (0 = January) -/
noncomputable def monthResult (x : Sim ℝ) (w : Weather ℝ) (air power : ℕ → ℝ) (m : ℕ) (k : Fin 13) : Dbl :=
  if (∀ j < 8760, power j = 0) ∧ (k = 1 ∨ k = if x.heating.energyType = 1 then 0 else 9) then nan
  else fin (HourlyWhole.monthUse x w air power (m + 1) k / 1000)

open Classical in
/-- End use `k` of month `m` in the monthly simulation, kWh per m², is `v`.  Interior lights follow a table of shares that is right
to one part in 10^15; exterior lights burn outside the span of hours with sun. -/
def MonthlyResult (x : Sim ℝ) (m : Fin 12) : Fin 13 → ℝ → Prop
  | 0, v => v = perArea x (heatElectricity x m)
  | 1, v => v = perArea x (coldElectricity x m)
  | 2, v => |v - lightsYear x / x.bldg.floorArea * (days m / 365)| ≤ |lightsYear x / x.bldg.floorArea| / 10 ^ 15
  | 3, v => ∃ j k : Fin 24, Daylight (x.weather.mhEgh m) j k ∧
      v = days m * (24 - ((k.val : ℝ) - j.val + 1)) * x.lights.exteriorEnergy / 1000 / x.bldg.floorArea
  | 4, v => v = fansMonth x m
  | 5, v => v = perArea x (pumpsMonth x m)
  | 6, v => v = appliancesMonth x m x.building.electricApplianceHeatGainOccupied x.building.electricApplianceHeatGainUnoccupied
  | 7, v => v = 0
  | 8, v => v = if x.heating.hotWaterEnergyType = 1 then waterMonth x m / x.bldg.floorArea else 0
  | 9, v => v = perArea x (heatGas x m)
  | 10, v => v = perArea x (coldGas x m)
  | 11, v => v = appliancesMonth x m x.building.gasApplianceHeatGainOccupied x.building.gasApplianceHeatGainUnoccupied
  | 12, v => v = if x.heating.hotWaterEnergyType = 1 then 0 else waterMonth x m / x.bldg.floorArea
  | _, _ => False

/-! ## the printed table -/

/-- the printed text is a table with this title and this name of the first column, then the names of the end uses, then `n` lines
numbered from one; the cell of line `i` and end use `k`, read as a number, is `value i k` to `P` digits -/
structure PrintsTable (text title first : Str) (n P : ℕ) (value : ℕ → Fin 13 → Dbl) : Prop where
  lines : (readTable ',' text).length = n + 2
  title : (readTable ',' text)[0]? = some [title]
  names : (readTable ',' text)[1]? = some (first :: useNames)
  cells : ∀ i < n, ∃ row, (readTable ',' text)[i + 2]? = some row ∧ row.length = 14 ∧ row[0]? = some (Nat.repr (i + 1)).toList ∧
    ∀ k : Fin 13, ∃ cell, row[k.1 + 1]? = some cell ∧ ToDigits P (value i k) (atof cell)

/-- The printed text is a comparison, in markdown or with commas: for every end use `k` a block with the names of the columns (in
markdown also a line of dashes), twelve lines numbered from zero, and an empty line.  The cells of a month, read as numbers, are to six
digits the result `monthly` of the one simulation, the result `hourly` of the other, and their difference.  (In markdown, a line begins
and ends with a bar, so there is an empty cell in front.) -/
structure PrintsComparison (markdown : Bool) (text : Str) (monthly hourly : ℕ → Fin 13 → Dbl) : Prop where
  lines : (readTable (if markdown then '|' else ',') text).length = 13 * (if markdown then 15 else 14)
  names : ∀ k : Fin 13, ∃ row, (readTable (if markdown then '|' else ',') text)[k.1 * (if markdown then 15 else 14)]? = some row ∧
    row.drop (if markdown then 1 else 0) = ["Month".toList, "Monthly ".toList ++ useNames.getD k [], "Hourly ".toList ++ useNames.getD k [],
      "Difference".toList] ++ (if markdown then [[]] else [])
  cells : ∀ (k : Fin 13) (i : ℕ), i < 12 → ∃ row a b c,
    (readTable (if markdown then '|' else ',') text)[k.1 * (if markdown then 15 else 14) + (if markdown then 2 else 1) + i]? = some row ∧
    row.drop (if markdown then 1 else 0) = [(Nat.repr i).toList, a, b, c] ++ (if markdown then [[]] else []) ∧
    ToDigits 6 (monthly i k) (atof a) ∧ ToDigits 6 (hourly i k) (atof b) ∧ ToDigits 6 (monthly i k - hourly i k) (atof c)

end ISO.Spec.EndToEnd
