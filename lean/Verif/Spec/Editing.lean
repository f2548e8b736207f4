import Verif.Spec.EndToEnd

/-!
# Specification: what an edit of the building file changes in the printed tables

The parameters by the names they have in the file, in groups, and the columns of the tables that a group belongs to.
-/

namespace ISO.Spec.Editing
open ISO ISO.Spec

/-- hot water: demand, efficiencies, fuel, temperatures -/
def hotWaterNames : List String :=
  ["dhwfueltype", "dhwdemand", "dhwsystemefficiency", "dhwdistributionefficiency", "dhw_tset", "dhw_tsupply", "rhocpwater"]

/-- the lights outside -/
def exteriorLightsNames : List String :=
  ["exteriorlightingpower"]

/-- the boiler and the district heating -/
def heatingSystemNames : List String :=
  ["heatingsystemefficiency", "heatingfueltype", "dh_yesno", "eta_dh_network", "eta_dh_sys", "frac_dh_free"]

/-- the chiller and the district cooling -/
def coolingSystemNames : List String :=
  ["coolingsystemcop", "coolingsystemiplvtocopratio", "dc_yesno", "eta_dc_network", "eta_dc_cop", "eta_dc_frac_abs", "eta_dc_cop_abs",
   "frac_dc_free"]

/-- losses of the distribution of heat and cold -/
def distributionNames : List String :=
  ["hvacwastefactor", "hvacheatinglossfactor", "hvaccoolinglossfactor"]

/-- the fans and the temperatures of the air they supply -/
def fansNames : List String :=
  ["specificfanpower", "forcedaircooling", "dt_supp_cl", "forcedairheating", "dt_supp_ht"]

/-- the pumps -/
def pumpsNames : List String :=
  ["heatingpumpcontrol", "coolingpumpcontrol", "e_pumps_cl", "e_pumps_ht"]

/-- envelope, set-points, people, site and air supply -/
def comfortNames : List String :=
  ["terrainclass", "buildingheight", "peopledensityoccupied", "peopledensityunoccupied", "ventilationtype",
   "ventilationintakerateoccupied", "ventilationExhaustRateOccupied", "heatrecovery", "exhaustairrecirculation",
   "infiltrationrateoccupied", "interiorheatcapacity", "exteriorheatcapacity", "heatgainperperson", "specificfanpower",
   "fanflowcontrolfactor", "coolingsetpointoccupied", "coolingsetpointunoccupied", "heatingsetpointoccupied",
   "heatingsetpointunoccupied", "t_cl_ctrl_flag", "t_ht_ctrl_flag", "a_h0", "tau_h0", "rhocpair", "r_se",
   "irradianceformaxshadinguse", "shadingfactoratmaxuse", "totalareaperfloorarea", "win_ff", "win_f_w", "r_sc_ext", "ventpreheatdegc",
   "n50", "hzone", "p_exp", "zone_frac", "stack_exp", "stack_coeff", "wind_exp", "wind_coeff", "dcp", "vent_rate_flag", "h_ve",
   "wallArea", "wallU", "wallEmissivity", "wallAbsorption", "windowArea", "windowU", "windowSHGC", "windowSCF"]

/-- set-points, ventilation and thermal properties -/
def climateNames : List String :=
  ["buildingheight", "ventilationtype", "ventilationintakerateoccupied", "ventilationExhaustRateOccupied", "heatrecovery",
   "exhaustairrecirculation", "interiorheatcapacity", "exteriorheatcapacity", "specificfanpower", "fanflowcontrolfactor",
   "coolingsetpointoccupied", "coolingsetpointunoccupied", "heatingsetpointoccupied", "heatingsetpointunoccupied",
   "elecinternalgains", "rhocpair", "phiintfractiontoairnode", "phisolfractiontoairnode", "hci", "hri", "r_se",
   "totalareaperfloorarea", "ventpreheatdegc", "n50", "hzone", "p_exp", "zone_frac", "stack_exp", "stack_coeff", "wind_exp",
   "wind_coeff", "dcp", "vent_rate_flag", "h_ve", "wallArea", "wallU", "wallAbsorption", "windowU", "windowSHGC", "windowSCF"]

/-- the equipment outside -/
def exteriorEquipmentNames : List String :=
  ["externalequipment"]

/-- what only the hourly simulation uses -/
def hourlyOnlyNames : List String :=
  ["externalequipment", "forcedaircooling", "forcedairheating", "elecinternalgains", "permlightpowerdensity", "presencesensorad",
   "automaticad", "presenceautoad", "manualswitchad", "presencesensorlux", "automaticlux", "presenceautolux", "manualswitchlux",
   "naturallylightedarea", "phiintfractiontoairnode", "phisolfractiontoairnode", "hci", "hri", "r_se", "irradianceformaxshadinguse",
   "shadingfactoratmaxuse", "totalareaperfloorarea", "ventpreheatdegc", "n50", "hzone", "p_exp"]

/-- what only the monthly simulation uses -/
def monthlyOnlyNames : List String :=
  ["terrainclass", "peopledensityoccupied", "peopledensityunoccupied", "gasappliancepowerdensityoccupied",
   "gasappliancepowerdensityunoccupied", "constantilluminationcontrolmultiplier", "coolingsystemiplvtocopratio", "ventilationtype",
   "dhwfueltype", "bemtype", "ventilationExhaustRateOccupied", "exhaustairrecirculation", "infiltrationrateoccupied", "dhwdemand",
   "dhwsystemefficiency", "dhwdistributionefficiency", "heatgainperperson", "t_cl_ctrl_flag", "dc_yesno", "eta_dc_network",
   "eta_dc_cop", "eta_dc_frac_abs", "eta_dc_cop_abs", "frac_dc_free", "t_ht_ctrl_flag", "a_h0", "tau_h0", "dh_yesno",
   "eta_dh_network", "eta_dh_sys", "frac_dh_free", "dhw_tset", "dhw_tsupply", "n_day_start", "n_day_end", "n_weeks",
   "permlightpowerdensity", "rhocpwater", "win_ff", "win_f_w", "r_sc_ext", "p_exp", "zone_frac", "stack_exp", "stack_coeff",
   "wind_exp", "wind_coeff", "vent_rate_flag", "h_ve", "wallEmissivity"]

/-- the lights inside: power, control, daylight and hours -/
def interiorLightsNames : List String :=
  ["lightingpowerdensityoccupied", "lightingpowerdensityunoccupied", "daylightsensordimmingfraction",
   "lightingoccupancysensordimmingfraction", "constantilluminationcontrolmultiplier", "n_day_start", "n_day_end", "n_weeks",
   "elecinternalgains", "permlightpowerdensity", "presencesensorad", "automaticad", "presenceautoad", "manualswitchad",
   "presencesensorlux", "automaticlux", "presenceautolux", "manualswitchlux", "naturallylightedarea"]

/-- the electric appliances inside -/
def electricAppliancesNames : List String :=
  ["electricappliancepowerdensityoccupied", "electricappliancepowerdensityunoccupied"]

/-- the gas appliances inside -/
def gasAppliancesNames : List String :=
  ["gasappliancepowerdensityoccupied", "gasappliancepowerdensityunoccupied"]

/-- the days and hours at which the building is in use -/
def occupancyNames : List String :=
  ["occupancydayfirst", "occupancydaylast", "occupancyhourfirst", "occupancyhourlast"]

/-- the floor area -/
def floorNames : List String :=
  ["floorarea"]

/-- the windows and their shading -/
def windowsNames : List String :=
  ["irradianceformaxshadinguse", "shadingfactoratmaxuse", "windowArea", "windowSDF"]

/-- the energy management -/
def managementNames : List String :=
  ["bemtype"]

/-- the shading devices -/
def shadesNames : List String :=
  ["windowSDF"]

/-- where the weather file is; the weather itself is a matter of the file -/
def weatherFileNames : List String :=
  ["weatherfilepath"]

/-- groups of parameters with the columns of the monthly table they belong to (0: electric heating, 1: electric cooling, 2: lighting, 3: exterior
lighting, 4: fans, 5: pumps, 6: electric equipment, 7: exterior equipment, 8: electric hot water, 9: gas heating, 10: gas cooling, 11: gas
equipment, 12: gas hot water) -/
def monthlyGroups : List (List String × List (Fin 13)) :=
  [(hotWaterNames, [8, 12]),
   (heatingSystemNames, [0, 9]),
   (coolingSystemNames, [1, 10]),
   (distributionNames, [0, 9, 1, 10]),
   (pumpsNames, [5]),
   (hourlyOnlyNames, []),
   (exteriorLightsNames, [3]),
   (fansNames, [4]),
   (comfortNames, [0, 1, 4, 5, 9, 10]),
   (interiorLightsNames, [2, 0, 1, 4, 5, 9, 10]),
   (electricAppliancesNames, [6, 0, 1, 4, 5, 9, 10]),
   (gasAppliancesNames, [11, 0, 1, 4, 5, 9, 10]),
   (occupancyNames, [2, 6, 11, 0, 1, 4, 5, 9, 10]),
   (floorNames, [0, 1, 2, 3, 4, 5, 8, 9, 10, 12]),
   (weatherFileNames, []),
   (managementNames, [0, 1, 4, 5, 9, 10])]

/-- the same for the tables of the hourly simulation -/
def hourlyGroups : List (List String × List (Fin 13)) :=
  [(exteriorLightsNames, [3]),
   (exteriorEquipmentNames, [7]),
   (heatingSystemNames, [0, 9]),
   (coolingSystemNames, [1]),
   (distributionNames, [0, 1, 9]),
   (fansNames, [4]),
   (pumpsNames, [5]),
   (monthlyOnlyNames, []),
   (climateNames, [0, 1, 9, 4, 5]),
   (interiorLightsNames, [2, 0, 1, 9, 4, 5]),
   (electricAppliancesNames, [6, 0, 1, 9, 4, 5]),
   (windowsNames, [2, 0, 1, 9, 4, 5]),
   (floorNames, [0, 1, 2, 3, 4, 5, 7, 9]),
   (weatherFileNames, [])]

/-- parameters with which the monthly simulation may run into undefined behaviour: shading devices that are of no known kind -/
def monthlyKinds : List (List String × List (Fin 13)) :=
  [(shadesNames, [0, 1, 4, 5, 9, 10])]

/-- the same for the hourly simulation: days and hours that are too large for an `int` -/
def hourlyKinds : List (List String × List (Fin 13)) :=
  [(occupancyNames, [2, 6, 0, 1, 9, 4, 5])]

/-- two building files that give all parameters alike, but for those named -/
def Edited (names : List String) (file file' : Properties.Store) : Prop :=
  ∀ r ∈ Param.table, r.name ∉ names → Param.given file' r.name = Param.given file r.name

/-- the text of a cell of a printed table, in line `i` -/
def cell (text : Str) (i j : ℕ) : Option Str := (readTable ',' text)[i]?.bind (·[j]?)

/-- Two printed tables have the same lines, and every cell is the same text but for those in the given columns (after the title, the names
and the number in front). -/
structure SameTable (columns : List (Fin 13)) (text text' : Str) : Prop where
  lines : (readTable ',' text').length = (readTable ',' text).length
  title : ∀ j, cell text' 0 j = cell text 0 j ∧ cell text' 1 j = cell text 1 j
  number : ∀ i, cell text' i 0 = cell text i 0
  cells : ∀ i (k : Fin 13), k ∉ columns → cell text' i (k + 1) = cell text i (k + 1)
  columns : ∀ i j, 13 < j → cell text' i j = none ∧ cell text i j = none

end ISO.Spec.Editing
