import Verif.Model.Parameters

/-!
# Specification: the parameters of an .ism file

`table` lists the parameters in the order in which they are checked; `stored` says where each one ends up.
-/

namespace ISO.Spec.Param
open ISO ISO.User CNum

/-- kinds of parameters -/
inductive Kind where
  | number
  | integer
  | boolean
  | facades
  | keyword (allowed : List String)
  | text
  deriving DecidableEq

structure Row where
  name : String
  kind : Kind
  required : Bool
  deriving DecidableEq

/-- the parameters -/
def table : List Row := [
  ⟨"terrainclass", .number, true⟩,
  ⟨"buildingheight", .number, true⟩,
  ⟨"floorarea", .number, true⟩,
  ⟨"occupancydayfirst", .number, true⟩,
  ⟨"occupancydaylast", .number, true⟩,
  ⟨"occupancyhourfirst", .number, true⟩,
  ⟨"occupancyhourlast", .number, true⟩,
  ⟨"peopledensityoccupied", .number, true⟩,
  ⟨"peopledensityunoccupied", .number, true⟩,
  ⟨"lightingpowerdensityoccupied", .number, true⟩,
  ⟨"lightingpowerdensityunoccupied", .number, true⟩,
  ⟨"electricappliancepowerdensityoccupied", .number, true⟩,
  ⟨"electricappliancepowerdensityunoccupied", .number, true⟩,
  ⟨"gasappliancepowerdensityoccupied", .number, true⟩,
  ⟨"gasappliancepowerdensityunoccupied", .number, true⟩,
  ⟨"exteriorlightingpower", .number, true⟩,
  ⟨"hvacwastefactor", .number, true⟩,
  ⟨"hvacheatinglossfactor", .number, true⟩,
  ⟨"hvaccoolinglossfactor", .number, true⟩,
  ⟨"daylightsensordimmingfraction", .number, true⟩,
  ⟨"lightingoccupancysensordimmingfraction", .number, true⟩,
  ⟨"constantilluminationcontrolmultiplier", .number, true⟩,
  ⟨"coolingsystemcop", .number, true⟩,
  ⟨"coolingsystemiplvtocopratio", .number, true⟩,
  ⟨"heatingsystemefficiency", .number, true⟩,
  ⟨"heatingfueltype", .keyword ["electric", "gas"], true⟩,
  ⟨"ventilationtype", .keyword ["mechanical", "combined", "natural"], true⟩,
  ⟨"dhwfueltype", .keyword ["electric", "gas"], true⟩,
  ⟨"bemtype", .keyword ["none", "simple", "advanced"], true⟩,
  ⟨"ventilationintakerateoccupied", .number, true⟩,
  ⟨"ventilationExhaustRateOccupied", .number, true⟩,
  ⟨"heatrecovery", .number, true⟩,
  ⟨"exhaustairrecirculation", .number, true⟩,
  ⟨"infiltrationrateoccupied", .number, true⟩,
  ⟨"dhwdemand", .number, true⟩,
  ⟨"dhwsystemefficiency", .number, true⟩,
  ⟨"dhwdistributionefficiency", .number, true⟩,
  ⟨"interiorheatcapacity", .number, true⟩,
  ⟨"exteriorheatcapacity", .number, true⟩,
  ⟨"heatingpumpcontrol", .number, true⟩,
  ⟨"coolingpumpcontrol", .number, true⟩,
  ⟨"heatgainperperson", .number, true⟩,
  ⟨"specificfanpower", .number, true⟩,
  ⟨"fanflowcontrolfactor", .number, true⟩,
  ⟨"coolingsetpointoccupied", .number, true⟩,
  ⟨"coolingsetpointunoccupied", .number, true⟩,
  ⟨"heatingsetpointoccupied", .number, true⟩,
  ⟨"heatingsetpointunoccupied", .number, true⟩,
  ⟨"weatherfilepath", .text, true⟩,
  ⟨"externalequipment", .number, false⟩,
  ⟨"forcedaircooling", .boolean, false⟩,
  ⟨"t_cl_ctrl_flag", .number, false⟩,
  ⟨"dt_supp_cl", .number, false⟩,
  ⟨"dc_yesno", .number, false⟩,
  ⟨"eta_dc_network", .number, false⟩,
  ⟨"eta_dc_cop", .number, false⟩,
  ⟨"eta_dc_frac_abs", .number, false⟩,
  ⟨"eta_dc_cop_abs", .number, false⟩,
  ⟨"frac_dc_free", .number, false⟩,
  ⟨"e_pumps_cl", .number, false⟩,
  ⟨"forcedairheating", .boolean, false⟩,
  ⟨"dt_supp_ht", .number, false⟩,
  ⟨"e_pumps_ht", .number, false⟩,
  ⟨"t_ht_ctrl_flag", .number, false⟩,
  ⟨"a_h0", .number, false⟩,
  ⟨"tau_h0", .number, false⟩,
  ⟨"dh_yesno", .number, false⟩,
  ⟨"eta_dh_network", .number, false⟩,
  ⟨"eta_dh_sys", .number, false⟩,
  ⟨"frac_dh_free", .number, false⟩,
  ⟨"dhw_tset", .number, false⟩,
  ⟨"dhw_tsupply", .number, false⟩,
  ⟨"n_day_start", .number, false⟩,
  ⟨"n_day_end", .number, false⟩,
  ⟨"n_weeks", .number, false⟩,
  ⟨"elecinternalgains", .number, false⟩,
  ⟨"permlightpowerdensity", .number, false⟩,
  ⟨"presencesensorad", .number, false⟩,
  ⟨"automaticad", .number, false⟩,
  ⟨"presenceautoad", .number, false⟩,
  ⟨"manualswitchad", .number, false⟩,
  ⟨"presencesensorlux", .number, false⟩,
  ⟨"automaticlux", .number, false⟩,
  ⟨"presenceautolux", .number, false⟩,
  ⟨"manualswitchlux", .number, false⟩,
  ⟨"naturallylightedarea", .number, false⟩,
  ⟨"rhocpair", .number, false⟩,
  ⟨"rhocpwater", .number, false⟩,
  ⟨"phiintfractiontoairnode", .number, false⟩,
  ⟨"phisolfractiontoairnode", .number, false⟩,
  ⟨"hci", .number, false⟩,
  ⟨"hri", .number, false⟩,
  ⟨"r_se", .number, false⟩,
  ⟨"irradianceformaxshadinguse", .number, false⟩,
  ⟨"shadingfactoratmaxuse", .number, false⟩,
  ⟨"totalareaperfloorarea", .number, false⟩,
  ⟨"win_ff", .number, false⟩,
  ⟨"win_f_w", .number, false⟩,
  ⟨"r_sc_ext", .number, false⟩,
  ⟨"ventpreheatdegc", .number, false⟩,
  ⟨"n50", .number, false⟩,
  ⟨"hzone", .number, false⟩,
  ⟨"p_exp", .number, false⟩,
  ⟨"zone_frac", .number, false⟩,
  ⟨"stack_exp", .number, false⟩,
  ⟨"stack_coeff", .number, false⟩,
  ⟨"wind_exp", .number, false⟩,
  ⟨"wind_coeff", .number, false⟩,
  ⟨"dcp", .number, false⟩,
  ⟨"vent_rate_flag", .integer, false⟩,
  ⟨"h_ve", .number, false⟩,
  ⟨"wallArea", .facades, true⟩,
  ⟨"wallU", .facades, true⟩,
  ⟨"wallEmissivity", .facades, true⟩,
  ⟨"wallAbsorption", .facades, true⟩,
  ⟨"windowArea", .facades, true⟩,
  ⟨"windowU", .facades, true⟩,
  ⟨"windowSHGC", .facades, true⟩,
  ⟨"windowSCF", .facades, true⟩,
  ⟨"windowSDF", .facades, true⟩]

section
variable {α : Type}
variable (stod : Str → Except Properties.ConvError α) (file : Properties.Store)

/-- the text given for a parameter -/
def given (name : String) : Option Str := Properties.getProperty name.toList file

/-- the file without the lines of any parameter outside `rows` -/
def only (rows : List Row) : Properties.Store :=
  file.filter fun line => line.1 ∈ rows.map fun r => lower r.name.toList

/-- the number given for a parameter, if there is one and it can be read -/
def number (name : String) : Option α := (given file name).bind fun t => (stod t).toOption

/-- likewise for an integer -/
def integer (name : String) : Option Int := (given file name).bind fun t => (Properties.stoi t).toOption

/-- likewise for `true` / `false` -/
def boolean (name : String) : Option Bool :=
  (given file name).bind fun t => if t = "true".toList then some true else if t = "false".toList then some false else none

/-- the nine numbers given for the facades N, NE, E, SE, S, SW, W, NW and the roof -/
def facades (name : String) : Option (Fin 9 → α) :=
  match Properties.getPropertyAsDoubleVector stod name.toList file with
  | .ok (some [n, ne, e, se, s, sw, w, nw, roof]) => some fun i => [s, se, e, ne, n, nw, w, sw, roof].getD i.1 n
  | _ => none

/-- the code of the keyword given, `1` for the first allowed one -/
def code [CNum α] (name : String) (allowed : List (String × α)) : Option α :=
  (given file name).bind fun t => (allowed.find? fun a => lower t = a.1.toList).map Prod.snd

/-- how a parameter is judged -/
inductive Verdict where
  | accepted
  | missing
  | outOfRange
  | wrongCount
  | badKeyword
  | badEscape
  | undefined
  deriving DecidableEq

/-- a number that cannot be read counts as absent; one out of range is an error of its own -/
def ofRead {β : Type} (required : Bool) : Option (Except Properties.ConvError β) → Verdict
  | none => if required then .missing else .accepted
  | some (.ok _) => .accepted
  | some (.error .invalidArgument) => if required then .missing else .accepted
  | some (.error .outOfRange) => .outOfRange

def judge (r : Row) : Verdict :=
  match r.kind with
  | .number => ofRead r.required ((given file r.name).map stod)
  | .integer => ofRead r.required ((given file r.name).map Properties.stoi)
  | .boolean => if (boolean file r.name).isSome || !r.required then .accepted else .missing
  | .text => if (given file r.name).isSome || !r.required then .accepted else .missing
  | .keyword allowed =>
    match given file r.name with
    | none => if r.required then .missing else .accepted
    | some t => if lower t ∈ allowed.map String.toList then .accepted else .badKeyword
  | .facades =>
    match given file r.name with
    | none => if r.required then .missing else .accepted
    | some t =>
      match Properties.tokens t with
      | .error _ => .badEscape
      | .ok ts =>
        match Properties.stodAll stod ts with
        | .error .invalidArgument => if r.required then .missing else .accepted
        | .error .outOfRange => .outOfRange
        | .ok v => if v.length < 8 then .undefined else if v.length = 9 then .accepted else .wrongCount

variable [CNum α]

/-- the parameters of the model after loading: those given, else what was there before -/
def stored (u : Params α) : Params α where
  pop :=
    { hoursEnd := (number stod file "occupancyhourlast").getD u.pop.hoursEnd
      hoursStart := (number stod file "occupancyhourfirst").getD u.pop.hoursStart
      daysEnd := (number stod file "occupancydaylast").getD u.pop.daysEnd
      daysStart := (number stod file "occupancydayfirst").getD u.pop.daysStart
      densityOccupied := (number stod file "peopledensityoccupied").getD u.pop.densityOccupied
      densityUnoccupied := (number stod file "peopledensityunoccupied").getD u.pop.densityUnoccupied
      heatGainPerPerson := (number stod file "heatgainperperson").getD u.pop.heatGainPerPerson }
  lights :=
    { powerDensityOccupied := (number stod file "lightingpowerdensityoccupied").getD u.lights.powerDensityOccupied
      powerDensityUnoccupied := (number stod file "lightingpowerdensityunoccupied").getD u.lights.powerDensityUnoccupied
      dimmingFraction := (number stod file "daylightsensordimmingfraction").getD u.lights.dimmingFraction
      exteriorEnergy := (number stod file "exteriorlightingpower").getD u.lights.exteriorEnergy
      n_day_start := (number stod file "n_day_start").getD u.lights.n_day_start
      n_day_end := (number stod file "n_day_end").getD u.lights.n_day_end
      n_weeks := (number stod file "n_weeks").getD u.lights.n_weeks
      elecInternalGains := (number stod file "elecinternalgains").getD u.lights.elecInternalGains
      permLightPowerDensity := (number stod file "permlightpowerdensity").getD u.lights.permLightPowerDensity
      presenceSensorAd := (number stod file "presencesensorad").getD u.lights.presenceSensorAd
      automaticAd := (number stod file "automaticad").getD u.lights.automaticAd
      presenceAutoAd := (number stod file "presenceautoad").getD u.lights.presenceAutoAd
      manualSwitchAd := (number stod file "manualswitchad").getD u.lights.manualSwitchAd
      presenceSensorLux := (number stod file "presencesensorlux").getD u.lights.presenceSensorLux
      automaticLux := (number stod file "automaticlux").getD u.lights.automaticLux
      presenceAutoLux := (number stod file "presenceautolux").getD u.lights.presenceAutoLux
      manualSwitchLux := (number stod file "manualswitchlux").getD u.lights.manualSwitchLux
      naturallyLightedArea := (number stod file "naturallylightedarea").getD u.lights.naturallyLightedArea }
  building :=
    { lightingOccupancySensor := (number stod file "lightingoccupancysensordimmingfraction").getD u.building.lightingOccupancySensor
      constantIllumination := (number stod file "constantilluminationcontrolmultiplier").getD u.building.constantIllumination
      electricApplianceHeatGainOccupied := (number stod file "electricappliancepowerdensityoccupied").getD u.building.electricApplianceHeatGainOccupied
      electricApplianceHeatGainUnoccupied := (number stod file "electricappliancepowerdensityunoccupied").getD u.building.electricApplianceHeatGainUnoccupied
      gasApplianceHeatGainOccupied := (number stod file "gasappliancepowerdensityoccupied").getD u.building.gasApplianceHeatGainOccupied
      gasApplianceHeatGainUnoccupied := (number stod file "gasappliancepowerdensityunoccupied").getD u.building.gasApplianceHeatGainUnoccupied
      buildingEnergyManagement := (code file "bemtype" [("none", 1.0), ("simple", 2.0), ("advanced", 3.0)]).getD u.building.buildingEnergyManagement
      externalEquipment := (number stod file "externalequipment").getD u.building.externalEquipment }
  bldg :=
    { floorArea := (number stod file "floorarea").getD u.bldg.floorArea
      wallArea := (facades stod file "wallArea").getD u.bldg.wallArea
      windowArea := (facades stod file "windowArea").getD u.bldg.windowArea
      wallUniform := (facades stod file "wallU").getD u.bldg.wallUniform
      windowUniform := (facades stod file "windowU").getD u.bldg.windowUniform
      wallThermalEmissivity := (facades stod file "wallEmissivity").getD u.bldg.wallThermalEmissivity
      wallSolarAbsorption := (facades stod file "wallAbsorption").getD u.bldg.wallSolarAbsorption
      windowShadingDevice := (facades stod file "windowSDF").getD u.bldg.windowShadingDevice
      windowNormalIncidenceSolarEnergyTransmittance := (facades stod file "windowSHGC").getD u.bldg.windowNormalIncidenceSolarEnergyTransmittance
      windowShadingCorrectionFactor := (facades stod file "windowSCF").getD u.bldg.windowShadingCorrectionFactor
      interiorHeatCapacity := (number stod file "interiorheatcapacity").getD u.bldg.interiorHeatCapacity
      wallHeatCapacity := (number stod file "exteriorheatcapacity").getD u.bldg.wallHeatCapacity
      buildingHeight := (number stod file "buildingheight").getD u.bldg.buildingHeight
      infiltrationRate := (number stod file "infiltrationrateoccupied").getD u.bldg.infiltrationRate
      R_se := (number stod file "r_se").getD u.bldg.R_se
      irradianceForMaxShadingUse := (number stod file "irradianceformaxshadinguse").getD u.bldg.irradianceForMaxShadingUse
      shadingFactorAtMaxUse := (number stod file "shadingfactoratmaxuse").getD u.bldg.shadingFactorAtMaxUse
      totalAreaPerFloorArea := (number stod file "totalareaperfloorarea").getD u.bldg.totalAreaPerFloorArea
      win_ff := (number stod file "win_ff").getD u.bldg.win_ff
      win_F_W := (number stod file "win_f_w").getD u.bldg.win_F_W
      R_sc_ext := (number stod file "r_sc_ext").getD u.bldg.R_sc_ext }
  heating :=
    { temperatureSetPointOccupied := (number stod file "heatingsetpointoccupied").getD u.heating.temperatureSetPointOccupied
      temperatureSetPointUnoccupied := (number stod file "heatingsetpointunoccupied").getD u.heating.temperatureSetPointUnoccupied
      hvacLossFactor := (number stod file "hvacheatinglossfactor").getD u.heating.hvacLossFactor
      efficiency := (number stod file "heatingsystemefficiency").getD u.heating.efficiency
      energyType := (code file "heatingfueltype" [("electric", 1.0), ("gas", 2.0)]).getD u.heating.energyType
      pumpControlReduction := (number stod file "heatingpumpcontrol").getD u.heating.pumpControlReduction
      hotWaterDemand := (number stod file "dhwdemand").getD u.heating.hotWaterDemand
      hotWaterDistributionEfficiency := (number stod file "dhwdistributionefficiency").getD u.heating.hotWaterDistributionEfficiency
      hotWaterSystemEfficiency := (number stod file "dhwsystemefficiency").getD u.heating.hotWaterSystemEfficiency
      hotWaterEnergyType := (code file "dhwfueltype" [("electric", 1.0), ("gas", 2.0)]).getD u.heating.hotWaterEnergyType
      hotcoldWasteFactor := (number stod file "hvacwastefactor").getD u.heating.hotcoldWasteFactor
      forcedAirHeating := (boolean file "forcedairheating").getD u.heating.forcedAirHeating
      dT_supp_ht := (number stod file "dt_supp_ht").getD u.heating.dT_supp_ht
      E_pumps := (number stod file "e_pumps_ht").getD u.heating.E_pumps
      T_ht_ctrl_flag := (number stod file "t_ht_ctrl_flag").getD u.heating.T_ht_ctrl_flag
      a_H0 := (number stod file "a_h0").getD u.heating.a_H0
      tau_H0 := (number stod file "tau_h0").getD u.heating.tau_H0
      DH_YesNo := (number stod file "dh_yesno").getD u.heating.DH_YesNo
      eta_DH_network := (number stod file "eta_dh_network").getD u.heating.eta_DH_network
      eta_DH_sys := (number stod file "eta_dh_sys").getD u.heating.eta_DH_sys
      frac_DH_free := (number stod file "frac_dh_free").getD u.heating.frac_DH_free
      dhw_tset := (number stod file "dhw_tset").getD u.heating.dhw_tset
      dhw_tsupply := (number stod file "dhw_tsupply").getD u.heating.dhw_tsupply }
  cooling :=
    { temperatureSetPointOccupied := (number stod file "coolingsetpointoccupied").getD u.cooling.temperatureSetPointOccupied
      temperatureSetPointUnoccupied := (number stod file "coolingsetpointunoccupied").getD u.cooling.temperatureSetPointUnoccupied
      cop := (number stod file "coolingsystemcop").getD u.cooling.cop
      partialLoadValue := (number stod file "coolingsystemiplvtocopratio").getD u.cooling.partialLoadValue
      hvacLossFactor := (number stod file "hvaccoolinglossfactor").getD u.cooling.hvacLossFactor
      pumpControlReduction := (number stod file "coolingpumpcontrol").getD u.cooling.pumpControlReduction
      forcedAirCooling := (boolean file "forcedaircooling").getD u.cooling.forcedAirCooling
      T_cl_ctrl_flag := (number stod file "t_cl_ctrl_flag").getD u.cooling.T_cl_ctrl_flag
      dT_supp_cl := (number stod file "dt_supp_cl").getD u.cooling.dT_supp_cl
      DC_YesNo := (number stod file "dc_yesno").getD u.cooling.DC_YesNo
      eta_DC_network := (number stod file "eta_dc_network").getD u.cooling.eta_DC_network
      eta_DC_COP := (number stod file "eta_dc_cop").getD u.cooling.eta_DC_COP
      eta_DC_frac_abs := (number stod file "eta_dc_frac_abs").getD u.cooling.eta_DC_frac_abs
      eta_DC_COP_abs := (number stod file "eta_dc_cop_abs").getD u.cooling.eta_DC_COP_abs
      frac_DC_free := (number stod file "frac_dc_free").getD u.cooling.frac_DC_free
      E_pumps := (number stod file "e_pumps_cl").getD u.cooling.E_pumps }
  ventilation :=
    { supplyRate := (number stod file "ventilationintakerateoccupied").getD u.ventilation.supplyRate
      supplyDifference := (number stod file "ventilationExhaustRateOccupied").getD u.ventilation.supplyDifference
      heatRecoveryEfficiency := (number stod file "heatrecovery").getD u.ventilation.heatRecoveryEfficiency
      exhaustAirRecirculated := (number stod file "exhaustairrecirculation").getD u.ventilation.exhaustAirRecirculated
      ventType := (code file "ventilationtype" [("mechanical", 1.0), ("combined", 2.0), ("natural", 3.0)]).getD u.ventilation.ventType
      fanPower := (number stod file "specificfanpower").getD u.ventilation.fanPower
      fanControlFactor := (number stod file "fanflowcontrolfactor").getD u.ventilation.fanControlFactor
      ventPreheatDegC := (number stod file "ventpreheatdegc").getD u.ventilation.ventPreheatDegC
      n50 := (number stod file "n50").getD u.ventilation.n50
      hzone := (number stod file "hzone").getD u.ventilation.hzone
      p_exp := (number stod file "p_exp").getD u.ventilation.p_exp
      zone_frac := (number stod file "zone_frac").getD u.ventilation.zone_frac
      stack_exp := (number stod file "stack_exp").getD u.ventilation.stack_exp
      stack_coeff := (number stod file "stack_coeff").getD u.ventilation.stack_coeff
      wind_exp := (number stod file "wind_exp").getD u.ventilation.wind_exp
      wind_coeff := (number stod file "wind_coeff").getD u.ventilation.wind_coeff
      dCp := (number stod file "dcp").getD u.ventilation.dCp
      vent_rate_flag := (integer file "vent_rate_flag").getD u.ventilation.vent_rate_flag
      H_ve := (number stod file "h_ve").getD u.ventilation.H_ve }
  phys :=
    { rhoCpAir := (number stod file "rhocpair").getD u.phys.rhoCpAir
      rhoCpWater := (number stod file "rhocpwater").getD u.phys.rhoCpWater }
  simSettings :=
    { phiIntFractionToAirNode := (number stod file "phiintfractiontoairnode").getD u.simSettings.phiIntFractionToAirNode
      phiSolFractionToAirNode := (number stod file "phisolfractiontoairnode").getD u.simSettings.phiSolFractionToAirNode
      hci := (number stod file "hci").getD u.simSettings.hci
      hri := (number stod file "hri").getD u.simSettings.hri }
  terrain := (number stod file "terrainclass").getD u.terrain
  weatherFilePath := (given file "weatherfilepath").getD u.weatherFilePath

/-- default of each optional number, and where the model keeps it -/
def defaults : List (String × (Params α → α) × α) := [
  ("externalequipment", fun u => u.building.externalEquipment, 0.0),
  ("t_cl_ctrl_flag", fun u => u.cooling.T_cl_ctrl_flag, 1.0),
  ("dt_supp_cl", fun u => u.cooling.dT_supp_cl, 7.0),
  ("dc_yesno", fun u => u.cooling.DC_YesNo, 0.0),
  ("eta_dc_network", fun u => u.cooling.eta_DC_network, 0.9),
  ("eta_dc_cop", fun u => u.cooling.eta_DC_COP, 5.5),
  ("eta_dc_frac_abs", fun u => u.cooling.eta_DC_frac_abs, 0.0),
  ("eta_dc_cop_abs", fun u => u.cooling.eta_DC_COP_abs, 1.0),
  ("frac_dc_free", fun u => u.cooling.frac_DC_free, 0.0),
  ("e_pumps_cl", fun u => u.cooling.E_pumps, 0.25),
  ("dt_supp_ht", fun u => u.heating.dT_supp_ht, 7.0),
  ("e_pumps_ht", fun u => u.heating.E_pumps, 0.25),
  ("t_ht_ctrl_flag", fun u => u.heating.T_ht_ctrl_flag, 1.0),
  ("a_h0", fun u => u.heating.a_H0, 1.0),
  ("tau_h0", fun u => u.heating.tau_H0, 15.0),
  ("dh_yesno", fun u => u.heating.DH_YesNo, 0.0),
  ("eta_dh_network", fun u => u.heating.eta_DH_network, 0.9),
  ("eta_dh_sys", fun u => u.heating.eta_DH_sys, 0.87),
  ("frac_dh_free", fun u => u.heating.frac_DH_free, 0.000),
  ("dhw_tset", fun u => u.heating.dhw_tset, 60.0),
  ("dhw_tsupply", fun u => u.heating.dhw_tsupply, 20.0),
  ("n_day_start", fun u => u.lights.n_day_start, 7.0),
  ("n_day_end", fun u => u.lights.n_day_end, 18.0),
  ("n_weeks", fun u => u.lights.n_weeks, 50.0),
  ("elecinternalgains", fun u => u.lights.elecInternalGains, 1.0),
  ("permlightpowerdensity", fun u => u.lights.permLightPowerDensity, 0.0),
  ("presencesensorad", fun u => u.lights.presenceSensorAd, 0.6),
  ("automaticad", fun u => u.lights.automaticAd, 0.8),
  ("presenceautoad", fun u => u.lights.presenceAutoAd, 0.6),
  ("manualswitchad", fun u => u.lights.manualSwitchAd, 1.0),
  ("presencesensorlux", fun u => u.lights.presenceSensorLux, 500.0),
  ("automaticlux", fun u => u.lights.automaticLux, 300.0),
  ("presenceautolux", fun u => u.lights.presenceAutoLux, 300.0),
  ("manualswitchlux", fun u => u.lights.manualSwitchLux, 500.0),
  ("naturallylightedarea", fun u => u.lights.naturallyLightedArea, 0.0),
  ("rhocpair", fun u => u.phys.rhoCpAir, 1.22521 * 0.001012),
  ("rhocpwater", fun u => u.phys.rhoCpWater, 4.1813),
  ("phiintfractiontoairnode", fun u => u.simSettings.phiIntFractionToAirNode, 0.5),
  ("phisolfractiontoairnode", fun u => u.simSettings.phiSolFractionToAirNode, 0.0),
  ("hci", fun u => u.simSettings.hci, 2.5),
  ("hri", fun u => u.simSettings.hri, 5.5),
  ("r_se", fun u => u.bldg.R_se, 0.04),
  ("irradianceformaxshadinguse", fun u => u.bldg.irradianceForMaxShadingUse, 500.0),
  ("shadingfactoratmaxuse", fun u => u.bldg.shadingFactorAtMaxUse, 0.5),
  ("totalareaperfloorarea", fun u => u.bldg.totalAreaPerFloorArea, 4.5),
  ("win_ff", fun u => u.bldg.win_ff, 0.25),
  ("win_f_w", fun u => u.bldg.win_F_W, 0.9),
  ("r_sc_ext", fun u => u.bldg.R_sc_ext, 0.04),
  ("ventpreheatdegc", fun u => u.ventilation.ventPreheatDegC, -50.0),
  ("n50", fun u => u.ventilation.n50, 2.0),
  ("hzone", fun u => u.ventilation.hzone, 39.0),
  ("p_exp", fun u => u.ventilation.p_exp, 0.65),
  ("zone_frac", fun u => u.ventilation.zone_frac, 0.7),
  ("stack_exp", fun u => u.ventilation.stack_exp, 0.667),
  ("stack_coeff", fun u => u.ventilation.stack_coeff, 0.0146),
  ("wind_exp", fun u => u.ventilation.wind_exp, 0.667),
  ("wind_coeff", fun u => u.ventilation.wind_coeff, 0.0769),
  ("dcp", fun u => u.ventilation.dCp, 0.75),
  ("h_ve", fun u => u.ventilation.H_ve, 0.0)]

end
end ISO.Spec.Param
