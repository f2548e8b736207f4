import Verif.Spec.Accessors
import Verif.Spec.Parameters
import Verif.Spec.Properties
import Verif.Model.Loading

/-!
# Specification: the lines of a building file and the calls of setters that say the same

`Accessor.line` gives for every setting of a `UserModel` the parameter of the .ism file that holds it, `Getter.meaning` what a text in the file
stands for, and `Says` when a line and a call of a setter agree.
-/

namespace ISO.User
open ISO

/-- the line of the building file that holds a vector of nine -/
def NineVector.line : NineVector → String
  | .wallArea => "wallArea"
  | .wallU => "wallU"
  | .wallThermalEmissivity => "wallEmissivity"
  | .wallSolarAbsorption => "wallAbsorption"
  | .windowArea => "windowArea"
  | .windowU => "windowU"
  | .windowSHGC => "windowSHGC"
  | .windowSCF => "windowSCF"
  | .windowSDF => "windowSDF"

/-- the line that holds a setting given by a keyword -/
def Code.line : Code → String
  | .bemType => "bemtype"
  | .dhwEnergyCarrier => "dhwfueltype"
  | .heatingEnergyCarrier => "heatingfueltype"
  | .ventilationType => "ventilationtype"

/-- the line that holds a single value; `none` if no line does (the entries of the nine vectors and the settings that are never loaded) -/
def Accessor.line : Accessor → Option String
  | .building .constantIlluminationControl => some "constantilluminationcontrolmultiplier"
  | .building .elecPowerAppliancesOccupied => some "electricappliancepowerdensityoccupied"
  | .building .elecPowerAppliancesUnoccupied => some "electricappliancepowerdensityunoccupied"
  | .building .externalEquipment => some "externalequipment"
  | .building .gasPowerAppliancesOccupied => some "gasappliancepowerdensityoccupied"
  | .building .gasPowerAppliancesUnoccupied => some "gasappliancepowerdensityunoccupied"
  | .building .lightingOccupancySensorSystem => some "lightingoccupancysensordimmingfraction"
  | .cooling .coolingOccupiedSetpoint => some "coolingsetpointoccupied"
  | .cooling .coolingPumpControl => some "coolingpumpcontrol"
  | .cooling .coolingSystemCOP => some "coolingsystemcop"
  | .cooling .coolingSystemIPLVToCOPRatio => some "coolingsystemiplvtocopratio"
  | .cooling .coolingUnoccupiedSetpoint => some "coolingsetpointunoccupied"
  | .cooling .DC_YesNo => some "dc_yesno"
  | .cooling .dT_supp_cl => some "dt_supp_cl"
  | .cooling .E_pumps_cl => some "e_pumps_cl"
  | .cooling .eta_DC_COP_abs => some "eta_dc_cop_abs"
  | .cooling .eta_DC_COP => some "eta_dc_cop"
  | .cooling .eta_DC_frac_abs => some "eta_dc_frac_abs"
  | .cooling .eta_DC_network => some "eta_dc_network"
  | .cooling .forcedAirCooling => some "forcedaircooling"
  | .cooling .frac_DC_free => some "frac_dc_free"
  | .cooling .hvacCoolingLossFactor => some "hvaccoolinglossfactor"
  | .cooling .T_cl_ctrl_flag => some "t_cl_ctrl_flag"
  | .heating .a_H0 => some "a_h0"
  | .heating .DH_YesNo => some "dh_yesno"
  | .heating .dhw_tset => some "dhw_tset"
  | .heating .dhw_tsupply => some "dhw_tsupply"
  | .heating .dhwDemand => some "dhwdemand"
  | .heating .dhwDistributionEfficiency => some "dhwdistributionefficiency"
  | .heating .dhwEfficiency => some "dhwsystemefficiency"
  | .heating .dT_supp_ht => some "dt_supp_ht"
  | .heating .E_pumps_ht => some "e_pumps_ht"
  | .heating .eta_DH_network => some "eta_dh_network"
  | .heating .eta_DH_sys => some "eta_dh_sys"
  | .heating .forcedAirHeating => some "forcedairheating"
  | .heating .frac_DH_free => some "frac_dh_free"
  | .heating .heatingOccupiedSetpoint => some "heatingsetpointoccupied"
  | .heating .heatingPumpControl => some "heatingpumpcontrol"
  | .heating .heatingSystemEfficiency => some "heatingsystemefficiency"
  | .heating .heatingUnoccupiedSetpoint => some "heatingsetpointunoccupied"
  | .heating .hvacHeatingLossFactor => some "hvacheatinglossfactor"
  | .heating .hvacWasteFactor => some "hvacwastefactor"
  | .heating .T_ht_ctrl_flag => some "t_ht_ctrl_flag"
  | .heating .tau_H0 => some "tau_h0"
  | .lights .automaticAd => some "automaticad"
  | .lights .automaticLux => some "automaticlux"
  | .lights .daylightSensorSystem => some "daylightsensordimmingfraction"
  | .lights .elecInternalGains => some "elecinternalgains"
  | .lights .exteriorLightingPower => some "exteriorlightingpower"
  | .lights .lightingPowerIntensityOccupied => some "lightingpowerdensityoccupied"
  | .lights .lightingPowerIntensityUnoccupied => some "lightingpowerdensityunoccupied"
  | .lights .manualSwitchAd => some "manualswitchad"
  | .lights .manualSwitchLux => some "manualswitchlux"
  | .lights .n_day_end => some "n_day_end"
  | .lights .n_day_start => some "n_day_start"
  | .lights .n_weeks => some "n_weeks"
  | .lights .naturallyLightedArea => some "naturallylightedarea"
  | .lights .permLightPowerDensity => some "permlightpowerdensity"
  | .lights .presenceAutoAd => some "presenceautoad"
  | .lights .presenceAutoLux => some "presenceautolux"
  | .lights .presenceSensorAd => some "presencesensorad"
  | .lights .presenceSensorLux => some "presencesensorlux"
  | .phys .rhoCpAir => some "rhocpair"
  | .phys .rhoCpWater => some "rhocpwater"
  | .pop .buildingOccupancyFrom => some "occupancydayfirst"
  | .pop .buildingOccupancyTo => some "occupancydaylast"
  | .pop .equivFullLoadOccupancyFrom => some "occupancyhourfirst"
  | .pop .equivFullLoadOccupancyTo => some "occupancyhourlast"
  | .pop .heatGainPerPerson => some "heatgainperperson"
  | .pop .peopleDensityOccupied => some "peopledensityoccupied"
  | .pop .peopleDensityUnoccupied => some "peopledensityunoccupied"
  | .simSettings .hci => some "hci"
  | .simSettings .hri => some "hri"
  | .simSettings .phiIntFractionToAirNode => some "phiintfractiontoairnode"
  | .simSettings .phiSolFractionToAirNode => some "phisolfractiontoairnode"
  | .ventilation .dCp => some "dcp"
  | .ventilation .exhaustAirRecirclation => some "exhaustairrecirculation"
  | .ventilation .fanFlowControlFactor => some "fanflowcontrolfactor"
  | .ventilation .freshAirFlowRate => some "ventilationintakerateoccupied"
  | .ventilation .H_ve => some "h_ve"
  | .ventilation .heatRecovery => some "heatrecovery"
  | .ventilation .hzone => some "hzone"
  | .ventilation .n50 => some "n50"
  | .ventilation .p_exp => some "p_exp"
  | .ventilation .specificFanPower => some "specificfanpower"
  | .ventilation .stack_coeff => some "stack_coeff"
  | .ventilation .stack_exp => some "stack_exp"
  | .ventilation .supplyExhaustRate => some "ventilationExhaustRateOccupied"
  | .ventilation .ventPreheatDegC => some "ventpreheatdegc"
  | .ventilation .wind_coeff => some "wind_coeff"
  | .ventilation .wind_exp => some "wind_exp"
  | .ventilation .zone_frac => some "zone_frac"
  | .bldg .buildingAirLeakage => some "infiltrationrateoccupied"
  | .bldg .buildingHeight => some "buildingheight"
  | .bldg .exteriorHeatCapacity => some "exteriorheatcapacity"
  | .bldg .floorArea => some "floorarea"
  | .bldg .interiorHeatCapacity => some "interiorheatcapacity"
  | .bldg .irradianceForMaxShadingUse => some "irradianceformaxshadinguse"
  | .bldg .R_sc_ext => some "r_sc_ext"
  | .bldg .R_se => some "r_se"
  | .bldg .shadingFactorAtMaxUse => some "shadingfactoratmaxuse"
  | .bldg .totalAreaPerFloorArea => some "totalareaperfloorarea"
  | .bldg .win_F_W => some "win_f_w"
  | .bldg .win_ff => some "win_ff"
  | .ventilation .vent_rate_flag => some "vent_rate_flag"
  | .terrainClass => some "terrainclass"
  | .weatherFilePath => some "weatherfilepath"
  | .extra _ => none
  | .facade _ _ => none

/-- the line that holds what a getter shows -/
def Getter.line : Getter → Option String
  | .of (.facade v _) => some v.line
  | .of a => a.line
  | .code c => some c.line

/-- the place of an orientation in a line of nine numbers: from north by east, south and west, the roof last -/
def linePlace : Facade → ℕ
  | .N => 0 | .NE => 1 | .E => 2 | .SE => 3 | .S => 4 | .SW => 5 | .W => 6 | .NW => 7 | .roof => 8

/-- the nine numbers of a text -/
def nineNumbers (stod : Str → Except Properties.ConvError Dbl) (text : Str) : Option (List Dbl) :=
  match Properties.tokens text with
  | .error _ => none
  | .ok ts =>
    match Properties.stodAll stod ts with
    | .error _ => none
    | .ok v => if v.length = 9 then some v else none

/-- what the getter shows if its line has this text; `none` if the text is not of the kind that is asked for -/
noncomputable def Getter.meaning (stod : Str → Except Properties.ConvError Dbl) : Getter → Str → Option (Reading Dbl)
  | .of (.cooling .forcedAirCooling), t => if t = "true".toList then some (.flag true) else if t = "false".toList then some (.flag false) else none
  | .of (.heating .forcedAirHeating), t => if t = "true".toList then some (.flag true) else if t = "false".toList then some (.flag false) else none
  | .of (.ventilation .vent_rate_flag), t => (Properties.stoi t).toOption.map fun n => .num (.fin n)
  | .of .weatherFilePath, t => some (.text t)
  | .of (.extra _), _ => none
  | .of (.facade _ f), t => (nineNumbers stod t).bind fun v => v[linePlace f]?.map .num
  | .of _, t => (stod t).toOption.map .num
  | .code c, t => ((keywords c).findIdx? fun k => lower t = k.toList).map fun i : ℕ => .num (.fin ((i : ℝ) + 1))

/-- the line `name = text` of a building file says what the call of the setter says -/
def Says (stod : Str → Except Properties.ConvError Dbl) (name : String) (text : Str) : SetterCall Dbl → Prop
  | .value a v => a.line = some name ∧ (Getter.of a).meaning stod text = some (a.shown v)
  | .keyword c t => c.line = name ∧ t = text ∧ ∃ k ∈ keywords c, lower text = k.toList
  | .vector n v => n.line = name ∧ ∃ north northEast east southEast south southWest west northWest roof,
      nineNumbers stod text = some [north, northEast, east, southEast, south, southWest, west, northWest, roof] ∧
      v = [south, southEast, east, northEast, north, northWest, west, southWest, roof]
  | .dhwDistributionSystem v => name = "dhwdistributionefficiency" ∧ stod text = .ok v

/-- the line of a building file and the call of the setter say the same, about something else than the path of the weather file -/
def SaysSame (stod : Str → Except Properties.ConvError Dbl) (line : Str) (c : SetterCall Dbl) : Prop :=
  '\n' ∉ line ∧ ∃ key value name, Spec.Defines line key value ∧ Spec.SameKey key (String.toList name) ∧ name ≠ "weatherfilepath" ∧ Says stod name value c

/-- a call of a setter on a user model -/
def Op.call {α : Type} [CNum α] [OfInt α] (c : SetterCall α) (extra : Extra α) : Op α := .set fun p => (c.run ⟨p, extra⟩).2.params

/-- the disk with another text in one of its files -/
def FileSystem.replace (fs : FileSystem) (file text : Str) : FileSystem :=
  ⟨fs.exists_, fun g => if g = file then some text else fs.read g⟩

end ISO.User
