import Verif.Spec.Settings
import Verif.Props.Parameters
import Verif.Props.Accessors

/-! Helper lemmas: the lines of a building file and the getters. -/

namespace ISO.Lemmas.Settings
open ISO ISO.User ISO.Spec ISO.Spec.Param Dbl

/-- the place of the line in the table of the parameters -/
def place : Getter → ℕ
  | .of (.building .constantIlluminationControl) => 21
  | .of (.building .elecPowerAppliancesOccupied) => 11
  | .of (.building .elecPowerAppliancesUnoccupied) => 12
  | .of (.building .externalEquipment) => 49
  | .of (.building .gasPowerAppliancesOccupied) => 13
  | .of (.building .gasPowerAppliancesUnoccupied) => 14
  | .of (.building .lightingOccupancySensorSystem) => 20
  | .of (.cooling .coolingOccupiedSetpoint) => 44
  | .of (.cooling .coolingPumpControl) => 40
  | .of (.cooling .coolingSystemCOP) => 22
  | .of (.cooling .coolingSystemIPLVToCOPRatio) => 23
  | .of (.cooling .coolingUnoccupiedSetpoint) => 45
  | .of (.cooling .DC_YesNo) => 53
  | .of (.cooling .dT_supp_cl) => 52
  | .of (.cooling .E_pumps_cl) => 59
  | .of (.cooling .eta_DC_COP_abs) => 57
  | .of (.cooling .eta_DC_COP) => 55
  | .of (.cooling .eta_DC_frac_abs) => 56
  | .of (.cooling .eta_DC_network) => 54
  | .of (.cooling .forcedAirCooling) => 50
  | .of (.cooling .frac_DC_free) => 58
  | .of (.cooling .hvacCoolingLossFactor) => 18
  | .of (.cooling .T_cl_ctrl_flag) => 51
  | .of (.heating .a_H0) => 64
  | .of (.heating .DH_YesNo) => 66
  | .of (.heating .dhw_tset) => 70
  | .of (.heating .dhw_tsupply) => 71
  | .of (.heating .dhwDemand) => 34
  | .of (.heating .dhwDistributionEfficiency) => 36
  | .of (.heating .dhwEfficiency) => 35
  | .of (.heating .dT_supp_ht) => 61
  | .of (.heating .E_pumps_ht) => 62
  | .of (.heating .eta_DH_network) => 67
  | .of (.heating .eta_DH_sys) => 68
  | .of (.heating .forcedAirHeating) => 60
  | .of (.heating .frac_DH_free) => 69
  | .of (.heating .heatingOccupiedSetpoint) => 46
  | .of (.heating .heatingPumpControl) => 39
  | .of (.heating .heatingSystemEfficiency) => 24
  | .of (.heating .heatingUnoccupiedSetpoint) => 47
  | .of (.heating .hvacHeatingLossFactor) => 17
  | .of (.heating .hvacWasteFactor) => 16
  | .of (.heating .T_ht_ctrl_flag) => 63
  | .of (.heating .tau_H0) => 65
  | .of (.lights .automaticAd) => 78
  | .of (.lights .automaticLux) => 82
  | .of (.lights .daylightSensorSystem) => 19
  | .of (.lights .elecInternalGains) => 75
  | .of (.lights .exteriorLightingPower) => 15
  | .of (.lights .lightingPowerIntensityOccupied) => 9
  | .of (.lights .lightingPowerIntensityUnoccupied) => 10
  | .of (.lights .manualSwitchAd) => 80
  | .of (.lights .manualSwitchLux) => 84
  | .of (.lights .n_day_end) => 73
  | .of (.lights .n_day_start) => 72
  | .of (.lights .n_weeks) => 74
  | .of (.lights .naturallyLightedArea) => 85
  | .of (.lights .permLightPowerDensity) => 76
  | .of (.lights .presenceAutoAd) => 79
  | .of (.lights .presenceAutoLux) => 83
  | .of (.lights .presenceSensorAd) => 77
  | .of (.lights .presenceSensorLux) => 81
  | .of (.phys .rhoCpAir) => 86
  | .of (.phys .rhoCpWater) => 87
  | .of (.pop .buildingOccupancyFrom) => 3
  | .of (.pop .buildingOccupancyTo) => 4
  | .of (.pop .equivFullLoadOccupancyFrom) => 5
  | .of (.pop .equivFullLoadOccupancyTo) => 6
  | .of (.pop .heatGainPerPerson) => 41
  | .of (.pop .peopleDensityOccupied) => 7
  | .of (.pop .peopleDensityUnoccupied) => 8
  | .of (.simSettings .hci) => 90
  | .of (.simSettings .hri) => 91
  | .of (.simSettings .phiIntFractionToAirNode) => 88
  | .of (.simSettings .phiSolFractionToAirNode) => 89
  | .of (.ventilation .dCp) => 108
  | .of (.ventilation .exhaustAirRecirclation) => 32
  | .of (.ventilation .fanFlowControlFactor) => 43
  | .of (.ventilation .freshAirFlowRate) => 29
  | .of (.ventilation .H_ve) => 110
  | .of (.ventilation .heatRecovery) => 31
  | .of (.ventilation .hzone) => 101
  | .of (.ventilation .n50) => 100
  | .of (.ventilation .p_exp) => 102
  | .of (.ventilation .specificFanPower) => 42
  | .of (.ventilation .stack_coeff) => 105
  | .of (.ventilation .stack_exp) => 104
  | .of (.ventilation .supplyExhaustRate) => 30
  | .of (.ventilation .ventPreheatDegC) => 99
  | .of (.ventilation .wind_coeff) => 107
  | .of (.ventilation .wind_exp) => 106
  | .of (.ventilation .zone_frac) => 103
  | .of (.bldg .buildingAirLeakage) => 33
  | .of (.bldg .buildingHeight) => 1
  | .of (.bldg .exteriorHeatCapacity) => 38
  | .of (.bldg .floorArea) => 2
  | .of (.bldg .interiorHeatCapacity) => 37
  | .of (.bldg .irradianceForMaxShadingUse) => 93
  | .of (.bldg .R_sc_ext) => 98
  | .of (.bldg .R_se) => 92
  | .of (.bldg .shadingFactorAtMaxUse) => 94
  | .of (.bldg .totalAreaPerFloorArea) => 95
  | .of (.bldg .win_F_W) => 97
  | .of (.bldg .win_ff) => 96
  | .of (.ventilation .vent_rate_flag) => 109
  | .of .terrainClass => 0
  | .of .weatherFilePath => 48
  | .of (.facade .wallArea _) => 111
  | .of (.facade .wallU _) => 112
  | .of (.facade .wallThermalEmissivity _) => 113
  | .of (.facade .wallSolarAbsorption _) => 114
  | .of (.facade .windowArea _) => 115
  | .of (.facade .windowU _) => 116
  | .of (.facade .windowSHGC _) => 117
  | .of (.facade .windowSCF _) => 118
  | .of (.facade .windowSDF _) => 119
  | .code .bemType => 28
  | .code .dhwEnergyCarrier => 27
  | .code .heatingEnergyCarrier => 25
  | .code .ventilationType => 26
  | .of (.extra _) => 0

/-- the getters in the order of the table; one for each vector of nine -/
def heads : List Getter := [
  .of .terrainClass,
  .of (.bldg .buildingHeight),
  .of (.bldg .floorArea),
  .of (.pop .buildingOccupancyFrom),
  .of (.pop .buildingOccupancyTo),
  .of (.pop .equivFullLoadOccupancyFrom),
  .of (.pop .equivFullLoadOccupancyTo),
  .of (.pop .peopleDensityOccupied),
  .of (.pop .peopleDensityUnoccupied),
  .of (.lights .lightingPowerIntensityOccupied),
  .of (.lights .lightingPowerIntensityUnoccupied),
  .of (.building .elecPowerAppliancesOccupied),
  .of (.building .elecPowerAppliancesUnoccupied),
  .of (.building .gasPowerAppliancesOccupied),
  .of (.building .gasPowerAppliancesUnoccupied),
  .of (.lights .exteriorLightingPower),
  .of (.heating .hvacWasteFactor),
  .of (.heating .hvacHeatingLossFactor),
  .of (.cooling .hvacCoolingLossFactor),
  .of (.lights .daylightSensorSystem),
  .of (.building .lightingOccupancySensorSystem),
  .of (.building .constantIlluminationControl),
  .of (.cooling .coolingSystemCOP),
  .of (.cooling .coolingSystemIPLVToCOPRatio),
  .of (.heating .heatingSystemEfficiency),
  .code .heatingEnergyCarrier,
  .code .ventilationType,
  .code .dhwEnergyCarrier,
  .code .bemType,
  .of (.ventilation .freshAirFlowRate),
  .of (.ventilation .supplyExhaustRate),
  .of (.ventilation .heatRecovery),
  .of (.ventilation .exhaustAirRecirclation),
  .of (.bldg .buildingAirLeakage),
  .of (.heating .dhwDemand),
  .of (.heating .dhwEfficiency),
  .of (.heating .dhwDistributionEfficiency),
  .of (.bldg .interiorHeatCapacity),
  .of (.bldg .exteriorHeatCapacity),
  .of (.heating .heatingPumpControl),
  .of (.cooling .coolingPumpControl),
  .of (.pop .heatGainPerPerson),
  .of (.ventilation .specificFanPower),
  .of (.ventilation .fanFlowControlFactor),
  .of (.cooling .coolingOccupiedSetpoint),
  .of (.cooling .coolingUnoccupiedSetpoint),
  .of (.heating .heatingOccupiedSetpoint),
  .of (.heating .heatingUnoccupiedSetpoint),
  .of .weatherFilePath,
  .of (.building .externalEquipment),
  .of (.cooling .forcedAirCooling),
  .of (.cooling .T_cl_ctrl_flag),
  .of (.cooling .dT_supp_cl),
  .of (.cooling .DC_YesNo),
  .of (.cooling .eta_DC_network),
  .of (.cooling .eta_DC_COP),
  .of (.cooling .eta_DC_frac_abs),
  .of (.cooling .eta_DC_COP_abs),
  .of (.cooling .frac_DC_free),
  .of (.cooling .E_pumps_cl),
  .of (.heating .forcedAirHeating),
  .of (.heating .dT_supp_ht),
  .of (.heating .E_pumps_ht),
  .of (.heating .T_ht_ctrl_flag),
  .of (.heating .a_H0),
  .of (.heating .tau_H0),
  .of (.heating .DH_YesNo),
  .of (.heating .eta_DH_network),
  .of (.heating .eta_DH_sys),
  .of (.heating .frac_DH_free),
  .of (.heating .dhw_tset),
  .of (.heating .dhw_tsupply),
  .of (.lights .n_day_start),
  .of (.lights .n_day_end),
  .of (.lights .n_weeks),
  .of (.lights .elecInternalGains),
  .of (.lights .permLightPowerDensity),
  .of (.lights .presenceSensorAd),
  .of (.lights .automaticAd),
  .of (.lights .presenceAutoAd),
  .of (.lights .manualSwitchAd),
  .of (.lights .presenceSensorLux),
  .of (.lights .automaticLux),
  .of (.lights .presenceAutoLux),
  .of (.lights .manualSwitchLux),
  .of (.lights .naturallyLightedArea),
  .of (.phys .rhoCpAir),
  .of (.phys .rhoCpWater),
  .of (.simSettings .phiIntFractionToAirNode),
  .of (.simSettings .phiSolFractionToAirNode),
  .of (.simSettings .hci),
  .of (.simSettings .hri),
  .of (.bldg .R_se),
  .of (.bldg .irradianceForMaxShadingUse),
  .of (.bldg .shadingFactorAtMaxUse),
  .of (.bldg .totalAreaPerFloorArea),
  .of (.bldg .win_ff),
  .of (.bldg .win_F_W),
  .of (.bldg .R_sc_ext),
  .of (.ventilation .ventPreheatDegC),
  .of (.ventilation .n50),
  .of (.ventilation .hzone),
  .of (.ventilation .p_exp),
  .of (.ventilation .zone_frac),
  .of (.ventilation .stack_exp),
  .of (.ventilation .stack_coeff),
  .of (.ventilation .wind_exp),
  .of (.ventilation .wind_coeff),
  .of (.ventilation .dCp),
  .of (.ventilation .vent_rate_flag),
  .of (.ventilation .H_ve),
  .of (.facade .wallArea .N),
  .of (.facade .wallU .N),
  .of (.facade .wallThermalEmissivity .N),
  .of (.facade .wallSolarAbsorption .N),
  .of (.facade .windowArea .N),
  .of (.facade .windowU .N),
  .of (.facade .windowSHGC .N),
  .of (.facade .windowSCF .N),
  .of (.facade .windowSDF .N)]

/-- no two parameters have the same name, whatever the case of the letters -/
theorem names_distinct : (table.map fun r => lower r.name.toList).Nodup := by decide +kernel

theorem row_unique {r r' : Row} (h : r ∈ table) (h' : r' ∈ table) (e : lower r.name.toList = lower r'.name.toList) : r = r' :=
  List.inj_on_of_nodup_map names_distinct h h' e

/-- getters with the same line are the same, but for the orientation -/
def head : Getter → Getter
  | .of (.facade v _) => .of (.facade v .N)
  | g => g

theorem head_place (g : Getter) {n : String} (h : g.line = some n) : heads[place g]? = some (head g) := by
  rcases g with a | c
  · rcases a with a | a | a | a | a | a | a | a | a | a | ⟨a, f⟩ | _ | _
    case extra => cases h
    all_goals first | (cases a <;> rfl) | rfl
  · cases c <;> rfl

/-- the kind of text that a getter asks for -/
def kindOf : Getter → Kind
  | .of (.cooling .forcedAirCooling) => .boolean
  | .of (.heating .forcedAirHeating) => .boolean
  | .of (.ventilation .vent_rate_flag) => .integer
  | .of .weatherFilePath => .text
  | .of (.facade _ _) => .facades
  | .of _ => .number
  | .code c => .keyword (keywords c)

theorem row_place (g : Getter) {n : String} (h : g.line = some n) : ∃ q, table[place g]? = some ⟨n, kindOf g, q⟩ := by
  rcases g with a | c
  · rcases a with a | a | a | a | a | a | a | a | a | a | ⟨a, f⟩ | _ | _
    case extra => cases h
    all_goals first | (cases a <;> cases h <;> exact ⟨_, rfl⟩) | (cases h; exact ⟨_, rfl⟩)
  · cases c <;> cases h <;> exact ⟨_, rfl⟩

theorem row_of (g : Getter) {n : String} (h : g.line = some n) : ∃ q, (⟨n, kindOf g, q⟩ : Row) ∈ table := by
  obtain ⟨q, hq⟩ := row_place g h
  exact ⟨q, List.mem_of_getElem? hq⟩

theorem line_inj {g g' : Getter} {n : String} (h : g.line = some n) (h' : g'.line = some n) : head g = head g' := by
  obtain ⟨q, hq⟩ := row_place g h
  obtain ⟨q', hq'⟩ := row_place g' h'
  have e : place g = place g' := by
    have nd := names_distinct
    rw [List.nodup_iff_getElem?_ne_getElem?] at nd
    by_contra hne
    rcases Nat.lt_or_gt_of_ne hne with hlt | hlt
    · have hb := (List.getElem?_eq_some_iff.mp hq').1
      refine nd _ _ hlt (by rw [List.length_map]; exact hb) ?_
      rw [List.getElem?_map, List.getElem?_map, hq, hq']
      rfl
    · have hb := (List.getElem?_eq_some_iff.mp hq).1
      refine nd _ _ hlt (by rw [List.length_map]; exact hb) ?_
      rw [List.getElem?_map, List.getElem?_map, hq, hq']
      rfl
  have h1 := head_place g h
  have h2 := head_place g' h'
  rw [e, h2] at h1
  exact (Option.some.inj h1).symm

variable (stod : Str → Except Properties.ConvError Dbl) (file : Properties.Store)

theorem number_line (n : String) (d : Dbl) : Reading.num ((number stod file n).getD d) =
    (((some n).bind (given file)).bind fun t => (stod t).toOption.map Reading.num).getD (Reading.num d) := by
  unfold number
  rw [Option.bind_some]
  cases given file n with
  | none => rfl
  | some t =>
    simp only [Option.bind_some]
    cases stod t <;> rfl

theorem boolean_line (n : String) (d : Bool) : (Reading.flag ((boolean file n).getD d) : Reading Dbl) =
    (((some n).bind (given file)).bind fun t => if t = "true".toList then some (Reading.flag true) else
      if t = "false".toList then some (Reading.flag false) else none).getD (Reading.flag d) := by
  unfold boolean
  rw [Option.bind_some]
  cases given file n with
  | none => rfl
  | some t =>
    simp only [Option.bind_some]
    split_ifs <;> rfl

theorem integer_line (n : String) (d : Int) : (Reading.num (fin (((integer file n).getD d : Int) : ℝ)) : Reading Dbl) =
    (((some n).bind (given file)).bind fun t => (Properties.stoi t).toOption.map fun n => Reading.num (fin (n : ℝ))).getD (Reading.num (fin (d : ℝ))) := by
  unfold integer
  rw [Option.bind_some]
  cases given file n with
  | none => rfl
  | some t =>
    simp only [Option.bind_some]
    cases Properties.stoi t <;> rfl

theorem text_line (n : String) (d : Str) : (Reading.text ((given file n).getD d) : Reading Dbl) =
    (((some n).bind (given file)).bind fun t => some (Reading.text t)).getD (Reading.text d) := by
  rw [Option.bind_some]
  cases given file n <;> rfl

theorem facade_line (n : String) (d : Fin 9 → Dbl) (f : Facade) : Reading.num ((facades stod file n).getD d (slot f)) =
    (((some n).bind (given file)).bind fun t => (nineNumbers stod t).bind fun v => v[linePlace f]?.map Reading.num).getD (Reading.num (d (slot f))) := by
  unfold facades Properties.getPropertyAsDoubleVector
  rw [Option.bind_some]
  show _ = ((Properties.getProperty n.toList file).bind _).getD _
  cases Properties.getProperty n.toList file with
  | none => rfl
  | some t =>
    simp only [Option.bind_some]
    unfold nineNumbers
    cases Properties.tokens t with
    | error e => rfl
    | ok ts =>
      simp only
      cases Properties.stodAll stod ts with
      | error e => cases e <;> rfl
      | ok v =>
        simp only
        split_ifs with h
        · rcases v with - | ⟨a, - | ⟨b, - | ⟨c, - | ⟨d, - | ⟨e, - | ⟨f', - | ⟨g, - | ⟨k, - | ⟨r, - | ⟨z, t⟩⟩⟩⟩⟩⟩⟩⟩⟩⟩
          all_goals try (simp only [List.length_cons, List.length_nil] at h; omega)
          cases f <;> rfl
        · rcases v with - | ⟨a, - | ⟨b, - | ⟨c, - | ⟨d, - | ⟨e, - | ⟨f', - | ⟨g, - | ⟨k, - | ⟨r, - | ⟨z, t⟩⟩⟩⟩⟩⟩⟩⟩⟩⟩
          all_goals first | rfl | (exact absurd rfl h)

theorem code_two (n : String) (k1 k2 : String) (d : Dbl) : (Reading.num ((code file n [(k1, (1.0 : Dbl)), (k2, 2.0)]).getD d) : Reading Dbl) =
    (((some n).bind (given file)).bind fun t => (([k1, k2] : List String).findIdx? fun k => lower t = k.toList).map
      fun i : ℕ => Reading.num (fin ((i : ℝ) + 1))).getD (Reading.num d) := by
  have one : (1.0 : Dbl) = fin (((0 : ℕ) : ℝ) + 1) := by rw [Dbl.fin_lit 10 true 1]; norm_num
  have two : (2.0 : Dbl) = fin (((1 : ℕ) : ℝ) + 1) := by rw [Dbl.fin_lit 20 true 1]; norm_num
  unfold code
  rw [Option.bind_some, one, two]
  cases given file n with
  | none => rfl
  | some t =>
    simp only [Option.bind_some, List.find?_cons, List.findIdx?_cons, List.find?_nil, List.findIdx?_nil]
    by_cases h1 : lower t = k1.toList
    · simp [h1]
    · by_cases h2 : lower t = k2.toList
      · simp [h2, h2 ▸ h1]
      · simp [h1, h2]

theorem code_three (n : String) (k1 k2 k3 : String) (d : Dbl) : (Reading.num ((code file n [(k1, (1.0 : Dbl)), (k2, 2.0), (k3, 3.0)]).getD d) : Reading Dbl) =
    (((some n).bind (given file)).bind fun t => (([k1, k2, k3] : List String).findIdx? fun k => lower t = k.toList).map
      fun i : ℕ => Reading.num (fin ((i : ℝ) + 1))).getD (Reading.num d) := by
  have one : (1.0 : Dbl) = fin (((0 : ℕ) : ℝ) + 1) := by rw [Dbl.fin_lit 10 true 1]; norm_num
  have two : (2.0 : Dbl) = fin (((1 : ℕ) : ℝ) + 1) := by rw [Dbl.fin_lit 20 true 1]; norm_num
  have three : (3.0 : Dbl) = fin (((2 : ℕ) : ℝ) + 1) := by rw [Dbl.fin_lit 30 true 1]; norm_num
  unfold code
  rw [Option.bind_some, one, two, three]
  cases given file n with
  | none => rfl
  | some t =>
    simp only [Option.bind_some, List.find?_cons, List.findIdx?_cons, List.find?_nil, List.findIdx?_nil]
    by_cases h1 : lower t = k1.toList
    · simp [h1]
    · by_cases h2 : lower t = k2.toList
      · simp [h2, h2 ▸ h1]
      · by_cases h3 : lower t = k3.toList
        · simp [h3, h3 ▸ h1, h3 ▸ h2]
        · simp [h1, h2, h3]

/-- every getter of the object after loading -/
theorem read_stored (u : Params Dbl) (e : Extra Dbl) (g : Getter) :
    g.read ⟨stored stod file u, e⟩ = ((g.line.bind (given file)).bind (g.meaning stod)).getD (g.read ⟨u, e⟩) := by
  rcases g with a | c
  · rcases a with a | a | a | a | a | a | a | a | a | a | ⟨a, f⟩ | _ | _
    case extra => cases a <;> rfl
    case facade =>
      cases a
      · have h := facade_line stod file "wallArea" u.bldg.wallArea f
        cases f <;> exact h
      · have h := facade_line stod file "wallU" u.bldg.wallUniform f
        cases f <;> exact h
      · have h := facade_line stod file "wallEmissivity" u.bldg.wallThermalEmissivity f
        cases f <;> exact h
      · have h := facade_line stod file "wallAbsorption" u.bldg.wallSolarAbsorption f
        cases f <;> exact h
      · have h := facade_line stod file "windowArea" u.bldg.windowArea f
        cases f <;> exact h
      · have h := facade_line stod file "windowU" u.bldg.windowUniform f
        cases f <;> exact h
      · have h := facade_line stod file "windowSHGC" u.bldg.windowNormalIncidenceSolarEnergyTransmittance f
        cases f <;> exact h
      · have h := facade_line stod file "windowSCF" u.bldg.windowShadingCorrectionFactor f
        cases f <;> exact h
      · have h := facade_line stod file "windowSDF" u.bldg.windowShadingDevice f
        cases f <;> exact h
    case terrainClass => exact number_line stod file _ _
    case weatherFilePath => exact text_line file _ _
    case cooling => cases a <;> first | exact number_line stod file _ _ | exact boolean_line file _ _
    case heating => cases a <;> first | exact number_line stod file _ _ | exact boolean_line file _ _
    case ventilation => cases a <;> first | exact number_line stod file _ _ | exact integer_line file _ _
    all_goals cases a <;> exact number_line stod file _ _
  · cases c
    · exact code_three file _ _ _ _ _
    · exact code_two file _ _ _ _
    · exact code_two file _ _ _ _
    · exact code_three file _ _ _ _ _

end ISO.Lemmas.Settings
