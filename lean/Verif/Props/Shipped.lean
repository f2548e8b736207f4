import Verif.Props.Whole
import Verif.Lemmas.Properties

/-!
# C61: the building file that comes with the repository

test_data/SmallOffice_v2.ism, line by line, and a year of weather.
-/

namespace ISO.Props
open ISO ISO.Numerals ISO.Properties ISO.Spec ISO.Spec.Text ISO.Spec.Whole ISO.User ISO.CommandLine ISO.Epw ISO.Lemmas Dbl

/-- the lines of IsoModel/test_data/SmallOffice_v2.ism -/
def shippedLines : List Str := [
  "#./example.ism generated by idf2ismv03.rb on example.idf on Mon Oct 21 13:39:40 2013",
  "# Building Name = BENCHMARK SMALL OFFICE NEW V1.0_3.0",
  "weatherFilePath = ORD.epw",
  "# Terrain class urban/city = 0.8, suburban/some shielding = 0.9, country/open = 1.0",
  "terrainClass = 0.8",
  "# building height is in m,  floor area is in m^2, people density is m2/person",
  "buildingHeight = 6.33",
  "floorArea = 511.16",
  "peopleDensityOccupied = 25.4683514030612",
  "peopleDensityUnoccupied = 150.51041254091",
  "occupancyDayFirst = 1",
  "occupancyDayLast = 5",
  "occupancyHourFirst = 8",
  "occupancyHourLast = 17",
  "# LPD, EPD, GPD all in W/m2, ext light power in W, and heat gain is W/person",
  "lightingPowerDensityOccupied = 6.33869983780207",
  "lightingPowerDensityUnoccupied = 2.58639212251571",
  "electricAppliancePowerDensityOccupied = 4.83103336902162",
  "electricAppliancePowerDensityUnoccupied = 2.24818845302062",
  "gasAppliancePowerDensityOccupied = 0.0",
  "gasAppliancePowerDensityUnoccupied = 0.0",
  "exteriorLightingPower = 303.660166666667",
  "heatGainPerPerson=120.0",
  "# Temp set points in degrees C",
  "heatingSetpointOccupied = 24",
  "heatingSetpointUnoccupied = 24",
  "coolingSetpointOccupied = 28",
  "coolingSetpointUnoccupied = 28",
  "# HVAC waste, heating and cooling loss factors set by HVAC type from EN 15243",
  "hvacWasteFactor = 0.0",
  "hvacHeatingLossFactor = 0.25",
  "hvacCoolingLossFactor = 0.0",
  "# daylight sensors, occupancy sensors, illum control are set to 1 if there is no control.   See iso 15193 Annex F/G for values",
  "daylightSensorDimmingFraction = 1",
  "lightingOccupancySensorDimmingFraction = 1",
  "constantIlluminationControlMultiplier = 1",
  "# COP is W/W, coolingSystemIPLV is the ratio of IPLV/COP",
  "coolingSystemCOP = 3.21030372594672",
  "coolingSystemIPLVToCopRatio =1.04773541524309",
  "#heatingFuelType is 'electric' or 'gas'",
  "heatingFuelType = gas",
  "heatingSystemEfficiency = 2.13505737091766",
  "# vent type: 'mechanical', 'natural', or 'combined'",
  "ventilationType = mechanical",
  "# ventilation flow rates in L/s, default is 10 L/s/person ~ 20 cfm/person",
  "ventilationIntakeRateOccupied = 158.1941",
  "ventilationExhaustRateOccupied = 158.1941",
  "# heatRecover = efficiency of heat recovery (0 for none), exhaustAirRecir = fraction of supply air recirculated",
  "heatRecovery = 0.0",
  "exhaustAirRecirculation = 0.0",
  "# DHW demand in m3/yr use 10 m3/yr/person as a default for offices",
  "dhwDemand =  0.0",
  "# dhwDistribution efficiency all taps w/i 3m = 1, taps more than 3m = 0.8, circulation or unknown = 0.6, see NEN 2916 12.6, ",
  "dhwSystemEfficiency = 0.8",
  "dhwDistributionEfficiency = 0.6",
  "# dhwFuelType: 'electric' or 'gas'",
  "dhwFuelType = gas",
  "# Surface Heat capacity in J/K/m2",
  "interiorHeatCapacity = 98010.0000000022",
  "exteriorHeatCapacity = 29707.0229928189",
  "# BEM none, simple, or advanced",
  "bemType = none",
  "# specific fan power in W/(L/s),  flow control factor is energy reduction from fan control measures",
  "specificFanPower = 0.892769460142308 ",
  "# fan flow control  1= no control, 0.75 = inlet blade adjuct, 0.65= variable speed  see NEN 2916 7.3.3.4  ",
  "fanFlowcontrolFactor = 1.0",
  "# infiltration in m3/m2/hr based on surface area",
  "infiltrationRateOccupied = 7.08899540065705",
  "# pump control 0= no pump, 0.5 = auto pump controls for more 50% of pumps, 1.0 = all other cases.   See NEN 2914 9.4.3",
  "heatingPumpControl=1.0",
  "coolingPumpControl=1.0",
  "# Areas in m2, U values in W/m2/K",
  "# SCF = solar control factor (external control), SDF = shading device factor = internal shading",
  "# format is N, NE, E, SE, S, SW, W, NW, Roof or Skylight",
  "wallU = 0.363,0.0,0.363,0.0,0.363,0.0,0.363,0.0,2.494",
  "wallEmissivity = 0.9,0.0,0.9,0.0,0.9,0.0,0.9,0.0,0.9",
  "wallAbsorption = 0.7,0.0,0.7,0.0,0.7,0.0,0.7,0.0,0.7",
  "windowU = 2.653,0.0,2.653,0.0,2.653,0.0,2.653,0.0,0.0",
  "windowSHGC = 0.426,0.0,0.426,0.0,0.426,0.0,0.426,0.0,0.0",
  "windowSCF = 1.0,0.0,1.0,0.0,1.0,0.0,1.0,0.0,1.0",
  "windowSDF = 1.0,0.0,1.0,0.0,1.0,0.0,1.0,0.0,1.0",
  "wallArea = 84.45,0.0,56.3,0.0,84.45,0.0,56.3,0.0,598.76",
  "windowArea = 16.74,0.0,11.16,0.0,20.65,0.0,11.16,0.0,0.0",
  "",
  "# new as unused parameters",
  "ventilationIntakeRateUnoccupied = 0",
  "ventilationExhaustRateUnoccupied = 0",
  "infiltrationRateUnoccupied = 0",
  "lightingPowerFixedOccupied = 0",
  "lightingPowerFixedUnoccupied = 0",
  "electricAppliancePowerFixedOccupied = 0",
  "electricAppliancePowerFixedUnoccupied = 0",
  "gasAppliancePowerFixedOccupied = 0",
  "gasAppliancePowerFixedUnoccupied = 0",
  "schedulefilepath = ./schedule.txt"].map String.toList

/-- the file -/
def shipped : Str := (shippedLines.map (· ++ ['\n'])).flatten

/-- its parameters -/
def shippedStore : Properties.Store := [
  ("bemtype", "none"),
  ("buildingheight", "6.33"),
  ("constantilluminationcontrolmultiplier", "1"),
  ("coolingpumpcontrol", "1.0"),
  ("coolingsetpointoccupied", "28"),
  ("coolingsetpointunoccupied", "28"),
  ("coolingsystemcop", "3.21030372594672"),
  ("coolingsystemiplvtocopratio", "1.04773541524309"),
  ("daylightsensordimmingfraction", "1"),
  ("dhwdemand", "0.0"),
  ("dhwdistributionefficiency", "0.6"),
  ("dhwfueltype", "gas"),
  ("dhwsystemefficiency", "0.8"),
  ("electricappliancepowerdensityoccupied", "4.83103336902162"),
  ("electricappliancepowerdensityunoccupied", "2.24818845302062"),
  ("electricappliancepowerfixedoccupied", "0"),
  ("electricappliancepowerfixedunoccupied", "0"),
  ("exhaustairrecirculation", "0.0"),
  ("exteriorheatcapacity", "29707.0229928189"),
  ("exteriorlightingpower", "303.660166666667"),
  ("fanflowcontrolfactor", "1.0"),
  ("floorarea", "511.16"),
  ("gasappliancepowerdensityoccupied", "0.0"),
  ("gasappliancepowerdensityunoccupied", "0.0"),
  ("gasappliancepowerfixedoccupied", "0"),
  ("gasappliancepowerfixedunoccupied", "0"),
  ("heatgainperperson", "120.0"),
  ("heatingfueltype", "gas"),
  ("heatingpumpcontrol", "1.0"),
  ("heatingsetpointoccupied", "24"),
  ("heatingsetpointunoccupied", "24"),
  ("heatingsystemefficiency", "2.13505737091766"),
  ("heatrecovery", "0.0"),
  ("hvaccoolinglossfactor", "0.0"),
  ("hvacheatinglossfactor", "0.25"),
  ("hvacwastefactor", "0.0"),
  ("infiltrationrateoccupied", "7.08899540065705"),
  ("infiltrationrateunoccupied", "0"),
  ("interiorheatcapacity", "98010.0000000022"),
  ("lightingoccupancysensordimmingfraction", "1"),
  ("lightingpowerdensityoccupied", "6.33869983780207"),
  ("lightingpowerdensityunoccupied", "2.58639212251571"),
  ("lightingpowerfixedoccupied", "0"),
  ("lightingpowerfixedunoccupied", "0"),
  ("occupancydayfirst", "1"),
  ("occupancydaylast", "5"),
  ("occupancyhourfirst", "8"),
  ("occupancyhourlast", "17"),
  ("peopledensityoccupied", "25.4683514030612"),
  ("peopledensityunoccupied", "150.51041254091"),
  ("schedulefilepath", "./schedule.txt"),
  ("specificfanpower", "0.892769460142308"),
  ("terrainclass", "0.8"),
  ("ventilationexhaustrateoccupied", "158.1941"),
  ("ventilationexhaustrateunoccupied", "0"),
  ("ventilationintakerateoccupied", "158.1941"),
  ("ventilationintakerateunoccupied", "0"),
  ("ventilationtype", "mechanical"),
  ("wallabsorption", "0.7,0.0,0.7,0.0,0.7,0.0,0.7,0.0,0.7"),
  ("wallarea", "84.45,0.0,56.3,0.0,84.45,0.0,56.3,0.0,598.76"),
  ("wallemissivity", "0.9,0.0,0.9,0.0,0.9,0.0,0.9,0.0,0.9"),
  ("wallu", "0.363,0.0,0.363,0.0,0.363,0.0,0.363,0.0,2.494"),
  ("weatherfilepath", "ORD.epw"),
  ("windowarea", "16.74,0.0,11.16,0.0,20.65,0.0,11.16,0.0,0.0"),
  ("windowscf", "1.0,0.0,1.0,0.0,1.0,0.0,1.0,0.0,1.0"),
  ("windowsdf", "1.0,0.0,1.0,0.0,1.0,0.0,1.0,0.0,1.0"),
  ("windowshgc", "0.426,0.0,0.426,0.0,0.426,0.0,0.426,0.0,0.0"),
  ("windowu", "2.653,0.0,2.653,0.0,2.653,0.0,2.653,0.0,0.0")].map fun p => (p.1.toList, p.2.toList)

theorem shippedStore_eq : Properties.ofFile (some shipped) = .ok shippedStore := by
  have h : getlines shipped = shippedLines := by
    have := getlines_flatten shippedLines [] (by decide +kernel)
    rw [List.append_nil] at this
    rw [shipped, this]
    exact List.append_nil _
  show Properties.readLines 0 (getlines shipped) empty = _
  rw [h]
  decide +kernel

/-! ### reading numbers by computation -/

/-- `stod` before the number becomes a `double` -/
def stodValue (s : Str) : Except ConvError Value :=
  match strtod s with
  | none => .error .invalidArgument
  | some (.number q, _) => if overflows q || underflows q then .error .outOfRange else .ok (.number q)
  | some (v, _) => .ok v

noncomputable def toDouble : Value → Dbl
  | .number q => .fin q
  | .infinite true => .ninf
  | .infinite false => .pinf
  | .nan => .nan

theorem stod_value (t : Str) : Numerals.stod t = (stodValue t).map toDouble := by
  unfold Numerals.stod stodValue
  rcases strtod t with _ | ⟨q | _ | _, r⟩
  · rfl
  · simp only
    split_ifs <;> rfl
  · rename_i b; cases b <;> rfl
  · rfl

/-- not an infinity or NaN -/
def plainText (t : Str) : Bool :=
  match stodValue t with
  | .ok (.number _) => true
  | .ok _ => false
  | .error _ => true

theorem plainText_fin {t : Str} (h : plainText t = true) {v : Dbl} (hv : Numerals.stod t = .ok v) : ∃ r, v = fin r := by
  rw [stod_value] at hv
  unfold plainText at h
  rcases hs : stodValue t with e | q | b | _
  · rw [hs] at hv; cases hv
  · rw [hs] at hv; cases hv; exact ⟨_, rfl⟩
  · rw [hs] at h; cases h
  · rw [hs] at h; cases h

/-- every value of the file, and every part between commas, is no infinity and not NaN -/
def plainStore (file : Properties.Store) : Bool :=
  file.all fun p => plainText p.2 && match tokens p.2 with
    | .ok ts => ts.all plainText
    | .error _ => true

theorem find_mem {file : Properties.Store} {k v : Str} (h : find k file = some v) : ∃ p ∈ file, p.2 = v := by
  induction file with
  | nil => cases h
  | cons p file ih =>
    unfold find at h
    split at h
    · exact ⟨p, by simp, Option.some.inj h⟩
    · obtain ⟨p, hp, e⟩ := ih h
      exact ⟨p, by simp [hp], e⟩

theorem plainStore_finite {file : Properties.Store} (h : plainStore file = true) : Finite file := by
  unfold plainStore at h
  rw [List.all_eq_true] at h
  constructor
  · intro name v hv
    unfold Param.number Param.given at hv
    rw [Option.bind_eq_some_iff] at hv
    obtain ⟨t, ht, hv⟩ := hv
    obtain ⟨p, hp, rfl⟩ := find_mem ht
    have := h p hp
    rw [Bool.and_eq_true] at this
    cases hs : Numerals.stod p.2 with
    | error e => rw [hs] at hv; cases hv
    | ok x => rw [hs] at hv; cases hv; exact plainText_fin this.1 hs
  · intro name f hf i
    unfold Param.facades Properties.getPropertyAsDoubleVector at hf
    cases hg : Properties.getProperty name.toList file with
    | none => rw [hg] at hf; cases hf
    | some t =>
      rw [hg] at hf
      simp only at hf
      obtain ⟨p, hp, rfl⟩ := find_mem hg
      have hpl := h p hp
      rw [Bool.and_eq_true] at hpl
      cases ht : tokens p.2 with
      | error e => rw [ht] at hf; cases hf
      | ok ts =>
        rw [ht] at hf
        have hts := hpl.2
        rw [ht] at hts
        simp only at hts hf
        rw [List.all_eq_true] at hts
        have hall : ∀ vs, Properties.stodAll Numerals.stod ts = .ok vs → ∀ v ∈ vs, ∃ r, v = fin r := by
          clear hf ht hpl
          induction ts with
          | nil => intro vs h; cases h; simp
          | cons t ts ih =>
            intro vs hvs
            unfold Properties.stodAll at hvs
            cases h1 : Numerals.stod t with
            | error e => rw [h1] at hvs; cases hvs
            | ok x =>
              rw [h1] at hvs
              simp only at hvs
              cases h2 : Properties.stodAll Numerals.stod ts with
              | error e => rw [h2] at hvs; cases hvs
              | ok xs =>
                rw [h2] at hvs
                cases hvs
                intro v hv
                rcases List.mem_cons.mp hv with rfl | hv
                · exact plainText_fin (hts t (by simp)) h1
                · exact ih (fun t ht => hts t (by simp [ht])) xs h2 v hv
        cases hs : Properties.stodAll Numerals.stod ts with
        | error e => rw [hs] at hf; cases e <;> cases hf
        | ok vs =>
          rw [hs] at hf
          simp only at hf
          have := hall vs hs
          rcases vs with _ | ⟨n, _ | ⟨ne, _ | ⟨e, _ | ⟨se, _ | ⟨s, _ | ⟨sw, _ | ⟨w, _ | ⟨nw, _ | ⟨roof, _ | ⟨x, l⟩⟩⟩⟩⟩⟩⟩⟩⟩⟩ <;> try (cases hf; done)
          cases hf
          simp only [List.mem_cons, List.not_mem_nil, or_false, forall_eq_or_imp, forall_eq] at this
          obtain ⟨h1, h2, h3, h4, h5, h6, h7, h8, h9⟩ := this
          fin_cases i <;> assumption

theorem accepted_value {file : Properties.Store} (h : ∀ r ∈ Param.table, Param.judge stodValue file r = .accepted) :
    ∀ r ∈ Param.table, Param.judge Numerals.stod file r = .accepted :=
  fun r hr => (judge_map stodValue toDouble file Numerals.stod stod_value r).trans (h r hr)

theorem number_value {file : Properties.Store} {name : String} {q : ℚ} (h : Param.number stodValue file name = some (.number q)) :
    Param.number Numerals.stod file name = some (fin q) := by
  unfold Param.number at h ⊢
  rw [Option.bind_eq_some_iff] at h
  obtain ⟨t, ht, hv⟩ := h
  rw [ht, Option.bind_some, stod_value]
  cases hs : stodValue t with
  | error e => rw [hs] at hv; cases hv
  | ok x => rw [hs] at hv; cases hv; rfl

theorem stodAll_value (ts : List Str) : Properties.stodAll Numerals.stod ts = (Properties.stodAll stodValue ts).map (List.map toDouble) := by
  induction ts with
  | nil => rfl
  | cons t ts ih =>
    unfold Properties.stodAll
    rw [stod_value, ih]
    cases stodValue t with
    | error e => rfl
    | ok x =>
      simp only [Except.map]
      cases Properties.stodAll stodValue ts <;> rfl

theorem facades_value {file : Properties.Store} {name : String} {n ne e se s sw w nw roof : Value}
    (h : Properties.getPropertyAsDoubleVector stodValue name.toList file = .ok (some [n, ne, e, se, s, sw, w, nw, roof])) :
    Param.facades Numerals.stod file name = some fun i => [toDouble s, toDouble se, toDouble e, toDouble ne, toDouble n, toDouble nw, toDouble w,
      toDouble sw, toDouble roof].getD i.1 (toDouble n) := by
  unfold Param.facades
  have : Properties.getPropertyAsDoubleVector Numerals.stod name.toList file =
      (Properties.getPropertyAsDoubleVector stodValue name.toList file).map (Option.map (List.map toDouble)) := by
    unfold Properties.getPropertyAsDoubleVector
    cases Properties.getProperty name.toList file with
    | none => rfl
    | some t =>
      simp only
      cases tokens t with
      | error e => rfl
      | ok ts =>
        simp only [stodAll_value]
        cases Properties.stodAll stodValue ts with
        | error e => cases e <;> rfl
        | ok xs => rfl
  rw [this, h]
  rfl

/-! ### a year of weather -/

/-- the first line of the weather file of Chicago, up to the time zone -/
def someHeader : List Str := ["LOCATION", "Chicago Ohare Intl Ap", "IL", "USA", "TMY3", "725300", "41.98", "-87.92", "-6.0"].map String.toList

/-- an hour -/
def someHour : List Str := ["1986", "1", "1", "1", "0", "?", "12.2", "5.0", "61", "99500", "0", "0", "279", "150", "100", "85", "0", "0", "0", "0", "250",
  "4.1"].map String.toList

/-- a file of 8768 lines -/
def someYear : Str := Spec.Epw.file (Spec.Epw.line someHeader :: List.replicate 7 [] ++ List.replicate 8760 (Spec.Epw.line someHour))

/-- the values of the hour -/
noncomputable def someValues : Fin 7 → ℝ
  | 0 => 12.2 | 1 => 5 | 2 => 61 | 3 => 150 | 4 => 100 | 5 => 85 | 6 => 4.1

theorem gives_number {t : Str} {q : ℚ} {r : Str} (h : strtod t = some (.number q, r)) {x : ℝ} (hx : x = q) (hs : |x| ≤ 1000) : Gives t x := by
  obtain ⟨p, hp⟩ := (C59_longest t (.number q)).1 ⟨r, h⟩
  exact ⟨p, q, hp, hx, hs.trans (by norm_num)⟩

theorem someYear_complete : YearFile someYear 41.98 (-87.92) (-6) (fun c _ => someValues c) := by
  refine ⟨Spec.Epw.line someHeader :: List.replicate 7 [] ++ List.replicate 8760 (Spec.Epw.line someHour), rfl, ?_, ?_, ?_⟩
  · intro l hl
    simp only [List.cons_append, List.mem_cons, List.mem_append, List.mem_replicate] at hl
    rcases hl with rfl | ⟨-, rfl⟩ | ⟨-, rfl⟩
    · decide +kernel
    · simp
    · decide +kernel
  · refine ⟨someHeader, rfl, by decide, by decide +kernel, ?_, ?_, ?_⟩
    · exact gives_number (q := 4198 / 100) (r := []) (by decide +kernel) (by norm_num) (by rw [abs_of_pos] <;> norm_num)
    · exact gives_number (q := -8792 / 100) (r := []) (by decide +kernel) (by norm_num) (by rw [abs_of_neg] <;> norm_num)
    · exact gives_number (q := -6) (r := []) (by decide +kernel) (by norm_num) (by rw [abs_of_neg] <;> norm_num)
  · intro r
    refine ⟨someHour, ?_, by decide, by decide +kernel, ?_⟩
    · obtain ⟨r, hr⟩ := r
      simp only
      generalize Spec.Epw.line someHour = l
      generalize Spec.Epw.line someHeader = l0
      generalize 8760 = N at *
      rw [List.getElem?_append_right (by simp), List.getElem?_replicate]
      simp only [List.length_cons, List.length_replicate]
      rw [if_pos (by omega)]
    · intro c
      fin_cases c
      · exact gives_number (q := 122 / 10) (r := []) (by decide +kernel) (by simp only [someValues]; norm_num) (by simp only [someValues]; rw [abs_of_pos] <;> norm_num)
      · exact gives_number (q := 5) (r := []) (by decide +kernel) (by simp only [someValues]; norm_num) (by simp only [someValues]; rw [abs_of_pos] <;> norm_num)
      · exact gives_number (q := 61) (r := []) (by decide +kernel) (by simp only [someValues]; norm_num) (by simp only [someValues]; rw [abs_of_pos] <;> norm_num)
      · exact gives_number (q := 150) (r := []) (by decide +kernel) (by simp only [someValues]; norm_num) (by simp only [someValues]; rw [abs_of_pos] <;> norm_num)
      · exact gives_number (q := 100) (r := []) (by decide +kernel) (by simp only [someValues]; norm_num) (by simp only [someValues]; rw [abs_of_pos] <;> norm_num)
      · exact gives_number (q := 85) (r := []) (by decide +kernel) (by simp only [someValues]; norm_num) (by simp only [someValues]; rw [abs_of_pos] <;> norm_num)
      · exact gives_number (q := 41 / 10) (r := []) (by decide +kernel) (by simp only [someValues]; norm_num) (by simp only [someValues]; rw [abs_of_pos] <;> norm_num)

theorem someYear_suitable : Suitable 41.98 (-6) (fun c (_ : Fin 8760) => someValues c) := by
  refine ⟨?_, ?_, ?_, ?_⟩
  · rw [abs_of_pos] <;> norm_num
  · rw [abs_of_neg] <;> norm_num
  · intro r
    simp only [someValues]
    norm_num
  · intro m hm
    have hd := ISO.Solar.days_table ⟨m, hm⟩
    simp only at hd
    refine ⟨⟨24 * daysBefore (m + 1), by omega⟩, ?_, ?_⟩
    · show 24 * daysBefore (m + 1) ∈ Finset.Ico (24 * daysBefore (m + 1)) (24 * daysBefore (m + 2))
      rw [Finset.mem_Ico]; omega
    · simp only [someValues]; norm_num

/-! ### the shipped file -/

theorem shipped_accepted : ∀ r ∈ Param.table, Param.judge Numerals.stod shippedStore r = .accepted := accepted_value (by decide +kernel)

theorem shipped_finite : Finite shippedStore := plainStore_finite (by decide +kernel)

theorem shipped_occupied : Occupied shippedStore := by
  refine ⟨(1 : ℚ), (5 : ℚ), (8 : ℚ), (17 : ℚ), number_value (by decide +kernel), number_value (by decide +kernel), number_value (by decide +kernel),
    number_value (by decide +kernel), ?_⟩
  norm_num

/-- **C61, a disagreement.** The building file that comes with the repository, simulated with whatever suitable year of weather, makes the program
read outside an array: the file gives the shading device 0 for the four facades without windows. -/
theorem C61_shipped (fs : FileSystem) (junk : Params Dbl) (o : Options) (ho : Nothing o) (hd : o.defaults = none) (hb : fs.exists_ o.ism = true)
    (hfile : fs.read o.ism = some shipped) (weather : Str)
    (hW : if fs.exists_ "ORD.epw".toList then weather = "ORD.epw".toList else weather = resolveFilename o.ism "ORD.epw".toList ∧ fs.exists_ weather = true)
    (text : Str) (hread : fs.read weather = some text) (lat lon zone : ℝ) (v : Fin 7 → Fin 8760 → ℝ)
    (hy : YearFile text lat lon zone v) (hs : Suitable lat zone v) :
    main standard Numerals.print fs junk o = .undefined := by
  refine C61_shading fs junk o ho hb (by rw [hd]; simp) shippedStore ?_ shipped_accepted shipped_finite shipped_occupied _
    (facades_value (name := "windowSDF") (n := .number 1) (ne := .number 0) (e := .number 1) (se := .number 0) (s := .number 1) (sw := .number 0)
      (w := .number 1) (nw := .number 0) (roof := .number 1) (by decide +kernel)) 1 0 ?_ (Or.inl (by norm_num)) "ORD.epw".toList weather
    (by decide +kernel) hW text hread lat lon zone v hy hs
  · unfold parsed
    rw [hd]
    simp only [hfile]
    exact shippedStore_eq
  · show toDouble (.number 0) = _
    simp [toDouble]

end ISO.Props
