import Verif.Props.PrintedOrder
import Verif.Props.EditingCases
import Verif.Lemmas.Described

/-! # C76: the hypotheses are met by the office of `EndToEndOffice` and the same office with a line in front of its file -/

namespace ISO.Props
open ISO ISO.Numerals ISO.Properties ISO.Spec ISO.Spec.Text ISO.Spec.Whole ISO.Spec.EndToEnd ISO.User ISO.CommandLine ISO.Epw ISO.Lemmas Dbl
open ISO.Spec.Editing (Edited SameTable)
open ISO.Spec.PrintedOrder ISO.Lemmas.Described ISO.Lemmas.Editing

namespace PrintedOrderCases

/-- a building file that can be read, with acceptable parameters, and the weather file `ORD.epw` -/
structure Ready (building : Str) (file : Properties.Store) : Prop where
  readable : Properties.ofFile (some building) = .ok file
  accepted : ∀ r ∈ Param.table, Param.judge Numerals.stod file r = .accepted
  weather : Param.given file "weatherfilepath" = some "ORD.epw".toList

theorem Ready.inputs {building : Str} {file : Properties.Store} (h : Ready building file) (monthly byMonth byHour : Bool) (c : Option Str) :
    Inputs (twoFiles building someYear) ⟨"SmallOffice_v2.ism".toList, none, monthly, byMonth, byHour, c⟩ file someYear where
  building := twoFiles_exists _ _ _
  defaults := by simp
  parameters := by
    simp only
    rw [twoFiles_building]
    exact h.readable
  accepted := h.accepted
  weather := ⟨"ORD.epw".toList, "ORD.epw".toList, h.weather, by rw [twoFiles_exists]; rfl, twoFiles_weather _ _⟩

theorem mended_ready : Ready mended mendedStore := ⟨mendedStore_eq, mended_accepted, by decide +kernel⟩

/-- what is to be checked of a line `name = value` -/
def Fine (name : String) (before after value : Str) (q : ℚ) : Prop :=
  '\n' ∉ before ++ '=' :: after ∧ '=' ∉ before ∧ strTrim before = name.toList ∧ strTrim after = value ∧ name.toList ≠ [] ∧ value ≠ [] ∧
  Properties.parseLine (before ++ '=' :: after) ≠ .skip ∧
  (∀ r ∈ Param.table, SameKey name.toList r.name.toList → r.name = name ∧
    Param.judge stodValue [(name.toList.map Char.toLower, value)] r = .accepted) ∧
  ¬ SameKey name.toList "weatherfilepath".toList ∧
  Param.number stodValue [(name.toList.map Char.toLower, value)] name = some (.number q)

instance (name : String) (before after value : Str) (q : ℚ) : Decidable (Fine name before after value q) := by
  unfold Fine SameKey
  infer_instance

theorem Ready.line {building : Str} {file : Properties.Store} (h : Ready building file) {name : String} {before after value : Str} {q : ℚ}
    (hf : Fine name before after value q) : ∃ file', Ready (before ++ '=' :: after ++ '\n' :: building) file' ∧ Edited [name] file file' ∧
      EndToEnd.Gives file' name q := by
  obtain ⟨f1, f2, f3, f4, f5, f6, f7, f8, f9, f10⟩ := hf
  have hd : Defines (before ++ '=' :: after) name.toList value := by
    refine ⟨fun hi => f7 ((parseLine_skip_iff _).mpr hi), before, after, rfl, f2, ?_, f5, ?_, f6⟩
    · rw [← f3]; exact strTrim_trimmed _
    · rw [← f4]; exact strTrim_trimmed _
  obtain ⟨file', h1, h2, h3, h4⟩ := C75_line h.readable f1 hd [name] (fun r hr hk => by simp [(f8 r hr hk).1])
  have one : ∀ k, SameKey name.toList k → Properties.getProperty k file' = Properties.getProperty k [(name.toList.map Char.toLower, value)] := by
    intro k hk
    rw [h3 k hk]
    show _ = Properties.find (k.map Char.toLower) _
    rw [← hk]
    simp [Properties.find]
  refine ⟨file', ⟨h1, fun r hr => ?_, ?_⟩, h2, ?_⟩
  · by_cases hk : SameKey name.toList r.name.toList
    · exact (judge_given (one _ hk)).trans ((judge_map stodValue toDouble _ Numerals.stod stod_value r).trans (f8 r hr hk).2)
    · exact (judge_given (h4 _ hk)).trans (h.accepted r hr)
  · exact (h4 _ f9).trans h.weather
  · exact gives_same (one _ rfl) (gives_value f10 rfl)

end PrintedOrderCases
open PrintedOrderCases

theorem betterBoiler_fine : Fine "heatingsystemefficiency" "heatingsystemefficiency ".toList " 3".toList "3".toList 3 := by
  decide +kernel

/-- the hypotheses of `C76_boiler` are met -/
example (junk : Params Dbl) (byMonth : Bool) : ∃ out out',
    main standard Numerals.print (twoFiles mended someYear) junk ⟨"SmallOffice_v2.ism".toList, none, false, byMonth, !byMonth, none⟩
      = .returns [.runHourly byMonth] out ∧
    main standard Numerals.print (twoFiles ("heatingsystemefficiency = 3\n".toList ++ mended) someYear) junk
      ⟨"SmallOffice_v2.ism".toList, none, false, byMonth, !byMonth, none⟩ = .returns [.runHourly byMonth] out' ∧
    SameTable [0, 9] out out' ∧
    ∀ i < (if byMonth then 12 else 8760), ∀ k ∈ ([0, 9] : List (Fin 13)), CellAtMost i k out' out ∨ CellUndefined i k out' out := by
  obtain ⟨file', hr, he, hg⟩ := mended_ready.line betterBoiler_fine
  exact C76_boiler (mended_ready.inputs false byMonth (!byMonth) none) (hr.inputs false byMonth (!byMonth) none) byMonth ⟨rfl, rfl, rfl, rfl⟩
    ⟨rfl, rfl, rfl, rfl⟩ mended_describes (described_boiler mended_describes he hg) (by norm_num [mendedOffice]) mended_physical mended_systems
    mended_timetable someYear_complete someYear_suitable.lat someYear_suitable.zone junk junk

theorem betterChiller_fine : Fine "coolingsystemcop" "coolingsystemcop ".toList " 4.5".toList "4.5".toList (9 / 2) := by
  decide +kernel

/-- the hypotheses of `C76_chiller` are met -/
example (junk : Params Dbl) (byMonth : Bool) : ∃ out out',
    main standard Numerals.print (twoFiles mended someYear) junk ⟨"SmallOffice_v2.ism".toList, none, false, byMonth, !byMonth, none⟩
      = .returns [.runHourly byMonth] out ∧
    main standard Numerals.print (twoFiles ("coolingsystemcop = 4.5\n".toList ++ mended) someYear) junk
      ⟨"SmallOffice_v2.ism".toList, none, false, byMonth, !byMonth, none⟩ = .returns [.runHourly byMonth] out' ∧
    SameTable [1] out out' ∧
    ∀ i < (if byMonth then 12 else 8760), ∀ k ∈ ([1] : List (Fin 13)), CellAtMost i k out' out ∨ CellUndefined i k out' out := by
  obtain ⟨file', hr, he, hg⟩ := mended_ready.line betterChiller_fine
  exact C76_chiller (mended_ready.inputs false byMonth (!byMonth) none) (hr.inputs false byMonth (!byMonth) none) byMonth ⟨rfl, rfl, rfl, rfl⟩
    ⟨rfl, rfl, rfl, rfl⟩ mended_describes (described_chiller mended_describes he hg) (by norm_num [mendedOffice]) mended_physical mended_systems
    mended_timetable someYear_complete someYear_suitable.lat someYear_suitable.zone junk junk

/-! ### the monthly table -/

/-- the office with another heat recovery and other set-points -/
noncomputable def variedOffice (h t c : ℝ) : Sim ℝ :=
  { mendedOffice with
    ventilation := { mendedOffice.ventilation with heatRecoveryEfficiency := h }
    heating := { mendedOffice.heating with temperatureSetPointOccupied := t, temperatureSetPointUnoccupied := t }
    cooling := { mendedOffice.cooling with temperatureSetPointOccupied := c, temperatureSetPointUnoccupied := c } }

set_option maxHeartbeats 2000000 in
/-- the office is ordinary in this weather -/
theorem varied_ordinary {h t c : ℝ} (h0 : 0 ≤ h ∧ h ≤ 1) (t0 : 22 ≤ t ∧ t ≤ 24) (c0 : 28 ≤ c ∧ c ≤ 30) {a : WeatherData ℝ} (ha : Averaged chicagoYear a) :
    Ordinary { variedOffice h t c with weather := a } ∧ Equipped { variedOffice h t c with weather := a } := by
  obtain ⟨s1, s2⟩ := mended_envelope
  set x : Sim ℝ := { variedOffice h t c with weather := a } with hx
  have s1 : ∑ i, (x.bldg.wallArea i * x.bldg.wallUniform i + x.bldg.windowArea i * x.bldg.windowUniform i) = 1753.90257 := s1
  have s2 : ∑ i, x.bldg.wallArea i = 880.26 := s2
  have ht : TempData x := by
    constructor
    case week => constructor <;> norm_num [hx, variedOffice, mendedOffice, windowHours, windowDays]
    case heatLoss =>
      rw [s1]
      norm_num [hx, variedOffice, mendedOffice]
    case capacity =>
      rw [s2]
      norm_num [hx, variedOffice, mendedOffice]
    all_goals norm_num [hx, variedOffice, mendedOffice, windowHours, windowDays]
  have hv : VentilationData x := by
    constructor <;> norm_num [hx, variedOffice, mendedOffice]
    exact h0.2
  have hl : LightingData x := by
    constructor <;> norm_num [hx, variedOffice, mendedOffice, litByDay, litDays, windowDays]
  have hsys : SystemData x := by
    constructor <;> norm_num [hx, variedOffice, mendedOffice]
  have h15 : x.heating.tau_H0 = 15 := rfl
  have hi : 0 < inertia x := by
    unfold inertia buildingTau
    rw [h15, s1, s2]
    norm_num [hx, variedOffice, mendedOffice]
  have hlev : levelShift x.building.buildingEnergyManagement = 0 := by
    norm_num [hx, levelShift, variedOffice, mendedOffice]
  have hT : heatTo x = t := by unfold heatTo; rw [hlev]; norm_num [hx, variedOffice, mendedOffice]
  have hT' : coolTo x = c := by unfold coolTo; rw [hlev]; norm_num [hx, variedOffice, mendedOffice]
  have hst : SteadyTemperatures x := ⟨.inr (by rw [hT]; norm_num [hx, variedOffice, mendedOffice]), .inr (by rw [hT']; norm_num [hx, variedOffice, mendedOffice])⟩
  have hw := chicagoYear_averages ha
  refine ⟨⟨ht, hv, hl, hsys, fun m j => by linarith [((hw m).2.2.2 j).1], by rw [h15]; norm_num, hi, clear_months hi fun m => ?_⟩, ?_⟩
  · obtain ⟨⟨t1, t2⟩, ⟨r1, r2⟩, hsol, -⟩ := hw m
    rw [heatedTo_steady ht hst, cooledTo_steady ht hst, hT, hT']
    have hM : 2 < megaseconds m := by fin_cases m <;> norm_num [megaseconds, days, monthDays]
    obtain ⟨d0, d1⟩ := share_bounds ht.week
    have loss : ∀ T : ℝ, 22 ≤ T → megaseconds m * (9 * 1700) ≤ monthLoss x T m := by
      intro T hT
      have h1 := air_nonneg hv d0 d1 m T
      have h2 : 0 ≤ (leakage x m T + fanFlow x (occupiedShare x)) * (x.phys.rhoCpAir * 1000000) / 3600 * x.bldg.floorArea :=
        mul_nonneg (div_nonneg (mul_nonneg h1 (mul_nonneg hv.air.le (by norm_num))) (by norm_num)) hv.floorArea.le
      have h3 : x.weather.mdbt m = a.mdbt m := rfl
      unfold monthLoss
      rw [s1, h3, mul_assoc]
      refine mul_le_mul_of_nonneg_left ?_ (by linarith)
      refine mul_le_mul (by linarith) ?_ (by norm_num) (by linarith)
      linarith
    have side : ∀ j : Fin 9, j.1 < 8 → -501 ≤ irradianceOn x.weather m j ∧ irradianceOn x.weather m j ≤ 501 := by
      intro j hj
      unfold irradianceOn
      rw [dif_pos hj]
      exact hsol _
    have roof : 149 ≤ irradianceOn x.weather m 8 ∧ irradianceOn x.weather m 8 ≤ 151 := ⟨r1, r2⟩
    have q0 := side 0 (by decide)
    have q2 := side 2 (by decide)
    have q4 := side 4 (by decide)
    have q6 := side 6 (by decide)
    have hwin : -4400 ≤ windowHeat x.bldg x.weather m ∧ windowHeat x.bldg x.weather m ≤ 4400 := by
      unfold windowHeat
      rw [sum9]
      generalize irradianceOn x.weather m 0 = y0, irradianceOn x.weather m 2 = y2, irradianceOn x.weather m 4 = y4,
        irradianceOn x.weather m 6 = y6, irradianceOn x.weather m 8 = y8 at *
      norm_num [hx, shading, variedOffice, mendedOffice, nineOf]
      constructor <;> linarith [q0.1, q0.2, q2.1, q2.2, q4.1, q4.2, q6.1, q6.2]
    have ho : 4700 ≤ opaqueHeat x.bldg x.weather m ∧ opaqueHeat x.bldg x.weather m ≤ 7800 := by
      unfold opaqueHeat
      rw [sum9]
      generalize irradianceOn x.weather m 0 = y0, irradianceOn x.weather m 2 = y2, irradianceOn x.weather m 4 = y4,
        irradianceOn x.weather m 6 = y6, irradianceOn x.weather m 8 = y8 at *
      norm_num [hx, variedOffice, mendedOffice, nineOf]
      constructor <;> linarith [roof.1, roof.2, q0.1, q0.2, q2.1, q2.2, q4.1, q4.2, q6.1, q6.2]
    have hs : 3000 ≤ skyLoss x.bldg ∧ skyLoss x.bldg ≤ 3100 := by
      unfold skyLoss
      rw [sum9]
      norm_num [hx, skyView, variedOffice, mendedOffice, nineOf]
    have hin : 4000 ≤ insideHeat x ∧ insideHeat x ≤ 5000 := by
      norm_num [hx, insideHeat, occupiedShare, windowHours, windowDays, lightsYear, litDays, litByDay, litByNight, variedOffice, mendedOffice]
    have hb : monthGain x m ≤ megaseconds m * 15000 :=
      mul_le_mul_of_nonneg_left (by linarith [hwin.2, ho.2, hs.1, hin.2]) (by linarith)
    have hb' : megaseconds m * 1 ≤ monthGain x m :=
      mul_le_mul_of_nonneg_left (by linarith [hwin.1, ho.1, hs.2, hin.1]) (by linarith)
    have l1 := loss t t0.1
    have l2 := loss c (by linarith)
    refine ⟨?_, ?_, ?_⟩ <;> linarith
  · constructor
    case supplyCooling =>
      intro m
      rw [cooledTo_steady ht hst, hT']
      norm_num [hx, variedOffice, mendedOffice]
    all_goals norm_num [hx, variedOffice, mendedOffice, pumpEnergy]

theorem mended_sensible : Sensible mendedOffice := by
  constructor
  case walls => intro i; fin_cases i <;> norm_num [mendedOffice, nineOf]
  case windows => intro i; fin_cases i <;> norm_num [mendedOffice, nineOf]
  all_goals norm_num [mendedOffice]

theorem mended_unmixed : Unmixed mendedOffice := by
  constructor <;> norm_num [mendedOffice]

theorem mended_shading : ∀ i, 1 ≤ mendedOffice.bldg.windowShadingDevice i ∧ mendedOffice.bldg.windowShadingDevice i < 4 :=
  fun _ => ⟨show (1:ℝ) ≤ 1 from le_rfl, show (1:ℝ) < 4 by norm_num⟩

theorem varied_steady {h t c : ℝ} : SteadyTemperatures (variedOffice h t c) := by
  have hlev : levelShift (variedOffice h t c).building.buildingEnergyManagement = 0 := by
    norm_num [levelShift, variedOffice, mendedOffice]
  refine ⟨.inr ?_, .inr ?_⟩
  · unfold heatTo; rw [hlev]; norm_num [variedOffice]
  · unfold coolTo; rw [hlev]; norm_num [variedOffice]

/-- the office loses heat in every month -/
theorem varied_loses {h t c : ℝ} (h0 : 0 ≤ h ∧ h ≤ 1) (t0 : 22 ≤ t ∧ t ≤ 24) (c0 : 28 ≤ c ∧ c ≤ 30) {a : WeatherData ℝ} (ha : Averaged chicagoYear a)
    (m : Fin 12) {T : ℝ} (hT : 22 ≤ T) : 0 < monthLoss { variedOffice h t c with weather := a } T m := by
  obtain ⟨s1, -⟩ := mended_envelope
  set x : Sim ℝ := { variedOffice h t c with weather := a } with hx
  have s1 : ∑ i, (x.bldg.wallArea i * x.bldg.wallUniform i + x.bldg.windowArea i * x.bldg.windowUniform i) = 1753.90257 := s1
  have ho := (varied_ordinary h0 t0 c0 ha).1
  obtain ⟨⟨t1, t2⟩, -⟩ := chicagoYear_averages ha m
  obtain ⟨d0, d1⟩ := share_bounds ho.temperatures.week
  have h1 := air_nonneg ho.flows d0 d1 m T
  have h2 : 0 ≤ (leakage x m T + fanFlow x (occupiedShare x)) * (x.phys.rhoCpAir * 1000000) / 3600 * x.bldg.floorArea :=
    mul_nonneg (div_nonneg (mul_nonneg h1 (mul_nonneg ho.flows.air.le (by norm_num))) (by norm_num)) ho.flows.floorArea.le
  have h3 : x.weather.mdbt m = a.mdbt m := rfl
  unfold monthLoss
  rw [s1, h3]
  exact mul_pos (mul_pos (megaseconds_pos m) (by linarith)) (by linarith)

theorem lowerOccupied_fine : Fine "heatingsetpointoccupied" "heatingsetpointoccupied ".toList " 22".toList "22".toList 22 := by
  decide +kernel
theorem lowerUnoccupied_fine : Fine "heatingsetpointunoccupied" "heatingsetpointunoccupied ".toList " 22".toList "22".toList 22 := by
  decide +kernel
theorem higherOccupied_fine : Fine "coolingsetpointoccupied" "coolingsetpointoccupied ".toList " 30".toList "30".toList 30 := by
  decide +kernel
theorem higherUnoccupied_fine : Fine "coolingsetpointunoccupied" "coolingsetpointunoccupied ".toList " 30".toList "30".toList 30 := by
  decide +kernel
theorem recovery_fine : Fine "heatrecovery" "heatrecovery ".toList " 0.8".toList "0.8".toList (4 / 5) := by
  decide +kernel

theorem edited_twice {n n' : String} {file file' file'' : Properties.Store} (h : Edited [n] file file') (h' : Edited [n'] file' file'') :
    Edited [n', n] file file'' := fun r hr hn => by
  simp only [List.mem_cons, List.not_mem_nil, or_false, not_or] at hn
  exact (h' r hr (by simpa using hn.1)).trans (h r hr (by simpa using hn.2))

/-- the hypotheses of `C76_thermostat` are met: 22 instead of 24 degrees; the cells for heating of all months show no higher number -/
example (junk : Params Dbl) : ∃ out out',
    main standard Numerals.print (twoFiles mended someYear) junk ⟨"SmallOffice_v2.ism".toList, none, false, false, false, none⟩
      = .returns [.runMonthly] out ∧
    main standard Numerals.print (twoFiles ("heatingsetpointoccupied = 22\nheatingsetpointunoccupied = 22\n".toList ++ mended) someYear) junk
      ⟨"SmallOffice_v2.ism".toList, none, false, false, false, none⟩ = .returns [.runMonthly] out' ∧
    ∀ m : Fin 12, CellAtMost m 0 out' out ∧ CellAtMost m 9 out' out := by
  obtain ⟨file1, hr1, he1, hg1⟩ := mended_ready.line lowerUnoccupied_fine
  obtain ⟨file2, hr2, he2, hg2⟩ := hr1.line lowerOccupied_fine
  have hg1' : EndToEnd.Gives file2 "heatingsetpointunoccupied" (22 : ℚ) :=
    gives_same (same_given he2 ⟨keys_known _ (by decide +kernel), by decide +kernel⟩) hg1
  have hd := described_setpoints mended_describes (edited_twice he1 he2) hg2 hg1'
  obtain ⟨out, out', a, h, h', hA, hc⟩ := C76_thermostat (x := mendedOffice)
    (y := variedOffice mendedOffice.ventilation.heatRecoveryEfficiency (22 : ℚ) 28) (mended_ready.inputs false false false none)
    (hr2.inputs false false false none) ⟨rfl, rfl, rfl, rfl⟩ ⟨rfl, rfl, rfl, rfl⟩ mended_describes hd (by norm_num [variedOffice, mendedOffice])
    (by norm_num [variedOffice, mendedOffice]) mended_shading mended_sensible mended_unmixed
    (fun i => by fin_cases i <;> norm_num [mendedOffice, nineOf]) (fun i => by fin_cases i <;> norm_num [mendedOffice, nineOf])
    someYear_complete someYear_suitable (fun _ ha => mended_ordinary ha)
    (fun _ ha => varied_ordinary (by norm_num [variedOffice, mendedOffice]) (by norm_num [variedOffice, mendedOffice])
      (by norm_num [variedOffice, mendedOffice]) ha) junk junk
  refine ⟨out, out', h, h', fun m => hc m ?_⟩
  have ho := (varied_ordinary (h := mendedOffice.ventilation.heatRecoveryEfficiency) (t := (22 : ℚ)) (c := 28)
    (by norm_num [mendedOffice]) (by norm_num) (by norm_num) hA).1
  have hst : SteadyTemperatures { variedOffice mendedOffice.ventilation.heatRecoveryEfficiency (22 : ℚ) 28 with weather := a } :=
    { varied_steady (h := mendedOffice.ventilation.heatRecoveryEfficiency) (t := (22 : ℚ)) (c := 28) with }
  have e : heatedTo { variedOffice mendedOffice.ventilation.heatRecoveryEfficiency (22 : ℚ) 28 with weather := a } m = 22 := by
    rw [heatedTo_steady ho.temperatures hst]
    norm_num [heatTo, levelShift, variedOffice, mendedOffice]
  have := varied_loses (h := mendedOffice.ventilation.heatRecoveryEfficiency) (t := 24) (c := 28) (by norm_num [mendedOffice]) (by norm_num)
    (by norm_num) hA m (le_of_eq e.symm)
  exact this

/-- the hypotheses of `C76_cooling` are met: 30 instead of 28 degrees -/
example (junk : Params Dbl) : ∃ out out',
    main standard Numerals.print (twoFiles mended someYear) junk ⟨"SmallOffice_v2.ism".toList, none, false, false, false, none⟩
      = .returns [.runMonthly] out ∧
    main standard Numerals.print (twoFiles ("coolingsetpointoccupied = 30\ncoolingsetpointunoccupied = 30\n".toList ++ mended) someYear) junk
      ⟨"SmallOffice_v2.ism".toList, none, false, false, false, none⟩ = .returns [.runMonthly] out' ∧
    ∀ m : Fin 12, CellAtMost m 1 out' out ∧ CellAtMost m 10 out' out := by
  obtain ⟨file1, hr1, he1, hg1⟩ := mended_ready.line higherUnoccupied_fine
  obtain ⟨file2, hr2, he2, hg2⟩ := hr1.line higherOccupied_fine
  have hg1' : EndToEnd.Gives file2 "coolingsetpointunoccupied" (30 : ℚ) :=
    gives_same (same_given he2 ⟨keys_known _ (by decide +kernel), by decide +kernel⟩) hg1
  have hd := described_coolpoints mended_describes (edited_twice he1 he2) hg2 hg1'
  exact C76_cooling (x := mendedOffice)
    (y := variedOffice mendedOffice.ventilation.heatRecoveryEfficiency 24 (30 : ℚ)) (mended_ready.inputs false false false none)
    (hr2.inputs false false false none) ⟨rfl, rfl, rfl, rfl⟩ ⟨rfl, rfl, rfl, rfl⟩ mended_describes hd (by norm_num [variedOffice, mendedOffice])
    (by norm_num [variedOffice, mendedOffice]) (by norm_num [variedOffice, mendedOffice]) mended_shading mended_sensible mended_unmixed
    (fun i => by fin_cases i <;> norm_num [mendedOffice, nineOf]) (fun i => by fin_cases i <;> norm_num [mendedOffice, nineOf])
    someYear_complete someYear_suitable (fun _ ha => mended_ordinary ha)
    (fun _ ha => varied_ordinary (by norm_num [variedOffice, mendedOffice]) (by norm_num [variedOffice, mendedOffice])
      (by norm_num [variedOffice, mendedOffice]) ha) junk junk

/-- the hypotheses of `C76_envelope` are met: with heat recovery -/
example (junk : Params Dbl) : ∃ out out' a,
    main standard Numerals.print (twoFiles mended someYear) junk ⟨"SmallOffice_v2.ism".toList, none, false, false, false, none⟩
      = .returns [.runMonthly] out ∧
    main standard Numerals.print (twoFiles ("heatrecovery = 0.8\n".toList ++ mended) someYear) junk
      ⟨"SmallOffice_v2.ism".toList, none, false, false, false, none⟩ = .returns [.runMonthly] out' ∧ Averaged chicagoYear a ∧
    ∀ m : Fin 12, ColdWalls { mendedOffice with weather := a } m → CellAtMost m 0 out' out ∧ CellAtMost m 9 out' out := by
  obtain ⟨file1, hr, he, hg⟩ := mended_ready.line recovery_fine
  have hd := described_recovery mended_describes he hg
  obtain ⟨out, out', a, h, h', hA, hc⟩ := C76_envelope (x := mendedOffice) (y := variedOffice ((4 / 5 : ℚ) : ℝ) 24 28)
    (mended_ready.inputs false false false none) (hr.inputs false false false none) ⟨rfl, rfl, rfl, rfl⟩ ⟨rfl, rfl, rfl, rfl⟩ mended_describes hd
    ⟨fun i => by fin_cases i <;> norm_num [variedOffice, mendedOffice, nineOf], fun _ => le_rfl,
      fun i => by fin_cases i <;> norm_num [variedOffice, mendedOffice, nineOf], fun _ => le_rfl, le_rfl, by norm_num [variedOffice, mendedOffice]⟩
    mended_shading (varied_steady (h := mendedOffice.ventilation.heatRecoveryEfficiency) (t := 24) (c := 28)) mended_sensible mended_unmixed
    someYear_complete someYear_suitable (fun _ ha => mended_ordinary ha)
    (fun _ ha => varied_ordinary (h := ((4 / 5 : ℚ) : ℝ)) (t := 24) (c := 28) (by norm_num) (by norm_num) (by norm_num) ha) junk junk
  refine ⟨out, out', a, h, h', hA, fun m hw => hc m hw ?_⟩
  refine varied_loses (h := ((4 / 5 : ℚ) : ℝ)) (t := 24) (c := 28) (by norm_num) (by norm_num) (by norm_num) hA m ?_
  norm_num [heatTo, levelShift, mendedOffice]

end ISO.Props
