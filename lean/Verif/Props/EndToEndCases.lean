import Verif.Props.EndToEnd
import Verif.Props.EndToEndOffice
import Verif.Props.MonthlyRetrofit
import Verif.Props.HourlyWholeCases

/-! # C74: the hypotheses are met by the office of `EndToEndOffice` and a year of weather -/

namespace ISO.Props
open ISO ISO.Numerals ISO.Properties ISO.Spec ISO.Spec.Text ISO.Spec.Whole ISO.Spec.EndToEnd ISO.User ISO.CommandLine ISO.Epw ISO.Lemmas Dbl

theorem mended_inputs (monthly byMonth byHour : Bool) (c : Option Str) : Inputs (twoFiles mended someYear)
    ⟨"SmallOffice_v2.ism".toList, none, monthly, byMonth, byHour, c⟩ mendedStore someYear where
  building := twoFiles_exists _ _ _
  defaults := by simp
  parameters := by
    simp only
    rw [twoFiles_building]
    exact mendedStore_eq
  accepted := mended_accepted
  weather := ⟨"ORD.epw".toList, "ORD.epw".toList, by decide +kernel, by rw [twoFiles_exists]; rfl, twoFiles_weather _ _⟩

theorem mended_wall_heat : ∑ i, mendedOffice.bldg.wallArea i * mendedOffice.bldg.wallUniform i = 1595.49194 := by
  rw [sum9]
  norm_num [mendedOffice, nineOf]

theorem mended_envelope : ∑ i, (mendedOffice.bldg.wallArea i * mendedOffice.bldg.wallUniform i
    + mendedOffice.bldg.windowArea i * mendedOffice.bldg.windowUniform i) = 1753.90257 ∧ ∑ i, mendedOffice.bldg.wallArea i = 880.26 := by
  constructor <;> rw [sum9] <;> norm_num [mendedOffice, nineOf]

theorem mended_physical : Physical mendedOffice := by
  constructor
  case opaque_ => rw [mended_wall_heat]; norm_num [mendedOffice]
  case wallArea => intro i; fin_cases i <;> norm_num [mendedOffice, nineOf]
  case wallU => intro i; fin_cases i <;> norm_num [mendedOffice, nineOf]
  case windowArea => intro i; fin_cases i <;> norm_num [mendedOffice, nineOf]
  case windowU => intro i; fin_cases i <;> norm_num [mendedOffice, nineOf]
  all_goals norm_num [mendedOffice]

theorem mended_systems : Systems mendedOffice := by
  constructor <;> norm_num [mendedOffice]

theorem mended_timetable : Timetable mendedOffice.pop := by
  constructor <;> norm_num [mendedOffice]

/-- the hypotheses of `C74_byHour` are met -/
example (junk : Params Dbl) : ∃ out mass air surface power,
    main standard Numerals.print (twoFiles mended someYear) junk ⟨"SmallOffice_v2.ism".toList, none, false, false, true, none⟩
      = .returns [.runHourly false] out ∧
    HourlyWhole.Evolution mendedOffice (yearOf 41.98 (-87.92) (-6) fun c _ => someValues c) mass air surface power ∧
    PrintsTable out "Hourly results by hour:".toList "hour".toList 8760 6 fun i k =>
      if h : i < 8760 then hourResult mendedOffice (yearOf 41.98 (-87.92) (-6) fun c _ => someValues c) air power ⟨i, h⟩ k else nan :=
  C74_byHour (mended_inputs false false true none) ⟨rfl, rfl, rfl, rfl⟩ mended_describes mended_physical mended_systems mended_timetable
    someYear_complete someYear_suitable.lat someYear_suitable.zone junk

/-- the hypotheses of `C74_byMonth` are met -/
example (junk : Params Dbl) : ∃ out mass air surface power,
    main standard Numerals.print (twoFiles mended someYear) junk ⟨"SmallOffice_v2.ism".toList, none, false, true, false, none⟩
      = .returns [.runHourly true] out ∧
    HourlyWhole.Evolution mendedOffice (yearOf 41.98 (-87.92) (-6) fun c _ => someValues c) mass air surface power ∧
    PrintsTable out "Hourly results by month:".toList "month".toList 12 6
      (monthResult mendedOffice (yearOf 41.98 (-87.92) (-6) fun c _ => someValues c) air power) :=
  C74_byMonth (mended_inputs false true false none) ⟨rfl, rfl, rfl, rfl⟩ mended_describes mended_physical mended_systems mended_timetable
    someYear_complete someYear_suitable.lat someYear_suitable.zone junk

/-! ### the monthly simulation -/

theorem rounded_near {x : ℝ} {y : ℝ} (h : Rounded 6 (fin x) (fin y)) : |y - x| ≤ |x| / 200000 := by
  obtain ⟨z, e, -, -, hz⟩ := h
  rw [fin_inj] at e
  subst e
  refine hz.trans (le_of_eq ?_)
  norm_num
  ring

/-- the weather of the year -/
noncomputable abbrev chicagoYear : Weather ℝ := yearOf 41.98 (-87.92) (-6) fun c _ => someValues c

theorem constant_month (c : ℝ) (m : Fin 12) : monthMean (fun _ => fin c) (m.1 + 1) = fin c ∧
    ∀ h : Fin 24, hourMean (fun _ => fin c) (m.1 + 1) h.1 = fin c := by
  obtain ⟨⟨v, e, h1, h2⟩, h3⟩ := C17_between (fun _ => c) m.1 m.2 c c (fun _ _ => ⟨le_rfl, le_rfl⟩)
  refine ⟨by rw [e, le_antisymm h2 h1], fun h => ?_⟩
  obtain ⟨v, e, h1, h2⟩ := h3 h.1 h.2
  rw [e, le_antisymm h2 h1]

/-- its averages -/
theorem chicagoYear_averages {a : WeatherData ℝ} (ha : Averaged chicagoYear a) (m : Fin 12) :
    (12.1 ≤ a.mdbt m ∧ a.mdbt m ≤ 12.3) ∧ (149 ≤ a.mEgh m ∧ a.mEgh m ≤ 151) ∧ (∀ s, -501 ≤ a.msolar m s ∧ a.msolar m s ≤ 501) ∧
    ∀ h, 149 ≤ a.mhEgh m h ∧ a.mhEgh m h ≤ 151 := by
  have near : ∀ {x y d : ℝ}, Rounded 6 (fin x) (fin y) → |x| / 200000 ≤ d → x - d ≤ y ∧ y ≤ x + d := by
    intro x y d h hd
    have := abs_le.mp ((rounded_near h).trans hd)
    constructor <;> linarith [this.1, this.2]
  refine ⟨?_, ?_, fun s => ?_, fun h => ?_⟩
  · have h : Rounded 6 (monthMean (fun _ => fin 12.2) (m.1 + 1)) (fin (a.mdbt m)) := ha.temperature m
    rw [(constant_month 12.2 m).1] at h
    obtain ⟨h1, h2⟩ := near h (d := 0.1) (by rw [abs_of_pos] <;> norm_num)
    constructor <;> linarith
  · have h : Rounded 6 (monthMean (fun _ => fin 150) (m.1 + 1)) (fin (a.mEgh m)) := ha.sun m
    rw [(constant_month 150 m).1] at h
    obtain ⟨h1, h2⟩ := near h (d := 1) (by rw [abs_of_pos] <;> norm_num)
    constructor <;> linarith
  · have h := ha.facades m s
    have hr : ∀ i, |HourlyWhole.radiation chicagoYear i ⟨s, by omega⟩| ≤ 500 := by
      intro i
      obtain ⟨e, h1, h2⟩ := irradiance_size chicagoYear 100 (fun i => ⟨show (0:ℝ) ≤ 100 by norm_num, show (100:ℝ) ≤ 100 from le_rfl,
        show (0:ℝ) ≤ 85 by norm_num, show (85:ℝ) ≤ 100 by norm_num⟩) someYear_suitable.lat i s
      rw [EndToEnd.sun_eq (w := chicagoYear) (EndToEnd.suitable_overhead someYear_suitable.lat), fin_inj] at h1
      rw [h1]
      linarith
    obtain ⟨⟨v, e, h1, h2⟩, -⟩ := C17_between (fun i => HourlyWhole.radiation chicagoYear i ⟨s, by omega⟩) m.1 m.2 (-500) 500
      (fun i _ => abs_le.mp (hr i))
    rw [e] at h
    have hv : |v| ≤ 500 := abs_le.mpr ⟨h1, h2⟩
    obtain ⟨h3, h4⟩ := near h (d := 1) (by linarith)
    constructor <;> linarith
  · have h' : Rounded 6 (hourMean (fun _ => fin 150) (m.1 + 1) h.1) (fin (a.mhEgh m h)) := ha.sunAt m h
    rw [(constant_month 150 m).2] at h'
    obtain ⟨h1, h2⟩ := near h' (d := 1) (by rw [abs_of_pos] <;> norm_num)
    constructor <;> linarith

set_option maxHeartbeats 2000000 in
/-- the building is ordinary in weather with such averages -/
theorem mended_ordinary_of {a : WeatherData ℝ} (hw : ∀ m, a.mdbt m ≤ 12.3 ∧ (149 ≤ a.mEgh m ∧ a.mEgh m ≤ 151) ∧
      (∀ s, -501 ≤ a.msolar m s ∧ a.msolar m s ≤ 501) ∧ ∀ h, 149 ≤ a.mhEgh m h ∧ a.mhEgh m h ≤ 151) :
    Ordinary { mendedOffice with weather := a } ∧ Equipped { mendedOffice with weather := a } := by
  obtain ⟨s1, s2⟩ := mended_envelope
  set x : Sim ℝ := { mendedOffice with weather := a } with hx
  have s1 : ∑ i, (x.bldg.wallArea i * x.bldg.wallUniform i + x.bldg.windowArea i * x.bldg.windowUniform i) = 1753.90257 := s1
  have s2 : ∑ i, x.bldg.wallArea i = 880.26 := s2
  have ht : TempData x := by
    constructor
    case week => constructor <;> norm_num [hx, mendedOffice, windowHours, windowDays]
    case heatLoss =>
      rw [s1]
      norm_num [hx, mendedOffice]
    case capacity =>
      rw [s2]
      norm_num [hx, mendedOffice]
    all_goals norm_num [hx, mendedOffice, windowHours, windowDays]
  have hv : VentilationData x := by
    constructor <;> norm_num [hx, mendedOffice]
  have hl : LightingData x := by
    constructor <;> norm_num [hx, mendedOffice, litByDay, litDays, windowDays]
  have hsys : SystemData x := by
    constructor <;> norm_num [hx, mendedOffice]
  have h15 : x.heating.tau_H0 = 15 := rfl
  have hi : 0 < inertia x := by
    unfold inertia buildingTau
    rw [h15, s1, s2]
    norm_num [hx, mendedOffice]
  have hlev : levelShift x.building.buildingEnergyManagement = 0 := by
    norm_num [hx, levelShift, mendedOffice]
  have hT : heatTo x = 24 := by unfold heatTo; rw [hlev]; norm_num [hx, mendedOffice]
  have hT' : coolTo x = 28 := by unfold coolTo; rw [hlev]; norm_num [hx, mendedOffice]
  have hst : SteadyTemperatures x := ⟨.inr (by rw [hT]; norm_num [hx, mendedOffice]), .inr (by rw [hT']; norm_num [hx, mendedOffice])⟩
  refine ⟨⟨ht, hv, hl, hsys, fun m j => by linarith [((hw m).2.2.2 j).1], by rw [h15]; norm_num, hi, clear_months hi fun m => ?_⟩, ?_⟩
  · obtain ⟨t2, ⟨r1, r2⟩, hsol, -⟩ := hw m
    rw [heatedTo_steady ht hst, cooledTo_steady ht hst, hT, hT']
    have hM : 2 < megaseconds m := by fin_cases m <;> norm_num [megaseconds, days, monthDays]
    obtain ⟨d0, d1⟩ := share_bounds ht.week
    have loss : ∀ T : ℝ, 24 ≤ T → megaseconds m * (11 * 1700) ≤ monthLoss x T m := by
      intro T hT
      have h1 := air_nonneg hv d0 d1 m T
      have h2 : 0 ≤ (leakage x m T + fanFlow x (occupiedShare x)) * (x.phys.rhoCpAir * 1000000) / 3600 * x.bldg.floorArea :=
        mul_nonneg (div_nonneg (mul_nonneg h1 (mul_nonneg hv.air.le (by norm_num))) (by norm_num)) hv.floorArea.le
      have h3 : x.weather.mdbt m = a.mdbt m := rfl
      unfold monthLoss
      rw [s1, h3, mul_assoc]
      refine mul_le_mul_of_nonneg_left ?_ (by linarith)
      refine mul_le_mul (by linarith) ?_ (by norm_num) (by linarith)
      linarith
    have side : ∀ j : Fin 9, j.1 < 8 → -501 ≤ irradianceOn x.weather m j ∧ irradianceOn x.weather m j ≤ 501 := by
      intro j hj
      unfold irradianceOn
      rw [dif_pos hj]
      exact hsol _
    have roof : 149 ≤ irradianceOn x.weather m 8 ∧ irradianceOn x.weather m 8 ≤ 151 := ⟨r1, r2⟩
    have q0 := side 0 (by decide)
    have q2 := side 2 (by decide)
    have q4 := side 4 (by decide)
    have q6 := side 6 (by decide)
    have hwin : -4400 ≤ windowHeat x.bldg x.weather m ∧ windowHeat x.bldg x.weather m ≤ 4400 := by
      unfold windowHeat
      rw [sum9]
      generalize irradianceOn x.weather m 0 = y0, irradianceOn x.weather m 2 = y2, irradianceOn x.weather m 4 = y4,
        irradianceOn x.weather m 6 = y6, irradianceOn x.weather m 8 = y8 at *
      norm_num [hx, shading, mendedOffice, nineOf]
      constructor <;> linarith [q0.1, q0.2, q2.1, q2.2, q4.1, q4.2, q6.1, q6.2]
    have ho : 4700 ≤ opaqueHeat x.bldg x.weather m ∧ opaqueHeat x.bldg x.weather m ≤ 7800 := by
      unfold opaqueHeat
      rw [sum9]
      generalize irradianceOn x.weather m 0 = y0, irradianceOn x.weather m 2 = y2, irradianceOn x.weather m 4 = y4,
        irradianceOn x.weather m 6 = y6, irradianceOn x.weather m 8 = y8 at *
      norm_num [hx, mendedOffice, nineOf]
      constructor <;> linarith [roof.1, roof.2, q0.1, q0.2, q2.1, q2.2, q4.1, q4.2, q6.1, q6.2]
    have hs : 3000 ≤ skyLoss x.bldg ∧ skyLoss x.bldg ≤ 3100 := by
      unfold skyLoss
      rw [sum9]
      norm_num [hx, skyView, mendedOffice, nineOf]
    have hin : 4000 ≤ insideHeat x ∧ insideHeat x ≤ 5000 := by
      norm_num [hx, insideHeat, occupiedShare, windowHours, windowDays, lightsYear, litDays, litByDay, litByNight, mendedOffice]
    have hb : monthGain x m ≤ megaseconds m * 15000 :=
      mul_le_mul_of_nonneg_left (by linarith [hwin.2, ho.2, hs.1, hin.2]) (by linarith)
    have hb' : megaseconds m * 1 ≤ monthGain x m :=
      mul_le_mul_of_nonneg_left (by linarith [hwin.1, ho.1, hs.2, hin.1]) (by linarith)
    have l1 := loss 24 le_rfl
    have l2 := loss 28 (by norm_num)
    refine ⟨?_, ?_, ?_⟩ <;> linarith
  · constructor
    case supplyCooling =>
      intro m
      rw [cooledTo_steady ht hst, hT']
      norm_num [hx, mendedOffice]
    all_goals norm_num [hx, mendedOffice, pumpEnergy]

/-- the building is ordinary in this weather -/
theorem mended_ordinary {a : WeatherData ℝ} (ha : Averaged chicagoYear a) :
    Ordinary { mendedOffice with weather := a } ∧ Equipped { mendedOffice with weather := a } :=
  mended_ordinary_of fun m => ⟨(chicagoYear_averages ha m).1.2, (chicagoYear_averages ha m).2⟩

/-- the hypotheses of `C74_monthly` are met -/
example (junk : Params Dbl) : ∃ (out : Str) (a : WeatherData ℝ) (value : Fin 12 → Fin 13 → ℝ),
    main standard Numerals.print (twoFiles mended someYear) junk ⟨"SmallOffice_v2.ism".toList, none, false, false, false, none⟩
      = .returns [.runMonthly] out ∧
    Averaged chicagoYear a ∧ (∀ m k, MonthlyResult { mendedOffice with weather := a } m k (value m k)) ∧
    PrintsTable out "Monthly Results:".toList "Month".toList 12 10 fun i k => if h : i < 12 then fin (value ⟨i, h⟩ k) else nan :=
  C74_monthly (mended_inputs false false false none) ⟨rfl, rfl, rfl, rfl⟩ mended_describes
    (fun i => ⟨show (1:ℝ) ≤ 1 from le_rfl, show (1:ℝ) < 4 by norm_num⟩) someYear_complete someYear_suitable (fun _ ha => mended_ordinary ha) junk

/-- the hypotheses of `C74_all` are met: the comparison and the table by month -/
example (junk : Params Dbl) : ∃ (compared byMonth : Str) (a : WeatherData ℝ) (value : Fin 12 → Fin 13 → ℝ) (mass air surface power : ℕ → ℝ),
    main standard Numerals.print (twoFiles mended someYear) junk ⟨"SmallOffice_v2.ism".toList, none, false, true, false, some "md".toList⟩
      = .returns [.compare true, .runHourly true] (compared ++ byMonth) ∧
    Averaged chicagoYear a ∧ (∀ m k, MonthlyResult { mendedOffice with weather := a } m k (value m k)) ∧
    HourlyWhole.Evolution mendedOffice chicagoYear mass air surface power ∧
    PrintsTable byMonth "Hourly results by month:".toList "month".toList 12 6 (monthResult mendedOffice chicagoYear air power) ∧
    PrintsComparison true compared (fun i k => if h : i < 12 then fin (value ⟨i, h⟩ k) else nan)
      (monthResult mendedOffice chicagoYear air power) := by
  obtain ⟨c, m, b, h, a, value, mass, air, surface, power, e, hA, hV, hE, hm, hb, hh, hc⟩ :=
    C74_all (mended_inputs false true false (some "md".toList)) mended_describes mended_physical mended_systems mended_timetable
      (fun i => ⟨show (1:ℝ) ≤ 1 from le_rfl, show (1:ℝ) < 4 by norm_num⟩) someYear_complete someYear_suitable (fun _ ha => mended_ordinary ha) junk
  have hm : m = [] := by simpa using hm
  have hh : h = [] := by simpa using hh
  subst hm hh
  rw [List.append_nil, List.append_nil] at e
  refine ⟨c, b, a, value, mass, air, surface, power, e, hA, hV, hE, hb, ?_⟩
  simp only [true_or, if_true, decide_true] at hc
  exact hc

end ISO.Props
