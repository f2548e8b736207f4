import Verif.Props.PrintedWarmth
import Verif.Props.PrintedOrderCases
import Verif.Props.WholeYearCases

/-! # C76, C78: the hypotheses are met by the office of `EndToEndOffice` in a windy year -/

namespace ISO.Props
open ISO ISO.Numerals ISO.Properties ISO.Spec ISO.Spec.Text ISO.Spec.Whole ISO.Spec.EndToEnd ISO.User ISO.CommandLine ISO.Epw ISO.Lemmas Dbl
open ISO.Spec.Editing (Edited SameTable)
open ISO.Spec.HourlyWhole (placeOf)
open ISO.Spec.PrintedOrder ISO.Lemmas.Described ISO.Lemmas.Editing PrintedOrderCases

namespace PrintedWarmthCases

/-- an hour with a wind of ten metres per second -/
def windyHour (temperature global direct diffuse : String) : List Str :=
  ["1986", "1", "1", "1", "0", "?", temperature, "5.0", "61", "99500", "0", "0", "279", global, direct, diffuse, "0", "0", "0", "0", "250",
    "10"].map String.toList

/-- what the hour gives -/
noncomputable def windyValues (temperature global direct diffuse : ℝ) : Fin 7 → ℝ
  | 0 => temperature | 1 => 5 | 2 => 61 | 3 => global | 4 => direct | 5 => diffuse | 6 => 10

theorem windyHour_gives {temperature global direct diffuse : String} {t g d f : ℚ} (ht : strtod temperature.toList = some (.number t, []))
    (hg : strtod global.toList = some (.number g, [])) (hd : strtod direct.toList = some (.number d, []))
    (hf : strtod diffuse.toList = some (.number f, [])) {t' g' d' f' : ℝ} (et : t' = t) (eg : g' = g) (ed : d' = d) (ef : f' = f)
    (bt : |t'| ≤ 1000) (bg : |g'| ≤ 1000) (bd : |d'| ≤ 1000) (bf : |f'| ≤ 1000) (c : Fin 7) :
    Gives (Spec.Epw.field (windyHour temperature global direct diffuse) (Spec.Epw.column c)) (windyValues t' g' d' f' c) := by
  fin_cases c
  · exact gives_number ht et bt
  · exact gives_number (q := 5) (r := []) (show strtod "5.0".toList = _ by decide +kernel) (by simp only [windyValues]; norm_num) (by simp only [windyValues]; rw [abs_of_pos] <;> norm_num)
  · exact gives_number (q := 61) (r := []) (show strtod "61".toList = _ by decide +kernel) (by simp only [windyValues]; norm_num) (by simp only [windyValues]; rw [abs_of_pos] <;> norm_num)
  · exact gives_number hg eg bg
  · exact gives_number hd ed bd
  · exact gives_number hf ef bf
  · exact gives_number (q := 10) (r := []) (show strtod "10".toList = _ by decide +kernel) (by simp only [windyValues]; norm_num) (by simp only [windyValues]; rw [abs_of_pos] <;> norm_num)

/-- a file of 8768 lines: every day has the hour `noon` at noon and otherwise `night` -/
def daysFile (noon night : List Str) : Str :=
  Spec.Epw.file (Spec.Epw.line someHeader :: List.replicate 7 [] ++
    (List.range 8760).map fun r => Spec.Epw.line (if r % 24 = 12 then noon else night))

theorem daysFile_complete {noon night : List Str} {v v' : Fin 7 → ℝ} (h1 : '\n' ∉ Spec.Epw.line noon) (h2 : '\n' ∉ Spec.Epw.line night)
    (h3 : noon ≠ []) (h4 : night ≠ []) (h5 : ∀ f ∈ noon, ',' ∉ f) (h6 : ∀ f ∈ night, ',' ∉ f)
    (h7 : ∀ c, Gives (Spec.Epw.field noon (Spec.Epw.column c)) (v c)) (h8 : ∀ c, Gives (Spec.Epw.field night (Spec.Epw.column c)) (v' c)) :
    YearFile (daysFile noon night) 41.98 (-87.92) (-6) fun c r => if r.1 % 24 = 12 then v c else v' c := by
  refine ⟨_, rfl, ?_, ?_, ?_⟩
  · intro l hl
    simp only [List.cons_append, List.mem_cons, List.mem_append, List.mem_replicate, List.mem_map] at hl
    rcases hl with rfl | ⟨-, rfl⟩ | ⟨r, -, rfl⟩
    · decide +kernel
    · simp
    · split_ifs
      · exact h1
      · exact h2
  · refine ⟨someHeader, rfl, by decide, by decide +kernel, ?_, ?_, ?_⟩
    · exact gives_number (q := 4198 / 100) (r := []) (by decide +kernel) (by norm_num) (by rw [abs_of_pos] <;> norm_num)
    · exact gives_number (q := -8792 / 100) (r := []) (by decide +kernel) (by norm_num) (by rw [abs_of_neg] <;> norm_num)
    · exact gives_number (q := -6) (r := []) (by decide +kernel) (by norm_num) (by rw [abs_of_neg] <;> norm_num)
  · intro r
    refine ⟨if r.1 % 24 = 12 then noon else night, ?_, ?_, ?_, ?_⟩
    · obtain ⟨r, hr⟩ := r
      simp only
      generalize Spec.Epw.line someHeader = l0
      generalize 8760 = N at *
      rw [List.getElem?_append_right (by simp)]
      simp only [List.length_cons, List.length_replicate, List.getElem?_map]
      rw [show 8 + r - (7 + 1) = r by omega, List.getElem?_range hr]
      rfl
    · split_ifs
      · exact h3
      · exact h4
    · split_ifs
      · exact h5
      · exact h6
    · intro c
      split_ifs
      · exact h7 c
      · exact h8 c

/-- windy days of 12.2 degrees, with the sun at noon -/
def coolDays : Str := daysFile (windyHour "12.2" "150" "100" "85") (windyHour "12.2" "0" "0" "0")
/-- windy days of 15 degrees, with the sun at noon -/
def mildDays : Str := daysFile (windyHour "15" "150" "100" "85") (windyHour "15" "0" "0" "0")

/-- the values of these days -/
noncomputable def dayValues (temperature : ℝ) (c : Fin 7) (r : Fin 8760) : ℝ :=
  if r.1 % 24 = 12 then windyValues temperature 150 100 85 c else windyValues temperature 0 0 0 c

theorem coolDays_complete : YearFile coolDays 41.98 (-87.92) (-6) (dayValues 12.2) :=
  daysFile_complete (by decide +kernel) (by decide +kernel) (by decide) (by decide) (by decide +kernel) (by decide +kernel)
    (windyHour_gives (t := 122 / 10) (g := 150) (d := 100) (f := 85) (by decide +kernel) (by decide +kernel) (by decide +kernel) (by decide +kernel)
      (by norm_num) (by norm_num) (by norm_num) (by norm_num) (by norm_num [abs_le]) (by norm_num [abs_le]) (by norm_num [abs_le]) (by norm_num [abs_le]))
    (windyHour_gives (t := 122 / 10) (g := 0) (d := 0) (f := 0) (by decide +kernel) (by decide +kernel) (by decide +kernel) (by decide +kernel)
      (by norm_num) (by norm_num) (by norm_num) (by norm_num) (by norm_num [abs_le]) (by norm_num) (by norm_num) (by norm_num))

theorem mildDays_complete : YearFile mildDays 41.98 (-87.92) (-6) (dayValues 15) :=
  daysFile_complete (by decide +kernel) (by decide +kernel) (by decide) (by decide) (by decide +kernel) (by decide +kernel)
    (windyHour_gives (t := 15) (g := 150) (d := 100) (f := 85) (by decide +kernel) (by decide +kernel) (by decide +kernel) (by decide +kernel)
      (by norm_num) (by norm_num) (by norm_num) (by norm_num) (by norm_num [abs_le]) (by norm_num [abs_le]) (by norm_num [abs_le]) (by norm_num [abs_le]))
    (windyHour_gives (t := 15) (g := 0) (d := 0) (f := 0) (by decide +kernel) (by decide +kernel) (by decide +kernel) (by decide +kernel)
      (by norm_num) (by norm_num) (by norm_num) (by norm_num) (by norm_num [abs_le]) (by norm_num) (by norm_num) (by norm_num))

theorem Ready_inputs {building : Str} {file : Properties.Store} (h : PrintedOrderCases.Ready building file) (weather : Str) (monthly byMonth byHour : Bool)
    (c : Option Str) : Inputs (twoFiles building weather) ⟨"SmallOffice_v2.ism".toList, none, monthly, byMonth, byHour, c⟩ file weather where
  building := twoFiles_exists _ _ _
  defaults := by simp
  parameters := by
    simp only
    rw [twoFiles_building]
    exact h.readable
  accepted := h.accepted
  weather := ⟨"ORD.epw".toList, "ORD.epw".toList, h.weather, by rw [twoFiles_exists]; rfl, twoFiles_weather _ _⟩

theorem mended_shares : massArea mendedOffice + windowConductance mendedOffice / massCoefficient mendedOffice ≤ mendedOffice.bldg.totalAreaPerFloorArea ∧
    HeavyEnough mendedOffice := by
  have hc : heatCapacity mendedOffice = (98010.0000000022 + 29707.0229928189 * (2 * 84.45 + 2 * 56.3 + 598.76) / 511.16) / 1000 := by
    simp only [heatCapacity, mendedOffice, Fin.sum_univ_succ, Fin.sum_univ_zero]
    norm_num [nineOf, Fin.succ]
  have hw : windowConductance mendedOffice = 2.653 * (20.65 + 2 * 11.16 + 16.74) / 511.16 := by
    simp only [windowConductance, mendedOffice, Fin.sum_univ_succ, Fin.sum_univ_zero]
    norm_num [nineOf, Fin.succ]
  have ho : wallConductance mendedOffice = (0.363 * (2 * 84.45 + 2 * 56.3) + 2.494 * 598.76) / 511.16 := by
    simp only [wallConductance, mendedOffice, Fin.sum_univ_succ, Fin.sum_univ_zero]
    norm_num [nineOf, Fin.succ]
  have hm : massArea mendedOffice = 2.5 := by
    unfold massArea
    rw [if_pos (by rw [hc]; norm_num)]
  have hk : massCoefficient mendedOffice = 9.1 := by simp only [massCoefficient, mendedOffice]; norm_num
  unfold HeavyEnough
  rw [hc, hw, ho, hm, hk]
  constructor
  · simp only [mendedOffice]; norm_num
  · norm_num

/-- at ten metres per second the wind drives more air through the office than the temperatures do -/
theorem windy_flow {t s : ℝ} (h0 : 0 ≤ t) (h1 : t ≤ 28) (s1 : 20 ≤ s) (s2 : s ≤ 28) : stackFlow mendedOffice t s ≤ windFlow mendedOffice 10 := by
  have hl : 0 ≤ leakageAt4Pa mendedOffice := le_max_of_le_left (by norm_num)
  unfold stackFlow windFlow
  have v1 : mendedOffice.ventilation.hzone = 39 := rfl
  have v2 : mendedOffice.ventilation.dCp = 0.75 := rfl
  rw [v1, v2]
  have a1 : |t - s| ≤ 28 := by rw [abs_le]; constructor <;> linarith
  have a2 : 0.5 * max 0.1 39 * max 0.00001 |t - s| ≤ (546:ℝ) := by
    have : max 0.00001 |t - s| ≤ 28 := max_le (by norm_num) a1
    rw [max_eq_right (by norm_num)]
    linarith
  have a3 : (0:ℝ) ≤ 0.5 * max 0.1 39 * max 0.00001 |t - s| := by
    have : (0:ℝ) ≤ max 0.1 39 := le_max_of_le_right (by norm_num)
    have : 0 ≤ max 0.00001 |t - s| := le_max_of_le_right (abs_nonneg _)
    positivity
  have a4 := Real.rpow_le_rpow a3 a2 (by norm_num : (0:ℝ) ≤ 0.667)
  have e : (0.75 * 10 ^ 2 : ℝ) = 75 := by norm_num
  rw [e]
  have := wind_power
  have h5 : leakageAt4Pa mendedOffice * ((0.5 * max 0.1 39 * max 0.00001 |t - s|) ^ (0.667:ℝ) * 0.0146) ≤
      leakageAt4Pa mendedOffice * (0.0769 * 75 ^ (0.667:ℝ)) :=
    mul_le_mul_of_nonneg_left ((mul_le_mul_of_nonneg_right a4 (by norm_num)).trans this) hl
  linarith

theorem days_driven {t : ℝ} (h0 : 0 ≤ t) (h1 : t ≤ 28) :
    WindDriven mendedOffice (Spec.EndToEnd.yearOf 41.98 (-87.92) (-6) (dayValues t)) 20 28 := by
  refine ⟨.inl rfl, ?_, le_rfl, by norm_num, by norm_num [mendedOffice], by norm_num [mendedOffice], by norm_num [mendedOffice],
    by norm_num [mendedOffice]⟩
  intro i s s1 s2
  have w1 : dayValues t 6 i = 10 := by unfold dayValues; split_ifs <;> rfl
  have w2 : dayValues t 0 i = t := by unfold dayValues; split_ifs <;> rfl
  show stackFlow mendedOffice (dayValues t 0 i) s ≤ windFlow mendedOffice (dayValues t 6 i)
  rw [w1, w2]
  exact windy_flow h0 h1 s1 s2

/-- at noon the sun is up in Chicago, on every day -/
theorem noon_up (v : Fin 7 → Fin 8760 → ℝ) (n : ℤ) : 0 ≤ Sun.up (placeOf (Spec.EndToEnd.yearOf 41.98 (-87.92) (-6) v)) n 12 := by
  have hz : (Spec.EndToEnd.yearOf 41.98 (-87.92) (-6) v).timezone = -6 := by
    show (if (0:ℝ) ≤ -6 then ⌊(-6:ℝ)⌋ else ⌈(-6:ℝ)⌉) = -6
    rw [if_neg (by norm_num), show (-6:ℝ) = ((-6 : ℤ) : ℝ) by norm_num, Int.ceil_intCast]
  have hp : placeOf (Spec.EndToEnd.yearOf 41.98 (-87.92) (-6) v) = ⟨41.98, -87.92, -6⟩ := by
    unfold placeOf
    rw [hz]
    rfl
  rw [hp]
  unfold Sun.up
  simp only
  have hpi : Sun.pi13 = 3.1415926535897 := rfl
  have c1 := Real.abs_cos_le_one (Sun.orbit n)
  have c2 := Real.abs_sin_le_one (Sun.orbit n)
  have c3 := Real.abs_cos_le_one (2 * Sun.orbit n)
  have c4 := Real.abs_sin_le_one (2 * Sun.orbit n)
  have c5 := Real.abs_cos_le_one (3 * Sun.orbit n)
  have c6 := Real.abs_sin_le_one (3 * Sun.orbit n)
  rw [abs_le] at c1 c2 c3 c4 c5 c6
  have d : |Sun.declination n| ≤ 0.49 := by
    unfold Sun.declination
    rw [abs_le]
    constructor <;> linarith [c1.1, c1.2, c2.1, c2.2, c3.1, c3.2, c4.1, c4.2, c5.1, c5.2, c6.1, c6.2]
  have e : |Sun.hourAngle n 12 (-87.92) (-6)| ≤ 0.14 := by
    unfold Sun.hourAngle Sun.solarTime Sun.equationOfTime Sun.deg
    rw [hpi, abs_le]
    push_cast
    constructor <;> linarith [c1.1, c1.2, c2.1, c2.2, c3.1, c3.2, c4.1, c4.2]
  generalize Sun.declination n = D at *
  generalize Sun.hourAngle n 12 (-87.92) (-6) = H at *
  have f : |Sun.deg 41.98| ≤ 0.733 := by
    unfold Sun.deg
    rw [hpi, abs_le]
    constructor <;> norm_num
  generalize Sun.deg 41.98 = F at *
  have q : ∀ (y b : ℝ), |y| ≤ b → 1 - b ^ 2 / 2 ≤ Real.cos y := by
    intro y b h
    have := Real.one_sub_sq_div_two_le_cos (x := y)
    have h2 : y ^ 2 ≤ b ^ 2 := sq_le_sq' (by linarith [(abs_le.mp h).1]) (abs_le.mp h).2
    linarith
  have q1 := q F _ f
  have q2 := q D _ d
  have q3 := q H _ e
  have s1 : |Real.sin F| ≤ 0.733 := (Real.abs_sin_le_abs).trans f
  have s2 : |Real.sin D| ≤ 0.49 := (Real.abs_sin_le_abs).trans d
  have s3 : |Real.sin F * Real.sin D| ≤ 0.733 * 0.49 := by
    rw [abs_mul]
    exact mul_le_mul s1 s2 (abs_nonneg _) (by norm_num)
  have m1 : (0.73:ℝ) * 0.87 ≤ Real.cos F * Real.cos D := mul_le_mul (by linarith) (by linarith) (by norm_num) (by linarith)
  have m2 : (0.73:ℝ) * 0.87 * 0.99 ≤ Real.cos F * Real.cos D * Real.cos H := mul_le_mul m1 (by linarith) (by norm_num) (by linarith)
  have := (abs_le.mp s3).1
  linarith

theorem days_radiation (t : ℝ) (i : Fin 8760) : 0 ≤ dayValues t Spec.WeatherEditing.directRadiation i ∧
    0 ≤ dayValues t Spec.WeatherEditing.diffuseRadiation i ∧ 0 ≤ dayValues t Spec.WeatherEditing.globalRadiation i ∧
    (0 ≤ Sun.up (placeOf (Spec.EndToEnd.yearOf 41.98 (-87.92) (-6) (dayValues t))) (HourlyWhole.dayOf i) (HourlyWhole.hourOf i) ∨
      (dayValues t Spec.WeatherEditing.directRadiation i = 0 ∧ dayValues t Spec.WeatherEditing.diffuseRadiation i = 0)) := by
  by_cases h : i.1 % 24 = 12
  · have e : ∀ c, dayValues t c i = windyValues t 150 100 85 c := fun c => if_pos h
    rw [e, e, e]
    refine ⟨show (0:ℝ) ≤ 100 by norm_num, show (0:ℝ) ≤ 85 by norm_num, show (0:ℝ) ≤ 150 by norm_num, .inl ?_⟩
    have : HourlyWhole.hourOf i = 12 := by
      unfold HourlyWhole.hourOf
      rw [h]
      rfl
    rw [this]
    exact noon_up _ _
  · have e : ∀ c, dayValues t c i = windyValues t 0 0 0 c := fun c => if_neg h
    rw [e, e, e]
    exact ⟨le_refl (0:ℝ), le_refl (0:ℝ), le_refl (0:ℝ), .inr ⟨rfl, rfl⟩⟩

theorem mended_efficient : 0 < mendedOffice.heating.efficiency ∧ 0 < mendedOffice.cooling.cop := by
  constructor <;> norm_num [mendedOffice]

theorem days_lat : (28.1 : ℝ) ≤ |41.98| ∧ |(41.98 : ℝ)| ≤ 90 := by
  rw [abs_of_pos (by norm_num)]
  constructor <;> norm_num

theorem days_zone : |(-6 : ℝ)| ≤ 24 := by
  rw [abs_of_neg (by norm_num)]
  norm_num

end PrintedWarmthCases
open PrintedWarmthCases

/-- the hypotheses of `C78_printed` are met: days of 15 instead of 12.2 degrees -/
example (junk : Params Dbl) (byMonth : Bool) : ∃ out out',
    main standard Numerals.print (twoFiles mended coolDays) junk ⟨"SmallOffice_v2.ism".toList, none, false, byMonth, !byMonth, none⟩
      = .returns [.runHourly byMonth] out ∧
    main standard Numerals.print (twoFiles mended mildDays) junk ⟨"SmallOffice_v2.ism".toList, none, false, byMonth, !byMonth, none⟩
      = .returns [.runHourly byMonth] out' ∧ SameTable [0, 1, 9, 4, 5] out out' ∧
    ∀ i < (if byMonth then 12 else 8760), CellNotAbove i 0 out' out ∧ CellNotAbove i 9 out' out ∧ CellNotAbove i 1 out out' := by
  refine C78_printed (Ready_inputs mended_ready _ false byMonth (!byMonth) none) (Ready_inputs mended_ready _ false byMonth (!byMonth) none) byMonth
    ⟨rfl, rfl, rfl, rfl⟩ ⟨rfl, rfl, rfl, rfl⟩ mended_describes mended_physical mended_systems mended_timetable rfl mended_efficient mended_shares.2
    (by norm_num [mendedOffice]) coolDays_complete mildDays_complete days_lat days_zone ?_ ?_ (days_driven (by norm_num) (by norm_num))
    (days_driven (by norm_num) (by norm_num)) junk junk
  · intro c hc i
    unfold dayValues
    fin_cases c
    · exact absurd (by decide) hc
    all_goals rfl
  · intro i
    have w : ∀ t, dayValues t 0 i = t := fun t => by unfold dayValues; split_ifs <;> rfl
    show dayValues _ 0 i ≤ dayValues _ 0 i
    rw [w, w]
    norm_num

theorem moreOccupied_fine : Fine "electricappliancepowerdensityoccupied" "electricappliancepowerdensityoccupied ".toList " 6".toList "6".toList 6 := by
  decide +kernel
theorem moreUnoccupied_fine : Fine "electricappliancepowerdensityunoccupied" "electricappliancepowerdensityunoccupied ".toList " 3".toList "3".toList 3 := by
  decide +kernel

/-- the hypotheses of `C76_appliances` are met: appliances of 6 and 3 watts per square metre -/
example (junk : Params Dbl) (byMonth : Bool) : ∃ out out',
    main standard Numerals.print (twoFiles mended coolDays) junk ⟨"SmallOffice_v2.ism".toList, none, false, byMonth, !byMonth, none⟩
      = .returns [.runHourly byMonth] out ∧
    main standard Numerals.print (twoFiles ("electricappliancepowerdensityoccupied = 6\nelectricappliancepowerdensityunoccupied = 3\n".toList ++ mended)
      coolDays) junk ⟨"SmallOffice_v2.ism".toList, none, false, byMonth, !byMonth, none⟩ = .returns [.runHourly byMonth] out' ∧
    ∀ i < (if byMonth then 12 else 8760), CellNotAbove i 0 out' out ∧ CellNotAbove i 9 out' out ∧ CellNotAbove i 1 out out' := by
  obtain ⟨file1, hr1, he1, hg1⟩ := mended_ready.line moreUnoccupied_fine
  obtain ⟨file2, hr2, he2, hg2⟩ := hr1.line moreOccupied_fine
  have hg1' : EndToEnd.Gives file2 "electricappliancepowerdensityunoccupied" (3 : ℚ) :=
    gives_same (same_given he2 ⟨keys_known _ (by decide +kernel), by decide +kernel⟩) hg1
  have hd := described_appliances mended_describes (edited_twice he1 he2) hg2 hg1'
  exact C76_appliances (y := { mendedOffice with building := { mendedOffice.building with
      electricApplianceHeatGainOccupied := (6 : ℚ), electricApplianceHeatGainUnoccupied := (3 : ℚ) } })
    (Ready_inputs mended_ready _ false byMonth (!byMonth) none) (Ready_inputs hr2 _ false byMonth (!byMonth) none) byMonth
    ⟨rfl, rfl, rfl, rfl⟩ ⟨rfl, rfl, rfl, rfl⟩ mended_describes hd (by norm_num [mendedOffice]) (by norm_num [mendedOffice]) mended_physical
    mended_systems mended_timetable rfl mended_efficient mended_shares.2 (by norm_num [mendedOffice]) mended_shares.1 coolDays_complete days_lat days_zone
    (days_driven (by norm_num) (by norm_num)) junk junk

namespace PrintedWarmthCases

/-- what is to be checked of a line `name = nine values` -/
def FineAll (name : String) (before after value : Str) (n ne e se s sw w nw roof : ℚ) : Prop :=
  '\n' ∉ before ++ '=' :: after ∧ '=' ∉ before ∧ strTrim before = name.toList ∧ strTrim after = value ∧ name.toList ≠ [] ∧ value ≠ [] ∧
  Properties.parseLine (before ++ '=' :: after) ≠ .skip ∧
  (∀ r ∈ Param.table, SameKey name.toList r.name.toList → r.name = name ∧
    Param.judge stodValue [(name.toList.map Char.toLower, value)] r = .accepted) ∧
  ¬ SameKey name.toList "weatherfilepath".toList ∧
  Properties.getPropertyAsDoubleVector stodValue name.toList [(name.toList.map Char.toLower, value)] =
    .ok (some [.number n, .number ne, .number e, .number se, .number s, .number sw, .number w, .number nw, .number roof])

instance (name : String) (before after value : Str) (n ne e se s sw w nw roof : ℚ) :
    Decidable (FineAll name before after value n ne e se s sw w nw roof) := by
  unfold FineAll SameKey
  infer_instance

theorem line_all {building : Str} {file : Properties.Store} (h : PrintedOrderCases.Ready building file) {name : String} {before after value : Str}
    {n ne e se s sw w nw roof : ℚ} (hf : FineAll name before after value n ne e se s sw w nw roof) {v : Fin 9 → ℝ}
    (hv : ∀ i : Fin 9, v i = (([s, se, e, ne, n, nw, w, sw, roof].getD i.1 n : ℚ) : ℝ)) :
    ∃ file', PrintedOrderCases.Ready (before ++ '=' :: after ++ '\n' :: building) file' ∧ Edited [name] file file' ∧ EndToEnd.GivesAll file' name v := by
  obtain ⟨f1, f2, f3, f4, f5, f6, f7, f8, f9, f10⟩ := hf
  have hd : Defines (before ++ '=' :: after) name.toList value := by
    refine ⟨fun hi => f7 ((parseLine_skip_iff _).mpr hi), before, after, rfl, f2, ?_, f5, ?_, f6⟩
    · rw [← f3]; exact strTrim_trimmed _
    · rw [← f4]; exact strTrim_trimmed _
  obtain ⟨file', h1, h2, h3, h4⟩ := C75_line h.readable f1 hd [name] (fun r hr hk => by simp [(f8 r hr hk).1])
  have one : ∀ k, SameKey name.toList k → Properties.getProperty k file' = Properties.getProperty k [(name.toList.map Char.toLower, value)] := by
    intro k hk
    rw [h3 k hk]
    show _ = Properties.find (k.map Char.toLower) _
    rw [← hk]
    simp [Properties.find]
  refine ⟨file', ⟨h1, fun r hr => ?_, ?_⟩, h2, ?_⟩
  · by_cases hk : SameKey name.toList r.name.toList
    · exact (judge_given (one _ hk)).trans ((judge_map stodValue toDouble _ Numerals.stod stod_value r).trans (f8 r hr hk).2)
    · exact (judge_given (h4 _ hk)).trans (h.accepted r hr)
  · exact (h4 _ f9).trans h.weather
  · refine givesAll_same (one _ rfl) ?_
    refine (facades_value f10).trans (congrArg some (funext fun i => ?_))
    rw [hv]
    fin_cases i <;> rfl

end PrintedWarmthCases

theorem shades_fine : FineAll "windowSCF" "windowSCF ".toList " 0.1,0,0.1,0,0.1,0,0.1,0,0".toList "0.1,0,0.1,0,0.1,0,0.1,0,0".toList
    (1 / 10) 0 (1 / 10) 0 (1 / 10) 0 (1 / 10) 0 0 := by
  decide +kernel

/-- the hypotheses of `C76_sun` are met: blinds in front of the windows -/
example (junk : Params Dbl) (byMonth : Bool) : ∃ out out',
    main standard Numerals.print (twoFiles mended coolDays) junk ⟨"SmallOffice_v2.ism".toList, none, false, byMonth, !byMonth, none⟩
      = .returns [.runHourly byMonth] out ∧
    main standard Numerals.print (twoFiles ("windowSCF = 0.1,0,0.1,0,0.1,0,0.1,0,0\n".toList ++ mended) coolDays) junk
      ⟨"SmallOffice_v2.ism".toList, none, false, byMonth, !byMonth, none⟩ = .returns [.runHourly byMonth] out' ∧
    ∀ i < (if byMonth then 12 else 8760), CellNotAbove i 0 out out' ∧ CellNotAbove i 9 out out' ∧ CellNotAbove i 1 out' out := by
  obtain ⟨file', hr, he, hg⟩ := line_all mended_ready shades_fine (v := nineOf 0.1 0.1 0.1 0.1 0)
    (fun i => by fin_cases i <;> simp [nineOf] <;> norm_num)
  have hd := described_shades mended_describes he hg
  refine C76_sun (y := { mendedOffice with bldg := { mendedOffice.bldg with windowShadingCorrectionFactor := nineOf 0.1 0.1 0.1 0.1 0 } })
    (Ready_inputs mended_ready _ false byMonth (!byMonth) none) (Ready_inputs hr _ false byMonth (!byMonth) none) byMonth
    ⟨rfl, rfl, rfl, rfl⟩ ⟨rfl, rfl, rfl, rfl⟩ mended_describes hd ?_ mended_physical
    mended_systems mended_timetable rfl mended_efficient mended_shares.2 (by norm_num [mendedOffice]) mended_shares.1 coolDays_complete days_lat days_zone
    (days_driven (by norm_num) (by norm_num)) (days_radiation _) junk junk
  refine ⟨fun i => le_rfl, fun i => le_rfl, fun i => ?_, fun i => ?_, ?_, ?_, ?_, ?_, le_rfl⟩
  · fin_cases i <;> norm_num [mendedOffice, nineOf]
  · fin_cases i <;> norm_num [mendedOffice, nineOf]
  all_goals norm_num [mendedOffice]

end ISO.Props
