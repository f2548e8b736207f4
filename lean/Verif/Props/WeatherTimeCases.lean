import Verif.Props.WeatherTime
import Verif.Props.WeatherEditingCases

/-! # C81: the hypotheses are met by the office of `EndToEndOffice`, its year of weather and one that is warmer from February on -/

namespace ISO.Props
open ISO ISO.Numerals ISO.Properties ISO.Spec ISO.Spec.Text ISO.Spec.Whole ISO.Spec.EndToEnd ISO.User ISO.CommandLine ISO.Epw ISO.Lemmas Dbl
open ISO.Spec.WeatherEditing (Edited monthlyGroups hourlyGroups)
open ISO.Spec.WeatherTime (SameIn CellSame CellSameOrNan)

/-- a file of 8768 lines; the weather changes at the end of January -/
def thawYear : Str := Spec.Epw.file (Spec.Epw.line someHeader :: List.replicate 7 [] ++
  (List.replicate 744 (Spec.Epw.line someHour) ++ List.replicate 8016 (Spec.Epw.line warmHour)))

/-- its numbers -/
noncomputable def thawValues (c : Fin 7) (r : Fin 8760) : ℝ := if r.1 < 744 then someValues c else warmValues c

theorem thaw_line {β : Type} (a b d e : β) (M N i : ℕ) (hi : i < M + N) :
    (a :: List.replicate 7 b ++ (List.replicate M d ++ List.replicate N e))[8 + i]? = some (if i < M then d else e) := by
  rw [List.getElem?_append_right (by simp)]
  simp only [List.length_cons, List.length_replicate]
  rw [show 8 + i - (7 + 1) = i by omega, List.getElem?_append]
  simp only [List.length_replicate, List.getElem?_replicate]
  split_ifs <;> first | rfl | omega

theorem thawYear_complete : YearFile thawYear 41.98 (-87.92) (-6) thawValues := by
  refine ⟨Spec.Epw.line someHeader :: List.replicate 7 [] ++ (List.replicate 744 (Spec.Epw.line someHour) ++
    List.replicate 8016 (Spec.Epw.line warmHour)), rfl, ?_, ?_, ?_⟩
  · intro l hl
    simp only [List.cons_append, List.mem_cons, List.mem_append, List.mem_replicate] at hl
    rcases hl with rfl | ⟨-, rfl⟩ | ⟨-, rfl⟩ | ⟨-, rfl⟩
    · decide +kernel
    · simp
    · decide +kernel
    · decide +kernel
  · refine ⟨someHeader, rfl, by decide, by decide +kernel, ?_, ?_, ?_⟩
    · exact gives_number (q := 4198 / 100) (r := []) (by decide +kernel) (by norm_num) (by rw [abs_of_pos] <;> norm_num)
    · exact gives_number (q := -8792 / 100) (r := []) (by decide +kernel) (by norm_num) (by rw [abs_of_neg] <;> norm_num)
    · exact gives_number (q := -6) (r := []) (by decide +kernel) (by norm_num) (by rw [abs_of_neg] <;> norm_num)
  · intro r
    have hline := thaw_line (Spec.Epw.line someHeader) [] (Spec.Epw.line someHour) (Spec.Epw.line warmHour) 744 8016 r.1 r.2
    unfold thawValues
    by_cases h : r.1 < 744
    · rw [if_pos h] at hline
      simp only [if_pos h]
      refine ⟨someHour, hline, by decide, by decide +kernel, fun c => ?_⟩
      fin_cases c
      · exact gives_number (q := 122 / 10) (r := []) (by decide +kernel) (by simp only [someValues]; norm_num) (by simp only [someValues]; rw [abs_of_pos] <;> norm_num)
      · exact gives_number (q := 5) (r := []) (by decide +kernel) (by simp only [someValues]; norm_num) (by simp only [someValues]; rw [abs_of_pos] <;> norm_num)
      · exact gives_number (q := 61) (r := []) (by decide +kernel) (by simp only [someValues]; norm_num) (by simp only [someValues]; rw [abs_of_pos] <;> norm_num)
      · exact gives_number (q := 150) (r := []) (by decide +kernel) (by simp only [someValues]; norm_num) (by simp only [someValues]; rw [abs_of_pos] <;> norm_num)
      · exact gives_number (q := 100) (r := []) (by decide +kernel) (by simp only [someValues]; norm_num) (by simp only [someValues]; rw [abs_of_pos] <;> norm_num)
      · exact gives_number (q := 85) (r := []) (by decide +kernel) (by simp only [someValues]; norm_num) (by simp only [someValues]; rw [abs_of_pos] <;> norm_num)
      · exact gives_number (q := 41 / 10) (r := []) (by decide +kernel) (by simp only [someValues]; norm_num) (by simp only [someValues]; rw [abs_of_pos] <;> norm_num)
    · rw [if_neg h] at hline
      simp only [if_neg h]
      refine ⟨warmHour, hline, by decide, by decide +kernel, fun c => ?_⟩
      fin_cases c
      · exact gives_number (q := 25) (r := []) (by decide +kernel) (by simp only [warmValues]; norm_num) (by simp only [warmValues]; rw [abs_of_pos] <;> norm_num)
      · exact gives_number (q := 75 / 10) (r := []) (by decide +kernel) (by simp only [warmValues]; norm_num) (by simp only [warmValues]; rw [abs_of_pos] <;> norm_num)
      · exact gives_number (q := 33) (r := []) (by decide +kernel) (by simp only [warmValues]; norm_num) (by simp only [warmValues]; rw [abs_of_pos] <;> norm_num)
      · exact gives_number (q := 150) (r := []) (by decide +kernel) (by simp only [warmValues]; norm_num) (by simp only [warmValues]; rw [abs_of_pos] <;> norm_num)
      · exact gives_number (q := 100) (r := []) (by decide +kernel) (by simp only [warmValues]; norm_num) (by simp only [warmValues]; rw [abs_of_pos] <;> norm_num)
      · exact gives_number (q := 85) (r := []) (by decide +kernel) (by simp only [warmValues]; norm_num) (by simp only [warmValues]; rw [abs_of_pos] <;> norm_num)
      · exact gives_number (q := 41 / 10) (r := []) (by decide +kernel) (by simp only [warmValues]; norm_num) (by simp only [warmValues]; rw [abs_of_pos] <;> norm_num)

theorem thaw_inputs (monthly byMonth byHour : Bool) (c : Option Str) : Inputs (twoFiles mended thawYear)
    ⟨"SmallOffice_v2.ism".toList, none, monthly, byMonth, byHour, c⟩ mendedStore thawYear where
  building := twoFiles_exists _ _ _
  defaults := by simp
  parameters := by
    simp only
    rw [twoFiles_building]
    exact mendedStore_eq
  accepted := mended_accepted
  weather := ⟨"ORD.epw".toList, "ORD.epw".toList, by decide +kernel, by rw [twoFiles_exists]; rfl, twoFiles_weather _ _⟩

/-- the two years differ in temperature, dew point and humidity -/
theorem thaw_edited {data : List (Fin 7)} (h : ∀ c ∈ [(0 : Fin 7), 1, 2], c ∈ data) (place : Bool) :
    Edited data place 41.98 (-87.92) (-6) (fun c (_ : Fin 8760) => someValues c) 41.98 (-87.92) (-6) thawValues := by
  refine ⟨fun c hc r => ?_, fun _ => ⟨rfl, rfl, rfl⟩⟩
  unfold thawValues
  split_ifs
  · rfl
  · fin_cases c
    · exact absurd (h 0 (by simp)) hc
    · exact absurd (h 1 (by simp)) hc
    · exact absurd (h 2 (by simp)) hc
    all_goals rfl

/-- they agree in January and in no other hour -/
theorem thaw_january : SameIn (· < 744) (fun c (_ : Fin 8760) => someValues c) thawValues := by
  intro c _ _ r hr
  exact if_pos hr

theorem thaw_february (r : Fin 8760) (hr : 744 ≤ r.1) : thawValues 0 r ≠ someValues 0 := by
  unfold thawValues
  rw [if_neg (by omega)]
  show (25 : ℝ) ≠ 12.2
  norm_num

theorem mended_waste : Gives mendedStore "hvacwastefactor" 0 := mended_describes.heating_hotcoldWasteFactor

/-- the hypotheses of `C81_month` are met: January in the two years -/
example (junk : Params Dbl) : ∃ out out',
    main standard Numerals.print (twoFiles mended someYear) junk ⟨"SmallOffice_v2.ism".toList, none, false, false, false, none⟩
      = .returns [.runMonthly] out ∧
    main standard Numerals.print (twoFiles mended thawYear) junk ⟨"SmallOffice_v2.ism".toList, none, false, false, false, none⟩
      = .returns [.runMonthly] out' ∧
    (∀ k : Fin 13, k ∉ [0, 1, 5, 9, 10] → CellSame 0 k out' out) ∧ ∀ k : Fin 13, k ≠ 5 → CellSameOrNan 0 k out' out := by
  obtain ⟨out, a, value, h, -⟩ := C74_monthly (mended_inputs false false false none) ⟨rfl, rfl, rfl, rfl⟩ mended_describes
    (fun i => ⟨show (1:ℝ) ≤ 1 from le_rfl, show (1:ℝ) < 4 by norm_num⟩) someYear_complete someYear_suitable (fun _ ha => mended_ordinary ha) junk
  obtain ⟨out', h', hs⟩ := C77_monthly (columns := [0, 1, 4, 5, 9, 10]) (by unfold monthlyGroups; exact List.mem_cons_of_mem _ (List.mem_singleton.mpr rfl))
    (mended_inputs false false false none) (thaw_inputs false false false none) ⟨rfl, rfl, rfl, rfl⟩ ⟨rfl, rfl, rfl, rfl⟩
    (thaw_edited (by decide) true) someYear_complete someYear_suitable.zone thawYear_complete someYear_suitable.zone junk junk h
  obtain ⟨h1, h2⟩ := C81_month (mended_inputs false false false none) (thaw_inputs false false false none) ⟨rfl, rfl, rfl, rfl⟩
    ⟨rfl, rfl, rfl, rfl⟩ someYear_complete thawYear_complete someYear_suitable.zone 0
    (fun c k1 k2 r hr => thaw_january c k1 k2 r (Finset.mem_Ico.mp hr).2) junk junk h h'
  exact ⟨out, out', h, h', h1, h2 mended_waste⟩

/-- the hypotheses of `C81_hours` are met: the hours of January -/
example (junk : Params Dbl) : ∃ out out',
    main standard Numerals.print (twoFiles mended someYear) junk ⟨"SmallOffice_v2.ism".toList, none, false, false, true, none⟩
      = .returns [.runHourly false] out ∧
    main standard Numerals.print (twoFiles mended thawYear) junk ⟨"SmallOffice_v2.ism".toList, none, false, false, true, none⟩
      = .returns [.runHourly false] out' ∧
    ∀ i < 744, (∀ k : Fin 13, k ∉ [0, 1, 9] → CellSame i k out' out) ∧ ∀ k : Fin 13, CellSameOrNan i k out' out := by
  obtain ⟨out, -, -, -, -, h, -⟩ := C74_byHour (mended_inputs false false true none) ⟨rfl, rfl, rfl, rfl⟩ mended_describes mended_physical
    mended_systems mended_timetable someYear_complete someYear_suitable.lat someYear_suitable.zone junk
  obtain ⟨out', h', hs⟩ := C77_hourly (columns := [0, 1, 9, 4, 5]) (by unfold hourlyGroups; exact List.mem_cons_of_mem _ List.mem_cons_self)
    (mended_inputs false false true none) (thaw_inputs false false true none) false ⟨rfl, rfl, rfl, rfl⟩ ⟨rfl, rfl, rfl, rfl⟩
    (thaw_edited (by decide) false) someYear_complete someYear_suitable.zone thawYear_complete someYear_suitable.zone junk junk h
  refine ⟨out, out', h, h', fun i hi => ?_⟩
  obtain ⟨h1, h2⟩ := C81_hours (mended_inputs false false true none) (thaw_inputs false false true none) ⟨rfl, rfl, rfl, rfl⟩
    ⟨rfl, rfl, rfl, rfl⟩ someYear_complete thawYear_complete someYear_suitable.zone 744 thaw_january junk junk h h' i hi (by omega)
  exact ⟨h1, h2 mended_waste⟩

/-- the hypotheses of `C81_months` are met: January -/
example (junk : Params Dbl) : ∃ out out',
    main standard Numerals.print (twoFiles mended someYear) junk ⟨"SmallOffice_v2.ism".toList, none, false, true, false, none⟩
      = .returns [.runHourly true] out ∧
    main standard Numerals.print (twoFiles mended thawYear) junk ⟨"SmallOffice_v2.ism".toList, none, false, true, false, none⟩
      = .returns [.runHourly true] out' ∧
    (∀ k : Fin 13, k ∉ [0, 1, 9] → CellSame 0 k out' out) ∧ ∀ k : Fin 13, CellSameOrNan 0 k out' out := by
  obtain ⟨out, -, -, -, -, h, -⟩ := C74_byMonth (mended_inputs false true false none) ⟨rfl, rfl, rfl, rfl⟩ mended_describes mended_physical
    mended_systems mended_timetable someYear_complete someYear_suitable.lat someYear_suitable.zone junk
  obtain ⟨out', h', hs⟩ := C77_hourly (columns := [0, 1, 9, 4, 5]) (by unfold hourlyGroups; exact List.mem_cons_of_mem _ List.mem_cons_self)
    (mended_inputs false true false none) (thaw_inputs false true false none) true ⟨rfl, rfl, rfl, rfl⟩ ⟨rfl, rfl, rfl, rfl⟩
    (thaw_edited (by decide) false) someYear_complete someYear_suitable.zone thawYear_complete someYear_suitable.zone junk junk h
  obtain ⟨h1, h2⟩ := C81_months (mended_inputs false true false none) (thaw_inputs false true false none) ⟨rfl, rfl, rfl, rfl⟩
    ⟨rfl, rfl, rfl, rfl⟩ someYear_complete thawYear_complete someYear_suitable.zone 0
    (fun c k1 k2 r hr => thaw_january c k1 k2 r hr) junk junk h h'
  exact ⟨out, out', h, h', h1, h2 mended_waste⟩

end ISO.Props
