import Verif.Props.WeatherEditing
import Verif.Props.EndToEndCases

/-! # C77: the hypotheses are met by the office of `EndToEndOffice`, its year of weather and a warmer one -/

namespace ISO.Props
open ISO ISO.Numerals ISO.Properties ISO.Spec ISO.Spec.Text ISO.Spec.Whole ISO.Spec.EndToEnd ISO.User ISO.CommandLine ISO.Epw ISO.Lemmas Dbl
open ISO.Spec.Editing (SameTable)
open ISO.Spec.WeatherEditing (Edited monthlyAny monthlyGroups hourlyGroups)

/-- an hour with other temperatures and another humidity -/
def warmHour : List Str := ["1986", "1", "1", "1", "0", "?", "25", "7.5", "33", "99500", "0", "0", "279", "150", "100", "85", "0", "0", "0", "0", "250",
  "4.1"].map String.toList

/-- a file of 8768 lines -/
def warmYear : Str := Spec.Epw.file (Spec.Epw.line someHeader :: List.replicate 7 [] ++ List.replicate 8760 (Spec.Epw.line warmHour))

/-- the values of the hour -/
noncomputable def warmValues : Fin 7 → ℝ
  | 0 => 25 | 1 => 7.5 | 2 => 33 | 3 => 150 | 4 => 100 | 5 => 85 | 6 => 4.1

theorem warmYear_complete : YearFile warmYear 41.98 (-87.92) (-6) (fun c _ => warmValues c) := by
  refine ⟨Spec.Epw.line someHeader :: List.replicate 7 [] ++ List.replicate 8760 (Spec.Epw.line warmHour), rfl, ?_, ?_, ?_⟩
  · intro l hl
    simp only [List.cons_append, List.mem_cons, List.mem_append, List.mem_replicate] at hl
    rcases hl with rfl | ⟨-, rfl⟩ | ⟨-, rfl⟩
    · decide +kernel
    · simp
    · decide +kernel
  · refine ⟨someHeader, rfl, by decide, by decide +kernel, ?_, ?_, ?_⟩
    · exact gives_number (q := 4198 / 100) (r := []) (by decide +kernel) (by norm_num) (by rw [abs_of_pos] <;> norm_num)
    · exact gives_number (q := -8792 / 100) (r := []) (by decide +kernel) (by norm_num) (by rw [abs_of_neg] <;> norm_num)
    · exact gives_number (q := -6) (r := []) (by decide +kernel) (by norm_num) (by rw [abs_of_neg] <;> norm_num)
  · intro r
    refine ⟨warmHour, ?_, by decide, by decide +kernel, ?_⟩
    · obtain ⟨r, hr⟩ := r
      simp only
      generalize Spec.Epw.line warmHour = l
      generalize Spec.Epw.line someHeader = l0
      generalize 8760 = N at *
      rw [List.getElem?_append_right (by simp), List.getElem?_replicate]
      simp only [List.length_cons, List.length_replicate]
      rw [if_pos (by omega)]
    · intro c
      fin_cases c
      · exact gives_number (q := 25) (r := []) (by decide +kernel) (by simp only [warmValues]; norm_num) (by simp only [warmValues]; rw [abs_of_pos] <;> norm_num)
      · exact gives_number (q := 75 / 10) (r := []) (by decide +kernel) (by simp only [warmValues]; norm_num) (by simp only [warmValues]; rw [abs_of_pos] <;> norm_num)
      · exact gives_number (q := 33) (r := []) (by decide +kernel) (by simp only [warmValues]; norm_num) (by simp only [warmValues]; rw [abs_of_pos] <;> norm_num)
      · exact gives_number (q := 150) (r := []) (by decide +kernel) (by simp only [warmValues]; norm_num) (by simp only [warmValues]; rw [abs_of_pos] <;> norm_num)
      · exact gives_number (q := 100) (r := []) (by decide +kernel) (by simp only [warmValues]; norm_num) (by simp only [warmValues]; rw [abs_of_pos] <;> norm_num)
      · exact gives_number (q := 85) (r := []) (by decide +kernel) (by simp only [warmValues]; norm_num) (by simp only [warmValues]; rw [abs_of_pos] <;> norm_num)
      · exact gives_number (q := 41 / 10) (r := []) (by decide +kernel) (by simp only [warmValues]; norm_num) (by simp only [warmValues]; rw [abs_of_pos] <;> norm_num)


theorem warm_inputs (monthly byMonth byHour : Bool) (c : Option Str) : Inputs (twoFiles mended warmYear)
    ⟨"SmallOffice_v2.ism".toList, none, monthly, byMonth, byHour, c⟩ mendedStore warmYear where
  building := twoFiles_exists _ _ _
  defaults := by simp
  parameters := by
    simp only
    rw [twoFiles_building]
    exact mendedStore_eq
  accepted := mended_accepted
  weather := ⟨"ORD.epw".toList, "ORD.epw".toList, by decide +kernel, by rw [twoFiles_exists]; rfl, twoFiles_weather _ _⟩

/-- the two years differ in temperature, dew point and humidity -/
theorem warm_edited {data : List (Fin 7)} (h : ∀ c ∈ [(0 : Fin 7), 1, 2], c ∈ data) (place : Bool) :
    Edited data place 41.98 (-87.92) (-6) (fun c (_ : Fin 8760) => someValues c) 41.98 (-87.92) (-6) (fun c _ => warmValues c) := by
  refine ⟨fun c hc r => ?_, fun _ => ⟨rfl, rfl, rfl⟩⟩
  fin_cases c
  · exact absurd (h 0 (by simp)) hc
  · exact absurd (h 1 (by simp)) hc
  · exact absurd (h 2 (by simp)) hc
  all_goals rfl

/-- the hypotheses of `C77_monthly` and `C77_monthly_any` are met: in a warmer year only the columns of heating, cooling, fans and pumps can change -/
example (junk : Params Dbl) : ∃ out out',
    main standard Numerals.print (twoFiles mended someYear) junk ⟨"SmallOffice_v2.ism".toList, none, false, false, false, none⟩
      = .returns [.runMonthly] out ∧
    main standard Numerals.print (twoFiles mended warmYear) junk ⟨"SmallOffice_v2.ism".toList, none, false, false, false, none⟩
      = .returns [.runMonthly] out' ∧
    SameTable [0, 1, 4, 5, 9, 10] out out' ∧ SameTable monthlyAny out out' := by
  obtain ⟨out, a, value, h, -⟩ := C74_monthly (mended_inputs false false false none) ⟨rfl, rfl, rfl, rfl⟩ mended_describes
    (fun i => ⟨show (1:ℝ) ≤ 1 from le_rfl, show (1:ℝ) < 4 by norm_num⟩) someYear_complete someYear_suitable (fun _ ha => mended_ordinary ha) junk
  obtain ⟨out', h', hs⟩ := C77_monthly (columns := [0, 1, 4, 5, 9, 10]) (by unfold monthlyGroups; exact List.mem_cons_of_mem _ (List.mem_singleton.mpr rfl))
    (mended_inputs false false false none) (warm_inputs false false false none) ⟨rfl, rfl, rfl, rfl⟩ ⟨rfl, rfl, rfl, rfl⟩
    (warm_edited (by decide) true) someYear_complete someYear_suitable.zone warmYear_complete someYear_suitable.zone junk junk h
  exact ⟨out, out', h, h', hs, C77_monthly_any (mended_inputs false false false none) (warm_inputs false false false none) ⟨rfl, rfl, rfl, rfl⟩
    ⟨rfl, rfl, rfl, rfl⟩ someYear_complete someYear_suitable.zone warmYear_complete someYear_suitable.zone junk junk h h'⟩

/-- the hypotheses of `C77_hourly` are met -/
example (junk : Params Dbl) : ∃ out out',
    main standard Numerals.print (twoFiles mended someYear) junk ⟨"SmallOffice_v2.ism".toList, none, false, false, true, none⟩
      = .returns [.runHourly false] out ∧
    main standard Numerals.print (twoFiles mended warmYear) junk ⟨"SmallOffice_v2.ism".toList, none, false, false, true, none⟩
      = .returns [.runHourly false] out' ∧
    SameTable [0, 1, 9, 4, 5] out out' := by
  obtain ⟨out, -, -, -, -, h, -⟩ := C74_byHour (mended_inputs false false true none) ⟨rfl, rfl, rfl, rfl⟩ mended_describes mended_physical
    mended_systems mended_timetable someYear_complete someYear_suitable.lat someYear_suitable.zone junk
  obtain ⟨out', h', hs⟩ := C77_hourly (columns := [0, 1, 9, 4, 5]) (by unfold hourlyGroups; exact List.mem_cons_of_mem _ List.mem_cons_self)
    (mended_inputs false false true none) (warm_inputs false false true none) false ⟨rfl, rfl, rfl, rfl⟩ ⟨rfl, rfl, rfl, rfl⟩
    (warm_edited (by decide) false) someYear_complete someYear_suitable.zone warmYear_complete someYear_suitable.zone junk junk h
  exact ⟨out, out', h, h', hs⟩

end ISO.Props
