import Verif.Props.Settings
import Verif.Props.PrintedOrderCases

/-! # C80: the hypotheses are met by the office of `EndToEndOffice` -/

namespace ISO.Props
open ISO ISO.Numerals ISO.Properties ISO.Spec ISO.Spec.Text ISO.Spec.Whole ISO.Spec.EndToEnd ISO.User ISO.CommandLine ISO.Epw ISO.Lemmas Dbl
open PrintedOrderCases

namespace SettingsCases

/-- what is to be checked of a line -/
theorem defines_of {before after key value : Str} (h : '=' ∉ before ∧ strTrim before = key ∧ strTrim after = value ∧ key ≠ [] ∧ value ≠ [] ∧
    Properties.parseLine (before ++ '=' :: after) ≠ .skip) : Defines (before ++ '=' :: after) key value := by
  obtain ⟨f2, f3, f4, f5, f6, f7⟩ := h
  refine ⟨fun hi => f7 ((parseLine_skip_iff _).mpr hi), before, after, rfl, f2, ?_, f5, ?_, f6⟩
  · rw [← f3]; exact strTrim_trimmed _
  · rw [← f4]; exact strTrim_trimmed _

theorem stod_of {t : Str} {q : ℚ} (h : stodValue t = .ok (.number q)) : Numerals.stod t = .ok (fin q) := by
  rw [stod_value, h]
  rfl

/-- a line with one number -/
theorem setpoint_same : SaysSame standard.stod "heatingsetpointoccupied = 22".toList (.value (.heating .heatingOccupiedSetpoint) (fin (22 : ℚ))) := by
  refine ⟨by decide +kernel, "heatingsetpointoccupied".toList, "22".toList, "heatingsetpointoccupied",
    defines_of (before := "heatingsetpointoccupied ".toList) (after := " 22".toList) (by decide +kernel), rfl, by decide, rfl, ?_⟩
  have h : Numerals.stod "22".toList = .ok (fin (22 : ℚ)) := stod_of (by decide +kernel)
  show ((Numerals.stod "22".toList).toOption.map Reading.num) = _
  rw [h]
  rfl

/-- a line with a keyword -/
theorem carrier_same : SaysSame standard.stod "heatingFuelType = Gas".toList (.keyword .heatingEnergyCarrier "Gas".toList) :=
  ⟨by decide +kernel, "heatingFuelType".toList, "Gas".toList, "heatingfueltype",
    defines_of (before := "heatingFuelType ".toList) (after := " Gas".toList) (by decide +kernel), (by unfold SameKey; decide +kernel), by decide, rfl,
    rfl, "gas", by decide, by decide +kernel⟩

/-- a line with nine numbers -/
theorem walls_same : SaysSame standard.stod "wallU = 1,2,3,4,5,6,7,8,9".toList
    (.vector .wallU [fin (5 : ℚ), fin (4 : ℚ), fin (3 : ℚ), fin (2 : ℚ), fin (1 : ℚ), fin (8 : ℚ), fin (7 : ℚ), fin (6 : ℚ), fin (9 : ℚ)]) := by
  refine ⟨by decide +kernel, "wallU".toList, "1,2,3,4,5,6,7,8,9".toList, "wallU",
    defines_of (before := "wallU ".toList) (after := " 1,2,3,4,5,6,7,8,9".toList) (by decide +kernel), rfl, by decide, rfl,
    fin (1 : ℚ), fin (2 : ℚ), fin (3 : ℚ), fin (4 : ℚ), fin (5 : ℚ), fin (6 : ℚ), fin (7 : ℚ), fin (8 : ℚ), fin (9 : ℚ), ?_, rfl⟩
  have ht : Properties.tokens "1,2,3,4,5,6,7,8,9".toList = .ok ["1".toList, "2".toList, "3".toList, "4".toList, "5".toList, "6".toList,
    "7".toList, "8".toList, "9".toList] := by decide +kernel
  have h1 := stod_of (show stodValue "1".toList = .ok (.number 1) by decide +kernel)
  have h2 := stod_of (show stodValue "2".toList = .ok (.number 2) by decide +kernel)
  have h3 := stod_of (show stodValue "3".toList = .ok (.number 3) by decide +kernel)
  have h4 := stod_of (show stodValue "4".toList = .ok (.number 4) by decide +kernel)
  have h5 := stod_of (show stodValue "5".toList = .ok (.number 5) by decide +kernel)
  have h6 := stod_of (show stodValue "6".toList = .ok (.number 6) by decide +kernel)
  have h7 := stod_of (show stodValue "7".toList = .ok (.number 7) by decide +kernel)
  have h8 := stod_of (show stodValue "8".toList = .ok (.number 8) by decide +kernel)
  have h9 := stod_of (show stodValue "9".toList = .ok (.number 9) by decide +kernel)
  unfold nineNumbers
  rw [ht]
  simp only [show standard.stod = Numerals.stod from rfl, Properties.stodAll, h1, h2, h3, h4, h5, h6, h7, h8, h9]
  rfl

end SettingsCases
open SettingsCases

/-- the hypotheses of `C80_history` are met: the office with three calls of setters and with three lines more -/
example (junk : Params Dbl) (e : Extra Dbl) : ∃ u2,
    run standard [(twoFiles mended someYear, .load "SmallOffice_v2.ism".toList),
        (twoFiles mended someYear, .call (.value (.heating .heatingOccupiedSetpoint) (fin (22 : ℚ))) e),
        (twoFiles mended someYear, .call (.keyword .heatingEnergyCarrier "Gas".toList) e),
        (twoFiles mended someYear, .call (.vector .wallU [fin (5 : ℚ), fin (4 : ℚ), fin (3 : ℚ), fin (2 : ℚ), fin (1 : ℚ), fin (8 : ℚ), fin (7 : ℚ),
          fin (6 : ℚ), fin (9 : ℚ)]) e)] (newUserModel junk) = some u2 ∧
    run standard [((twoFiles mended someYear).replace "SmallOffice_v2.ism".toList
        ("wallU = 1,2,3,4,5,6,7,8,9".toList ++ '\n' :: ("heatingFuelType = Gas".toList ++ '\n' :: ("heatingsetpointoccupied = 22".toList ++ '\n' ::
          mended))), .load "SmallOffice_v2.ism".toList)] (newUserModel junk) = some u2 := by
  obtain ⟨u1, h1, -⟩ := EndToEnd.loaded (mended_ready.inputs false false false none) mended_describes someYear_complete someYear_suitable.zone junk
  have hx := twoFiles_exists mended someYear "SmallOffice_v2.ism".toList
  have hb := twoFiles_building mended someYear
  have h : run standard [(twoFiles mended someYear, .load "SmallOffice_v2.ism".toList)] (newUserModel junk) = some u1 := by
    rw [run, step]
    rw [show load standard (twoFiles mended someYear) "SmallOffice_v2.ism".toList (newUserModel junk) = .ok u1 from h1]
    rfl
  have hg := C80_getters standard hx hb mended_ready.readable h e (.of .weatherFilePath)
  rw [show (Getter.line (.of .weatherFilePath)) = some "weatherfilepath" from rfl, Option.bind_some, mended_ready.weather] at hg
  have hp : u1.params.weatherFilePath = "ORD.epw".toList := Reading.text.inj hg
  exact C80_history standard hx hb [("heatingsetpointoccupied = 22".toList, .value (.heating .heatingOccupiedSetpoint) (fin (22 : ℚ))),
    ("heatingFuelType = Gas".toList, .keyword .heatingEnergyCarrier "Gas".toList), ("wallU = 1,2,3,4,5,6,7,8,9".toList, _)]
    (by
      intro x hx
      simp only [List.mem_cons, List.not_mem_nil, or_false] at hx
      rcases hx with rfl | rfl | rfl
      · exact setpoint_same
      · exact carrier_same
      · exact walls_same) h (by rw [hp]; decide +kernel) e

end ISO.Props
