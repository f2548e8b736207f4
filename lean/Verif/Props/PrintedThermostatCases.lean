import Verif.Props.PrintedThermostat
import Verif.Props.PrintedWarmthCases

/-! # C76: the hypotheses about the thermostat are met by the office of `EndToEndOffice` in a windy year -/

namespace ISO.Props
open ISO ISO.Numerals ISO.Properties ISO.Spec ISO.Spec.Text ISO.Spec.Whole ISO.Spec.EndToEnd ISO.User ISO.CommandLine ISO.Epw ISO.Lemmas Dbl
open ISO.Spec.Editing (Edited SameTable)
open ISO.Spec.HourlyWhole (placeOf)
open ISO.Spec.PrintedOrder ISO.Lemmas.Described ISO.Lemmas.Editing PrintedOrderCases PrintedWarmthCases

/-- the hypotheses of `C76_setback` are met: heating to 22 instead of 24 degrees -/
example (junk : Params Dbl) (byMonth : Bool) : ∃ out out',
    main standard Numerals.print (twoFiles mended coolDays) junk ⟨"SmallOffice_v2.ism".toList, none, false, byMonth, !byMonth, none⟩
      = .returns [.runHourly byMonth] out ∧
    main standard Numerals.print (twoFiles ("heatingsetpointoccupied = 22\nheatingsetpointunoccupied = 22\n".toList ++ mended)
      coolDays) junk ⟨"SmallOffice_v2.ism".toList, none, false, byMonth, !byMonth, none⟩ = .returns [.runHourly byMonth] out' ∧
    ∀ i < (if byMonth then 12 else 8760), CellNotAbove i 1 out' out := by
  obtain ⟨file1, hr1, he1, hg1⟩ := mended_ready.line lowerUnoccupied_fine
  obtain ⟨file2, hr2, he2, hg2⟩ := hr1.line lowerOccupied_fine
  have hg1' : EndToEnd.Gives file2 "heatingsetpointunoccupied" (22 : ℚ) :=
    gives_same (same_given he2 ⟨keys_known _ (by decide +kernel), by decide +kernel⟩) hg1
  have hd := described_setpoints mended_describes (edited_twice he1 he2) hg2 hg1'
  have hw := days_driven (t := 12.2) (by norm_num) (by norm_num)
  exact C76_setback (y := { mendedOffice with heating := { mendedOffice.heating with
      temperatureSetPointOccupied := (22 : ℚ), temperatureSetPointUnoccupied := (22 : ℚ) } })
    (Ready_inputs mended_ready _ false byMonth (!byMonth) none) (Ready_inputs hr2 _ false byMonth (!byMonth) none) byMonth
    ⟨rfl, rfl, rfl, rfl⟩ ⟨rfl, rfl, rfl, rfl⟩ mended_describes hd (by norm_num [mendedOffice]) (by norm_num [mendedOffice]) rfl rfl mended_physical
    { mended_physical with
      setOccupied := by norm_num [takeSetPoints, mendedOffice]
      setUnoccupied := by norm_num [takeSetPoints, mendedOffice] }
    mended_systems (by constructor <;> norm_num [takeSetPoints, mendedOffice]) mended_timetable rfl mended_efficient mended_shares.2 coolDays_complete days_lat days_zone
    hw { hw with heatOccupied := by norm_num [takeSetPoints], heatUnoccupied := by norm_num [takeSetPoints] } junk junk

/-- the hypotheses of `C76_setup` are met: cooling to 28 instead of 27 degrees -/
example (junk : Params Dbl) (byMonth : Bool) : ∃ out out',
    main standard Numerals.print (twoFiles ("coolingsetpointoccupied = 27\ncoolingsetpointunoccupied = 27\n".toList ++ mended)
      coolDays) junk ⟨"SmallOffice_v2.ism".toList, none, false, byMonth, !byMonth, none⟩ = .returns [.runHourly byMonth] out ∧
    main standard Numerals.print (twoFiles mended coolDays) junk ⟨"SmallOffice_v2.ism".toList, none, false, byMonth, !byMonth, none⟩
      = .returns [.runHourly byMonth] out' ∧
    ∀ i < (if byMonth then 12 else 8760), CellNotAbove i 0 out' out ∧ CellNotAbove i 9 out' out := by
  obtain ⟨file1, hr1, he1, hg1⟩ := mended_ready.line
    (show Fine "coolingsetpointunoccupied" "coolingsetpointunoccupied ".toList " 27".toList "27".toList 27 by decide +kernel)
  obtain ⟨file2, hr2, he2, hg2⟩ := hr1.line
    (show Fine "coolingsetpointoccupied" "coolingsetpointoccupied ".toList " 27".toList "27".toList 27 by decide +kernel)
  have hg1' : EndToEnd.Gives file2 "coolingsetpointunoccupied" (27 : ℚ) :=
    gives_same (same_given he2 ⟨keys_known _ (by decide +kernel), by decide +kernel⟩) hg1
  have hd := described_coolpoints mended_describes (edited_twice he1 he2) hg2 hg1'
  have hw := days_driven (t := 12.2) (by norm_num) (by norm_num)
  exact C76_setup (y := mendedOffice) (Ready_inputs hr2 _ false byMonth (!byMonth) none) (Ready_inputs mended_ready _ false byMonth (!byMonth) none)
    byMonth ⟨rfl, rfl, rfl, rfl⟩ ⟨rfl, rfl, rfl, rfl⟩ hd mended_describes rfl rfl (by norm_num [mendedOffice]) (by norm_num [mendedOffice])
    { mended_physical with
      setOccupied := by norm_num [mendedOffice]
      setUnoccupied := by norm_num [mendedOffice] }
    mended_physical (by constructor <;> norm_num [mendedOffice]) mended_systems mended_timetable rfl mended_efficient mended_shares.2 coolDays_complete days_lat days_zone
    { hw with coolOccupied := by norm_num, coolUnoccupied := by norm_num } hw junk junk

end ISO.Props
