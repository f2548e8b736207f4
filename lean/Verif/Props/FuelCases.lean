import Verif.Props.Fuel
import Verif.Props.EditingCases

/-! # C84: the hypotheses are met by the office of `EndToEndOffice` with another fuel -/

namespace ISO.Props
open ISO ISO.Numerals ISO.Properties ISO.Spec ISO.Spec.Text ISO.Spec.Whole ISO.Spec.EndToEnd ISO.User ISO.CommandLine ISO.Epw ISO.Lemmas Dbl
open ISO.Spec.Editing (heatingSystemNames monthlyGroups Edited SameTable)
open ISO.Spec.Fuel (Carrier Burns SwappedTable)

/-- heating with electricity -/
def electricLine : Str := "heatingFuelType = Electric".toList
/-- hot water with electricity -/
def electricWaterLine : Str := "dhwFuelType = electric".toList
/-- a district system -/
def districtLine : Str := "DH_YesNo = 1".toList

theorem electric_line {building : Str} {file : Properties.Store} (h : Base building file) :
    ∃ file', Base (electricLine ++ '\n' :: building) file' ∧ Edited ["heatingfueltype"] file file' ∧ Burns file' "heatingfueltype" .electric := by
  obtain ⟨file', hB, he, h3, -⟩ := h.line (line := electricLine) (key := "heatingFuelType".toList) (value := "Electric".toList)
    ["heatingfueltype"]
    (defines_line (a := "heatingFuelType ".toList) (b := " Electric".toList) (by decide +kernel) (by decide +kernel) (by decide +kernel)
      (by decide +kernel) (by decide +kernel) (by decide +kernel) (by decide +kernel))
    (by decide +kernel) (by unfold SameKey; decide +kernel) (by unfold SameKey; decide +kernel) (by unfold SameKey; decide +kernel)
  exact ⟨file', hB, he, _, h3 _ (by unfold SameKey; decide +kernel), by decide +kernel⟩

theorem electric_water_line {building : Str} {file : Properties.Store} (h : Base building file) :
    ∃ file', Base (electricWaterLine ++ '\n' :: building) file' ∧ Edited ["dhwfueltype"] file file' ∧ Burns file' "dhwfueltype" .electric := by
  obtain ⟨file', hB, he, h3, -⟩ := h.line (line := electricWaterLine) (key := "dhwFuelType".toList) (value := "electric".toList)
    ["dhwfueltype"]
    (defines_line (a := "dhwFuelType ".toList) (b := " electric".toList) (by decide +kernel) (by decide +kernel) (by decide +kernel)
      (by decide +kernel) (by decide +kernel) (by decide +kernel) (by decide +kernel))
    (by decide +kernel) (by unfold SameKey; decide +kernel) (by unfold SameKey; decide +kernel) (by unfold SameKey; decide +kernel)
  exact ⟨file', hB, he, _, h3 _ (by unfold SameKey; decide +kernel), by decide +kernel⟩

theorem mended_gas : Burns mendedStore "heatingfueltype" .gas ∧ Burns mendedStore "dhwfueltype" .gas := by
  refine ⟨⟨"gas".toList, ?_, by decide +kernel⟩, "gas".toList, ?_, by decide +kernel⟩
  · show Param.given mendedStore "heatingfueltype" = _
    decide +kernel
  · show Param.given mendedStore "dhwfueltype" = _
    decide +kernel

/-- the hypotheses of `C84_hourly` are met: the office with gas and with electricity -/
example (junk : Params Dbl) : ∃ out out',
    main standard Numerals.print (twoFiles mended someYear) junk ⟨"SmallOffice_v2.ism".toList, none, false, false, true, none⟩
      = .returns [.runHourly false] out ∧
    main standard Numerals.print (twoFiles (electricLine ++ '\n' :: mended) someYear) junk
      ⟨"SmallOffice_v2.ism".toList, none, false, false, true, none⟩ = .returns [.runHourly false] out' ∧
    SwappedTable heatingElectricity heatingGas out out' := by
  obtain ⟨file', hB, he, hc⟩ := electric_line mended_base
  obtain ⟨out, -, -, -, -, h, -⟩ := C74_byHour (mended_inputs false false true none) ⟨rfl, rfl, rfl, rfl⟩ mended_describes mended_physical
    mended_systems mended_timetable someYear_complete someYear_suitable.lat someYear_suitable.zone junk
  obtain ⟨out', h', hs⟩ := C84_hourly (mended_inputs false false true none) (hB.inputs false false true none) he mended_gas.1 hc (by decide) false
    ⟨rfl, rfl, rfl, rfl⟩ ⟨rfl, rfl, rfl, rfl⟩ someYear_complete someYear_suitable.zone junk junk h
  exact ⟨out, out', h, h', hs⟩

/-- the monthly table of the office -/
theorem mended_run (junk : Params Dbl) : ∃ out,
    main standard Numerals.print (twoFiles mended someYear) junk ⟨"SmallOffice_v2.ism".toList, none, false, false, false, none⟩
      = .returns [.runMonthly] out := by
  obtain ⟨out, a, value, h, -⟩ := C74_monthly (mended_inputs false false false none) ⟨rfl, rfl, rfl, rfl⟩ mended_describes
    (fun i => ⟨show (1:ℝ) ≤ 1 from le_rfl, show (1:ℝ) < 4 by norm_num⟩) someYear_complete someYear_suitable (fun _ ha => mended_ordinary ha) junk
  exact ⟨out, h⟩

/-- the hypotheses of `C84_water` are met -/
example (junk : Params Dbl) : ∃ out out',
    main standard Numerals.print (twoFiles mended someYear) junk ⟨"SmallOffice_v2.ism".toList, none, false, false, false, none⟩
      = .returns [.runMonthly] out ∧
    main standard Numerals.print (twoFiles (electricWaterLine ++ '\n' :: mended) someYear) junk
      ⟨"SmallOffice_v2.ism".toList, none, false, false, false, none⟩ = .returns [.runMonthly] out' ∧
    SwappedTable hotWaterElectricity hotWaterGas out out' := by
  obtain ⟨file', hB, he, hc⟩ := electric_water_line mended_base
  obtain ⟨out, h⟩ := mended_run junk
  obtain ⟨out', h', hs⟩ := C84_water (mended_inputs false false false none) (hB.inputs false false false none) he mended_gas.2 hc (by decide)
    ⟨rfl, rfl, rfl, rfl⟩ ⟨rfl, rfl, rfl, rfl⟩ someYear_complete someYear_suitable.zone junk junk h
  exact ⟨out, out', h, h', hs⟩

/-- the hypotheses of `C84_monthly` are met -/
example (junk : Params Dbl) : ∃ out out',
    main standard Numerals.print (twoFiles mended someYear) junk ⟨"SmallOffice_v2.ism".toList, none, false, false, false, none⟩
      = .returns [.runMonthly] out ∧
    main standard Numerals.print (twoFiles (electricLine ++ '\n' :: mended) someYear) junk
      ⟨"SmallOffice_v2.ism".toList, none, false, false, false, none⟩ = .returns [.runMonthly] out' ∧
    SwappedTable heatingElectricity heatingGas out out' := by
  obtain ⟨file', hB, he, hc⟩ := electric_line mended_base
  obtain ⟨out, h⟩ := mended_run junk
  obtain ⟨out', h', hs⟩ := C84_monthly (mended_inputs false false false none) (hB.inputs false false false none) he mended_gas.1 hc (by decide)
    mended_describes.heating_DH_YesNo (by norm_num [mendedOffice]) mended_describes.heating_frac_DH_free mended_describes.heating_eta_DH_sys
    mended_describes.heating_eta_DH_network (by norm_num [mendedOffice])
    ⟨rfl, rfl, rfl, rfl⟩ ⟨rfl, rfl, rfl, rfl⟩ someYear_complete someYear_suitable.zone junk junk h
  exact ⟨out, out', h, h', hs⟩

/-- the hypotheses of `C84_district` are met -/
example (junk : Params Dbl) : ∃ out out',
    main standard Numerals.print (twoFiles (districtLine ++ '\n' :: mended) someYear) junk
      ⟨"SmallOffice_v2.ism".toList, none, false, false, false, none⟩ = .returns [.runMonthly] out ∧
    main standard Numerals.print (twoFiles (electricLine ++ '\n' :: (districtLine ++ '\n' :: mended)) someYear) junk
      ⟨"SmallOffice_v2.ism".toList, none, false, false, false, none⟩ = .returns [.runMonthly] out' ∧
    SameTable [] out out' := by
  obtain ⟨file₁, hB₁, he₁, h3, -⟩ := mended_base.line (line := districtLine) (key := "DH_YesNo".toList) (value := "1".toList)
    heatingSystemNames
    (defines_line (a := "DH_YesNo ".toList) (b := " 1".toList) (by decide +kernel) (by decide +kernel) (by decide +kernel)
      (by decide +kernel) (by decide +kernel) (by decide +kernel) (by decide +kernel))
    (by decide +kernel) (by unfold SameKey; decide +kernel) (by unfold SameKey; decide +kernel) (by unfold SameKey; decide +kernel)
  obtain ⟨file', hB, he, -⟩ := electric_line hB₁
  obtain ⟨out₀, h₀⟩ := mended_run junk
  obtain ⟨out, h, -⟩ := C75_monthly (names := heatingSystemNames) (columns := [0, 9]) (by simp [monthlyGroups])
    (mended_inputs false false false none) (hB₁.inputs false false false none) he₁ ⟨rfl, rfl, rfl, rfl⟩ ⟨rfl, rfl, rfl, rfl⟩
    someYear_complete someYear_suitable.zone junk junk h₀
  have hd : GivesOr file₁ "dh_yesno" 0 1 := by
    have e : Param.number Numerals.stod file₁ "dh_yesno" = some (fin (1 : ℚ)) := by
      refine number_value ?_
      show (Properties.getProperty "dh_yesno".toList file₁).bind _ = _
      rw [h3 _ (by unfold SameKey; decide +kernel)]
      decide +kernel
    show (Param.number Numerals.stod file₁ "dh_yesno").getD _ = _
    rw [e, Option.getD_some]
    norm_num
  obtain ⟨out', h', hs⟩ := C84_district (hB₁.inputs false false false none) (hB.inputs false false false none) he hd
    ⟨rfl, rfl, rfl, rfl⟩ ⟨rfl, rfl, rfl, rfl⟩ someYear_complete someYear_suitable.zone junk junk h
  exact ⟨out, out', h, h', hs⟩

end ISO.Props
