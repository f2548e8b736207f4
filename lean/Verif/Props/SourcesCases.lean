import Verif.Props.Sources
import Verif.Props.PrintedOrderCases

/-! # Cases for C25 and C76: a better boiler and a better chiller for the small office -/

namespace ISO.Props
open ISO ISO.Numerals ISO.Spec ISO.Spec.Text ISO.Spec.Whole ISO.User ISO.CommandLine ISO.Epw ISO.Lemmas ISO.Lemmas.Editing Dbl
open ISO.Spec.EndToEnd (Describes Averaged Inputs Timetable hourResult monthResult)
open ISO.Spec.HourlyWhole
open EndToEnd
open ISO.Spec.Editing (cell SameTable)
open ISO.Spec.PrintedOrder
open ISO.Props.PrintedOrderCases ISO.Lemmas.Described

theorem Sources.run {x : Sim ℝ} (ht : Timetable x.pop) (w : Weather ℝ) : ∃ m r, Hourly.simulate false (fresh x w) = some (m, r) := by
  obtain ⟨win, hwin⟩ := timetable_window ht
  obtain ⟨after, h, hr, -⟩ := hourly_runs (fresh x w) win hwin false
  exact ⟨after, h, hr⟩

/-- the hypotheses of `C25_boiler` are met: the small office in the weather of a year in Chicago, and a boiler of efficiency 3 -/
example : ∃ m r m' r', Hourly.simulate false (fresh mendedOffice chicagoYear) = some (m, r) ∧
    Hourly.simulate false (fresh (withBoiler mendedOffice 3) chicagoYear) = some (m', r') ∧ r.length = 8760 ∧ r'.length = 8760 ∧
    ∀ (i : ℕ) (_ : i < r.length) (_ : i < r'.length),
      (∃ heat, 0 ≤ heat ∧ r[i] heatingGas = fin (heat / mendedOffice.heating.efficiency) ∧ r'[i] heatingGas = fin (heat / 3)) ∨
        (r[i] heatingGas = nan ∧ r'[i] heatingGas = nan) := by
  obtain ⟨m, r, hr⟩ := Sources.run mended_timetable chicagoYear
  obtain ⟨m', r', hr'⟩ := Sources.run (x := withBoiler mendedOffice 3) mended_timetable chicagoYear
  obtain ⟨h1, h2, h3⟩ := C25_boiler mended_physical mended_systems mended_timetable (suitable_overhead someYear_suitable.lat) (by norm_num) hr hr'
  exact ⟨m, r, m', r', hr, hr', h1, h2, fun i hi hi' => (h3 i hi hi').2 _ (by simp)⟩

/-- the hypotheses of `C25_chiller` are met: a chiller of 4.5 -/
example : ∃ m r m' r', Hourly.simulate false (fresh mendedOffice chicagoYear) = some (m, r) ∧
    Hourly.simulate false (fresh (withChiller mendedOffice 4.5) chicagoYear) = some (m', r') ∧ r.length = 8760 ∧ r'.length = 8760 ∧
    ∀ (i : ℕ) (_ : i < r.length) (_ : i < r'.length),
      (∃ cold, 0 ≤ cold ∧ r[i] coolingElectricity = fin (cold / mendedOffice.cooling.cop) ∧ r'[i] coolingElectricity = fin (cold / 4.5)) ∨
        (r[i] coolingElectricity = nan ∧ r'[i] coolingElectricity = nan) := by
  obtain ⟨m, r, hr⟩ := Sources.run mended_timetable chicagoYear
  obtain ⟨m', r', hr'⟩ := Sources.run (x := withChiller mendedOffice 4.5) mended_timetable chicagoYear
  obtain ⟨h1, h2, h3⟩ := C25_chiller mended_physical mended_systems mended_timetable (suitable_overhead someYear_suitable.lat) (by norm_num) hr hr'
  exact ⟨m, r, m', r', hr, hr', h1, h2, fun i hi hi' => (h3 i hi hi').2⟩

/-- the hypotheses of `C76_monthly_boiler` are met -/
example (junk : Params Dbl) : ∃ out out' a,
    main standard Numerals.print (twoFiles mended someYear) junk ⟨"SmallOffice_v2.ism".toList, none, false, false, false, none⟩
      = .returns [.runMonthly] out ∧
    main standard Numerals.print (twoFiles ("heatingsystemefficiency = 3\n".toList ++ mended) someYear) junk
      ⟨"SmallOffice_v2.ism".toList, none, false, false, false, none⟩ = .returns [.runMonthly] out' ∧
    Averaged chicagoYear a ∧ SameTable [0, 9] out out' ∧
    ∀ m : Fin 12, ∀ k ∈ ([0, 9] : List (Fin 13)), (0 ≤ monthHeat { mendedOffice with weather := a } m → CellAtMost m k out' out) ∧
      (monthHeat { mendedOffice with weather := a } m ≤ 0 → CellAtMost m k out out') := by
  obtain ⟨file', hr, he, hg⟩ := mended_ready.line betterBoiler_fine
  exact C76_monthly_boiler (mended_ready.inputs false false false none) (hr.inputs false false false none) ⟨rfl, rfl, rfl, rfl⟩
    ⟨rfl, rfl, rfl, rfl⟩ mended_describes (described_boiler mended_describes he hg) (by norm_num [mendedOffice]) mended_shading
    someYear_complete someYear_suitable (fun _ ha => mended_ordinary ha) junk junk

/-- the hypotheses of `C76_monthly_chiller` are met -/
example (junk : Params Dbl) : ∃ out out' a,
    main standard Numerals.print (twoFiles mended someYear) junk ⟨"SmallOffice_v2.ism".toList, none, false, false, false, none⟩
      = .returns [.runMonthly] out ∧
    main standard Numerals.print (twoFiles ("coolingsystemcop = 4.5\n".toList ++ mended) someYear) junk
      ⟨"SmallOffice_v2.ism".toList, none, false, false, false, none⟩ = .returns [.runMonthly] out' ∧
    Averaged chicagoYear a ∧ SameTable [1, 10] out out' ∧
    ∀ m : Fin 12, ∀ k ∈ ([1, 10] : List (Fin 13)), (0 ≤ monthCold { mendedOffice with weather := a } m → CellAtMost m k out' out) ∧
      (monthCold { mendedOffice with weather := a } m ≤ 0 → CellAtMost m k out out') := by
  obtain ⟨file', hr, he, hg⟩ := mended_ready.line betterChiller_fine
  exact C76_monthly_chiller (mended_ready.inputs false false false none) (hr.inputs false false false none) ⟨rfl, rfl, rfl, rfl⟩
    ⟨rfl, rfl, rfl, rfl⟩ mended_describes (described_chiller mended_describes he hg) (by norm_num [mendedOffice]) (by norm_num [mendedOffice]) mended_shading
    someYear_complete someYear_suitable (fun _ ha => mended_ordinary ha) junk junk

end ISO.Props
