import Verif.Props.PrintedWarmthCases
import Verif.Props.InsulationYear

/-! # C79: insulation, airtightness and heat recovery in the printed tables of the hourly model -/

namespace ISO.Props
open ISO ISO.Numerals ISO.Properties ISO.Spec ISO.Spec.Text ISO.Spec.Whole ISO.User ISO.CommandLine ISO.Epw ISO.Lemmas Dbl
open ISO.Spec.EndToEnd (Describes Inputs Timetable)
open EndToEnd
open ISO.Spec.PrintedOrder ISO.Lemmas.Described ISO.Lemmas.Editing PrintedOrderCases PrintedWarmthCases

variable {fs fs' : FileSystem} {o o' : Options} {file file' : Properties.Store} {text : Str}

/-- **C79, printed.** If two building files describe the same building, the second with lower U-values, fewer air changes at 50 Pa or better heat
recovery, then for a cold year the tables of the hourly simulation, by month or by hour, show for the second no higher number for heating and no lower
one for cooling in any line. -/
theorem C79_printed (hi : Inputs fs o file text) (hi' : Inputs fs' o' file' text) (byMonth : Bool)
    (ho : o.monthly = false ∧ o.hourlyByMonth = byMonth ∧ o.hourlyByHour = !byMonth ∧ o.compare = none)
    (ho' : o'.monthly = false ∧ o'.hourlyByMonth = byMonth ∧ o'.hourlyByHour = !byMonth ∧ o'.compare = none)
    {x y : Sim ℝ} (hx : Describes file x) (hx' : Describes file' (takeInsulation x y)) (hb : BetterInsulated x y)
    (hp : Physical x) (hs : Systems x) (ht : Timetable x.pop) (ha : Auxiliary x) (hg : OnlyGains x) (hw : x.heating.hotcoldWasteFactor = 0)
    (he : 0 < x.heating.efficiency ∧ 0 < x.cooling.cop) (hm : HeavyEnough x) (hh : 0 ≤ x.bldg.buildingHeight)
    {lat lon zone : ℝ} {v : Fin 7 → Fin 8760 → ℝ} (hy : YearFile text lat lon zone v) (hlat : 28.1 ≤ |lat| ∧ |lat| ≤ 90) (hz : |zone| ≤ 24)
    (hrad : DaylightOnly (Spec.EndToEnd.yearOf lat lon zone v))
    (hsun : y.bldg.wallUniform = x.bldg.wallUniform ∨ ∀ i, v Spec.WeatherEditing.directRadiation i = 0 ∧
      v Spec.WeatherEditing.diffuseRadiation i = 0 ∧ v Spec.WeatherEditing.globalRadiation i = 0)
    {low high : ℝ} (hd : WindDriven x (Spec.EndToEnd.yearOf lat lon zone v) low high)
    {lowest level surface : ℝ} (hcold : ColdYear x (Spec.EndToEnd.yearOf lat lon zone v) lowest level surface) (junk junk' : Params Dbl) :
    ∃ out out', main standard Numerals.print fs junk o = .returns [.runHourly byMonth] out ∧
      main standard Numerals.print fs' junk' o' = .returns [.runHourly byMonth] out' ∧
      ∀ i < (if byMonth then 12 else 8760), CellNotAbove i 0 out' out ∧ CellNotAbove i 9 out' out ∧ CellNotAbove i 1 out out' :=
  PrintedOrder.warms_printed hi hi' byMonth ho ho' hx hx' hp hs ht (physical_insulated hp hb) { hs with } ht hy hlat hz hy hlat hz junk junk' rfl
    fun _ _ _ _ _ _ _ _ e1 e2 c1 c2 =>
      C79_year hp ha hg ⟨he.1, he.2, hs.lossHeating, hs.lossCooling, hw⟩ hm hb hh (HourlyWhole.overhead_iff (suitable_overhead hlat)) hrad hsun hd hcold
        e1 e2 c1 c2

namespace PrintedInsulation

/-- windy days: freezing, 8 degrees and sun at noon -/
def frostDays : Str := daysFile (windyHour "8" "150" "100" "85") (windyHour "0" "0" "0" "0")

/-- the values of these days -/
noncomputable def frostValues (c : Fin 7) (r : Fin 8760) : ℝ :=
  if r.1 % 24 = 12 then windyValues 8 150 100 85 c else windyValues 0 0 0 0 c

theorem frostDays_complete : YearFile frostDays 41.98 (-87.92) (-6) frostValues :=
  daysFile_complete (by decide +kernel) (by decide +kernel) (by decide) (by decide) (by decide +kernel) (by decide +kernel)
    (windyHour_gives (t := 8) (g := 150) (d := 100) (f := 85) (by decide +kernel) (by decide +kernel) (by decide +kernel) (by decide +kernel)
      (by norm_num) (by norm_num) (by norm_num) (by norm_num) (by norm_num [abs_le]) (by norm_num [abs_le]) (by norm_num [abs_le]) (by norm_num [abs_le]))
    (windyHour_gives (t := 0) (g := 0) (d := 0) (f := 0) (by decide +kernel) (by decide +kernel) (by decide +kernel) (by decide +kernel)
      (by norm_num) (by norm_num) (by norm_num) (by norm_num) (by norm_num) (by norm_num) (by norm_num) (by norm_num))

theorem frost_driven : WindDriven mendedOffice (Spec.EndToEnd.yearOf 41.98 (-87.92) (-6) frostValues) 20 28 := by
  refine ⟨.inl rfl, ?_, le_rfl, by norm_num, by norm_num [mendedOffice], by norm_num [mendedOffice], by norm_num [mendedOffice],
    by norm_num [mendedOffice]⟩
  intro i s s1 s2
  show stackFlow mendedOffice (frostValues 0 i) s ≤ windFlow mendedOffice (frostValues 6 i)
  unfold frostValues
  split_ifs
  · exact windy_flow (t := 8) (by norm_num) (by norm_num) s1 s2
  · exact windy_flow (t := 0) (by norm_num) (by norm_num) s1 s2

theorem frost_daylight : DaylightOnly (Spec.EndToEnd.yearOf 41.98 (-87.92) (-6) frostValues) := by
  intro i
  show 0 ≤ frostValues 4 i ∧ 0 ≤ frostValues 5 i ∧ 0 ≤ frostValues 3 i ∧ (_ ∨ (frostValues 4 i = 0 ∧ frostValues 5 i = 0))
  by_cases h : i.1 % 24 = 12
  · have e : ∀ c, frostValues c i = windyValues 8 150 100 85 c := fun c => if_pos h
    rw [e, e, e]
    refine ⟨show (0:ℝ) ≤ 100 by norm_num, show (0:ℝ) ≤ 85 by norm_num, show (0:ℝ) ≤ 150 by norm_num, .inl ?_⟩
    rw [h]
    exact noon_up _ _
  · have e : ∀ c, frostValues c i = windyValues 0 0 0 0 c := fun c => if_neg h
    rw [e, e, e]
    exact ⟨le_refl (0:ℝ), le_refl (0:ℝ), le_refl (0:ℝ), .inr ⟨rfl, rfl⟩⟩

theorem mended_auxiliary : Auxiliary mendedOffice := by
  constructor
  case transmittance => intro i; norm_num [mendedOffice]
  case factor => unfold lightingFactor; norm_num [mendedOffice]
  case daylit => unfold daylitFraction; norm_num [mendedOffice]
  all_goals norm_num [mendedOffice]

theorem mended_gains : OnlyGains mendedOffice := by
  constructor
  case absorption => intro i; fin_cases i <;> norm_num [mendedOffice, nineOf]
  case glass => intro i; fin_cases i <;> norm_num [mendedOffice, nineOf]
  case shaded => intro i; fin_cases i <;> norm_num [mendedOffice, nineOf]
  case surfaceShare => exact mended_shares.1
  all_goals norm_num [mendedOffice]

/-- with freezing air outside the mass of the office would stay above 8 degrees -/
theorem frost_cold : ColdYear mendedOffice (Spec.EndToEnd.yearOf 41.98 (-87.92) (-6) frostValues) 0 8 9.3 := by
  have hc : heatCapacity mendedOffice = (98010.0000000022 + 29707.0229928189 * (2 * 84.45 + 2 * 56.3 + 598.76) / 511.16) / 1000 := by
    simp only [heatCapacity, mendedOffice, Fin.sum_univ_succ, Fin.sum_univ_zero]
    norm_num [nineOf, Fin.succ]
  have hw : windowConductance mendedOffice = 2.653 * (20.65 + 2 * 11.16 + 16.74) / 511.16 := by
    simp only [windowConductance, mendedOffice, Fin.sum_univ_succ, Fin.sum_univ_zero]
    norm_num [nineOf, Fin.succ]
  have ho : wallConductance mendedOffice = (0.363 * (2 * 84.45 + 2 * 56.3) + 2.494 * 598.76) / 511.16 := by
    simp only [wallConductance, mendedOffice, Fin.sum_univ_succ, Fin.sum_univ_zero]
    norm_num [nineOf, Fin.succ]
  have hm : massArea mendedOffice = 2.5 := by
    unfold massArea
    rw [if_pos (by rw [hc]; norm_num)]
  have hk : massCoefficient mendedOffice = 9.1 := by simp only [massCoefficient, mendedOffice]; norm_num
  refine ⟨fun i => ?_, by norm_num, by norm_num [mendedOffice], by norm_num [mendedOffice], ?_, ?_⟩
  · show 0 ≤ frostValues 0 i ∧ frostValues 0 i ≤ 8
    unfold frostValues
    split_ifs
    · exact ⟨show (0:ℝ) ≤ 8 by norm_num, le_refl (8:ℝ)⟩
    · exact ⟨le_refl (0:ℝ), show (0:ℝ) ≤ 8 by norm_num⟩
  · rw [hm, hk, hw]
    norm_num [mendedOffice]
  · rw [hm, hk, ho]
    norm_num

end PrintedInsulation
open PrintedInsulation

/-- the hypotheses of `C79_printed` (and of `C79_year`) are met: heat recovery in a year of frost -/
example (junk : Params Dbl) (byMonth : Bool) : ∃ out out',
    main standard Numerals.print (twoFiles mended frostDays) junk ⟨"SmallOffice_v2.ism".toList, none, false, byMonth, !byMonth, none⟩
      = .returns [.runHourly byMonth] out ∧
    main standard Numerals.print (twoFiles ("heatrecovery = 0.8\n".toList ++ mended) frostDays) junk
      ⟨"SmallOffice_v2.ism".toList, none, false, byMonth, !byMonth, none⟩ = .returns [.runHourly byMonth] out' ∧
    ∀ i < (if byMonth then 12 else 8760), CellNotAbove i 0 out' out ∧ CellNotAbove i 9 out' out ∧ CellNotAbove i 1 out out' := by
  obtain ⟨file1, hr, he, hg⟩ := mended_ready.line recovery_fine
  have hd := described_recovery mended_describes he hg
  exact C79_printed (y := { mendedOffice with ventilation := { mendedOffice.ventilation with heatRecoveryEfficiency := ((4 / 5 : ℚ) : ℝ) } })
    (Ready_inputs mended_ready _ false byMonth (!byMonth) none) (Ready_inputs hr _ false byMonth (!byMonth) none) byMonth
    ⟨rfl, rfl, rfl, rfl⟩ ⟨rfl, rfl, rfl, rfl⟩ mended_describes hd
    ⟨mended_physical.wallU, fun _ => le_rfl, mended_physical.windowU, fun _ => le_rfl, le_rfl, by norm_num [mendedOffice]⟩ mended_physical
    mended_systems mended_timetable mended_auxiliary mended_gains rfl mended_efficient mended_shares.2 (by norm_num [mendedOffice]) frostDays_complete
    days_lat days_zone frost_daylight (.inl rfl) frost_driven frost_cold junk junk

end ISO.Props
