import Verif.Props.WholeYear
import Verif.Props.EndUsesCases
import Verif.Props.Response

/-! # C72: the example office in a windy place meets the hypotheses -/

namespace ISO.Props
open ISO ISO.Spec ISO.Hourly ISO.Epw CNum Dbl

/-- a year in which some hour needs heating has numbers for results -/
theorem demand_course {x : Sim ℝ} (hx : Physical x) (hs : Systems x) {w : Weather ℝ} (hz : NotOverhead w) {win : Window}
    (hw : window (x.map fin).pop = some win) {power : ℕ → ℝ}
    (hq : ∀ i < 8760, ∃ q, (rawResults (x.map fin) (freshRatios (x.map fin).bldg) win (w.map fin))[i]? = some q ∧
        q.Qneed_ht = fin (max 0 (power i)) ∧ q.Qneed_cl = fin (max 0 (-power i)))
    {i : ℕ} (hi : i < 8760) (hpos : 0 < power i) :
    ∃ m r heat cool, simulate false (fresh x w) = some (m, r) ∧ Course r heat cool := by
  have hr := simulate_of_window (m := fresh x w) hw
  obtain ⟨q, q1, q2, -⟩ := hq i hi
  have hne : q.Qneed_ht ≠ fin 0 := by
    rw [q2, max_eq_right hpos.le]
    intro h; exact hpos.ne' (Dbl.fin.inj h)
  have hf := C26_finite hx hs hz hr hw ⟨q, List.mem_of_getElem? q1, .inl hne⟩
  have hlen : (endUses (fresh x w).sim (rawResults (fresh x w).sim (pushAll (fresh x w).sim.bldg (fresh x w).pushed).ratios win
      (fresh x w).weather)).length = 8760 := by rw [endUses_length, rawResults_length]
  generalize endUses (fresh x w).sim (rawResults (fresh x w).sim (pushAll (fresh x w).sim.bldg (fresh x w).pushed).ratios win
      (fresh x w).weather) = r at hr hf hlen
  have : ∀ i : Fin 8760, ∃ a b, ∃ h : i.1 < r.length, r[i.1] 0 + r[i.1] 9 = fin a ∧ r[i.1] 1 = fin b := by
    intro i
    have h : i.1 < r.length := by rw [hlen]; exact i.2
    obtain ⟨a, ha⟩ := hf r[i.1] (List.getElem_mem h) 0
    obtain ⟨b, hb⟩ := hf r[i.1] (List.getElem_mem h) 9
    obtain ⟨c, hc⟩ := hf r[i.1] (List.getElem_mem h) 1
    exact ⟨a + b, c, h, by rw [ha, hb]; rfl, hc⟩
  choose heat cool h using this
  exact ⟨_, r, heat, cool, hr, h⟩

/-- a made-up year in a windy Chicago: 10 degrees by day, 0 by night, 10 m/s wind, and radiation by day while the sun is up -/
noncomputable def windyWeather : Weather ℝ where
  latitude := 41.98
  longitude := -87.92
  timezone := -6
  data := fun c i =>
    if c = DBT then (if 6 ≤ i.1 % 24 ∧ i.1 % 24 ≤ 18 then 10 else 0)
    else if c = WSPD then 10
    else if c = EB ∨ c = ED ∨ c = EGH then
      (if (6 ≤ i.1 % 24 ∧ i.1 % 24 ≤ 18) ∧ 0 ≤ Spec.Sun.up (SunLemmas.place someWeather) (i.1 / 24 : ℕ) (i.1 % 24 : ℕ) then 200 else 0)
    else 50

theorem windy_overhead : NotOverhead windyWeather := notOverhead_of_lat rfl

theorem windy_radiation (i : Fin 8760) : 0 ≤ windyWeather.data EB i ∧ 0 ≤ windyWeather.data ED i ∧ 0 ≤ windyWeather.data EGH i ∧
    (0 ≤ Spec.Sun.up (SunLemmas.place windyWeather) (i.1 / 24 : ℕ) (i.1 % 24 : ℕ) ∨
      (windyWeather.data EB i = 0 ∧ windyWeather.data ED i = 0)) := by
  have e : SunLemmas.place windyWeather = SunLemmas.place someWeather := rfl
  rw [e]
  by_cases h : (6 ≤ i.1 % 24 ∧ i.1 % 24 ≤ 18) ∧ 0 ≤ Spec.Sun.up (SunLemmas.place someWeather) (i.1 / 24 : ℕ) (i.1 % 24 : ℕ)
  · have : ∀ c, c = EB ∨ c = ED ∨ c = EGH → windyWeather.data c i = 200 := by
      intro c hc
      rcases hc with rfl | rfl | rfl <;> simp only [windyWeather, EB, ED, EGH, DBT, WSPD] <;> rw [if_neg (by decide), if_neg (by decide), if_pos (by decide), if_pos h]
    rw [this EB (.inl rfl), this ED (.inr (.inl rfl)), this EGH (.inr (.inr rfl))]
    exact ⟨by norm_num, by norm_num, by norm_num, .inl h.2⟩
  · have : ∀ c, c = EB ∨ c = ED ∨ c = EGH → windyWeather.data c i = 0 := by
      intro c hc
      rcases hc with rfl | rfl | rfl <;> simp only [windyWeather, EB, ED, EGH, DBT, WSPD] <;> rw [if_neg (by decide), if_neg (by decide), if_pos (by decide), if_neg h]
    rw [this EB (.inl rfl), this ED (.inr (.inl rfl)), this EGH (.inr (.inr rfl))]
    exact ⟨le_rfl, le_rfl, le_rfl, .inr ⟨rfl, rfl⟩⟩

theorem wind_power : (546:ℝ) ^ (0.667:ℝ) * 0.0146 ≤ 0.0769 * (75:ℝ) ^ (0.667:ℝ) := by
  have e : (546:ℝ) = 75 * 7.28 := by norm_num
  have h1 : (7.28:ℝ) ^ (0.667:ℝ) ≤ 5.2 := by
    have : (7.28:ℝ) ^ (0.667:ℝ) ≤ 7.28 ^ (0.75:ℝ) := Real.rpow_le_rpow_of_exponent_le (by norm_num) (by norm_num)
    refine this.trans ?_
    have k : ((7.28:ℝ) ^ (0.75:ℝ)) ^ 4 = 7.28 ^ 3 := by
      rw [← Real.rpow_natCast, ← Real.rpow_mul (by norm_num), ← Real.rpow_natCast]; norm_num
    refine le_of_pow_le_pow_left₀ (n := 4) (by norm_num) (by norm_num) ?_
    rw [k]; norm_num
  rw [e, Real.mul_rpow (by norm_num) (by norm_num)]
  have : 0 ≤ (75:ℝ) ^ (0.667:ℝ) := by positivity
  norm_num at *
  nlinarith

/-- buildings with the envelope of the small office and set-points between 20 and 28 degrees are wind driven in the windy place -/
theorem windy_driven {x : Sim ℝ} (hv : x.ventilation = smallOffice.ventilation)
    (h1 : 20 ≤ x.heating.temperatureSetPointOccupied) (h2 : 20 ≤ x.heating.temperatureSetPointUnoccupied)
    (h3 : x.cooling.temperatureSetPointOccupied ≤ 28) (h4 : x.cooling.temperatureSetPointUnoccupied ≤ 28) :
    WindDriven x windyWeather 20 28 := by
  refine ⟨.inl (by rw [hv]; rfl), ?_, le_rfl, by norm_num, h1, h2, h3, h4⟩
  intro i t t1 t2
  have hl : 0 ≤ leakageAt4Pa x := le_max_of_le_left (by norm_num)
  have w1 : windyWeather.data WSPD i = 10 := by simp [windyWeather, DBT, WSPD]
  have w2 : 0 ≤ windyWeather.data DBT i ∧ windyWeather.data DBT i ≤ 10 := by
    simp only [windyWeather, if_true]; split_ifs <;> norm_num
  unfold stackFlow windFlow
  rw [hv, w1]
  have v1 : smallOffice.ventilation.hzone = 39 := rfl
  have v2 : smallOffice.ventilation.dCp = 0.75 := rfl
  rw [v1, v2]
  have a1 : |windyWeather.data DBT i - t| ≤ 28 := by rw [abs_le]; constructor <;> linarith [w2.1, w2.2]
  have a2 : 0.5 * max 0.1 39 * max 0.00001 |windyWeather.data DBT i - t| ≤ (546:ℝ) := by
    have : max 0.00001 |windyWeather.data DBT i - t| ≤ 28 := max_le (by norm_num) a1
    rw [max_eq_right (by norm_num)]
    linarith
  have a3 : (0:ℝ) ≤ 0.5 * max 0.1 39 * max 0.00001 |windyWeather.data DBT i - t| := by
    have : (0:ℝ) ≤ max 0.1 39 := le_max_of_le_right (by norm_num)
    have : 0 ≤ max 0.00001 |windyWeather.data DBT i - t| := le_max_of_le_right (abs_nonneg _)
    positivity
  have a4 := Real.rpow_le_rpow a3 a2 (by norm_num : (0:ℝ) ≤ 0.667)
  have e : (0.75 * 10 ^ 2 : ℝ) = 75 := by norm_num
  rw [e]
  have := wind_power
  have h5 : leakageAt4Pa x * ((0.5 * max 0.1 39 * max 0.00001 |windyWeather.data DBT i - t|) ^ (0.667:ℝ) * 0.0146) ≤
      leakageAt4Pa x * (0.0769 * 75 ^ (0.667:ℝ)) :=
    mul_le_mul_of_nonneg_left ((mul_le_mul_of_nonneg_right a4 (by norm_num)).trans this) hl
  linarith

theorem office_plain : PlainSystems smallOffice := by constructor <;> norm_num [smallOffice]

theorem windy_office : WindDriven smallOffice windyWeather 20 28 :=
  windy_driven rfl (by norm_num [smallOffice]) (by norm_num [smallOffice]) (by norm_num [smallOffice]) (by norm_num [smallOffice])

/-- the year of the small office in the windy place -/
theorem windy_year : ∃ win, window (smallOffice.map fin).pop = some win ∧ ∃ mass air surface power : ℕ → ℝ, mass 0 = 20 ∧
    Run 8760 (windNetwork smallOffice win windyWeather) (fun i => (hourAt smallOffice win windyWeather i).1.heatingSetpoint)
      (fun i => (hourAt smallOffice win windyWeather i).1.coolingSetpoint) mass air surface power ∧
    (∃ i < 8760, 0 < power i) ∧ ∃ m r heat cool, simulate false (fresh smallOffice windyWeather) = some (m, r) ∧ Course r heat cool := by
  have z : windyWeather.data EB 0 = 0 ∧ windyWeather.data ED 0 = 0 ∧ windyWeather.data EGH 0 = 0 ∧ windyWeather.data DBT 0 = 0 := by
    simp [windyWeather, EB, ED, EGH, DBT, WSPD]
  obtain ⟨win, hw, q, hq, h⟩ := office_heats_in windy_overhead z.2.2.2 z.1 z.2.1 z.2.2.1
  obtain ⟨mass, air, surface, power, m0, run, hp⟩ := year_run smallOffice_physical windy_overhead windy_office win
  have hlen := rawResults_length (smallOffice.map fin) (freshRatios (smallOffice.map fin).bldg) win (windyWeather.map fin)
  have : ∃ i < 8760, 0 < power i := by
    obtain ⟨i, hi, e⟩ := List.getElem_of_mem hq
    rw [hlen] at hi
    obtain ⟨q', e1, e2, -⟩ := hp i hi
    rw [List.getElem?_eq_getElem (by rw [hlen]; exact hi), e] at e1
    obtain rfl := Option.some.inj e1
    refine ⟨i, hi, ?_⟩
    by_contra hn
    rw [max_eq_left (by linarith)] at e2
    exact h e2
  obtain ⟨i, hi, hpos⟩ := this
  exact ⟨win, hw, mass, air, surface, power, m0, run, ⟨i, hi, hpos⟩,
    demand_course smallOffice_physical smallOffice_systems windy_overhead hw hp hi hpos⟩

/-- the small office, heated to 26 degrees -/
noncomputable def warmOffice : Sim ℝ :=
  { smallOffice with heating := { smallOffice.heating with temperatureSetPointOccupied := 26, temperatureSetPointUnoccupied := 26 } }

/-- the small office, cooled to 27 degrees -/
noncomputable def coolOffice : Sim ℝ :=
  { smallOffice with cooling := { smallOffice.cooling with temperatureSetPointOccupied := 27, temperatureSetPointUnoccupied := 27 } }

/-- the small office with appliances that give off less -/
noncomputable def leanOffice : Sim ℝ :=
  { smallOffice with building := { smallOffice.building with electricApplianceHeatGainOccupied := 2, electricApplianceHeatGainUnoccupied := 1 } }

theorem warmOffice_physical : Physical warmOffice :=
  { smallOffice_physical with setOccupied := by norm_num [warmOffice, smallOffice], setUnoccupied := by norm_num [warmOffice, smallOffice] }

theorem coolOffice_physical : Physical coolOffice :=
  { smallOffice_physical with setOccupied := by norm_num [coolOffice, smallOffice], setUnoccupied := by norm_num [coolOffice, smallOffice] }

/-- the hypotheses of `C72_heating` hold for the office heated to 26 and to 24 degrees, for which there are results -/
example : Physical warmOffice ∧ Physical (takeSetPoints warmOffice smallOffice) ∧ PlainSystems warmOffice ∧ HeavyEnough warmOffice ∧
    NotOverhead windyWeather ∧ WindDriven warmOffice windyWeather 20 28 ∧ WindDriven (takeSetPoints warmOffice smallOffice) windyWeather 20 28 ∧
    smallOffice.heating.temperatureSetPointOccupied < warmOffice.heating.temperatureSetPointOccupied ∧
    smallOffice.heating.temperatureSetPointUnoccupied < warmOffice.heating.temperatureSetPointUnoccupied ∧
    smallOffice.cooling.temperatureSetPointOccupied = warmOffice.cooling.temperatureSetPointOccupied ∧
    smallOffice.cooling.temperatureSetPointUnoccupied = warmOffice.cooling.temperatureSetPointUnoccupied ∧
    ∃ m r heat cool m' r' heat' cool', simulate false (fresh warmOffice windyWeather) = some (m, r) ∧ Course r heat cool ∧
      simulate false (fresh (takeSetPoints warmOffice smallOffice) windyWeather) = some (m', r') ∧ Course r' heat' cool' := by
  have hd : WindDriven warmOffice windyWeather 20 28 := windy_driven rfl (by norm_num [warmOffice]) (by norm_num [warmOffice])
    (by norm_num [warmOffice, smallOffice]) (by norm_num [warmOffice, smallOffice])
  have hs : Systems warmOffice := by constructor <;> norm_num [warmOffice, smallOffice]
  have l1 : smallOffice.heating.temperatureSetPointOccupied < warmOffice.heating.temperatureSetPointOccupied := by
    norm_num [warmOffice, smallOffice]
  have l2 : smallOffice.heating.temperatureSetPointUnoccupied < warmOffice.heating.temperatureSetPointUnoccupied := by
    norm_num [warmOffice, smallOffice]
  obtain ⟨win, hw, mass', air', surface', power', m0', run', ⟨i, hi, hpos⟩, m', r', heat', cool', hr', hc'⟩ := windy_year
  obtain ⟨mass, air, surface, power, m0, run, hp⟩ := year_run warmOffice_physical windy_overhead hd win
  obtain ⟨-, k⟩ := heating_powers (x := warmOffice) (y := smallOffice) warmOffice_physical smallOffice_shares.2 l1.le l2.le rfl rfl win
    m0 m0' run run'
  have : ∃ j < 8760, 0 < power j := by
    by_contra hn
    push Not at hn
    have z : ∑ i ∈ Finset.range 8760, max 0 (power i) = 0 :=
      Finset.sum_eq_zero fun j hj => max_eq_left (hn j (Finset.mem_range.mp hj))
    rw [z] at k
    have := Finset.single_le_sum (f := fun i => max 0 (power' i)) (s := Finset.range 8760) (fun j _ => le_max_left _ _) (Finset.mem_range.mpr hi)
    have : max 0 (power' i) ≤ 0 := this.trans k
    rw [max_eq_right hpos.le] at this
    linarith
  obtain ⟨j, hj, hjpos⟩ := this
  obtain ⟨m, r, heat, cool, hr, hc⟩ := demand_course warmOffice_physical hs windy_overhead hw hp hj hjpos
  exact ⟨warmOffice_physical, smallOffice_physical, ⟨office_plain.1, office_plain.2, office_plain.3, office_plain.4, office_plain.5⟩,
    smallOffice_shares.2, windy_overhead, hd, windy_office, l1, l2, rfl, rfl, m, r, heat, cool, m', r', heat', cool', hr, hc, hr', hc'⟩

/-- the hypotheses of `C72_cooling` hold for the office cooled to 27 and to 28 degrees, for which there are results -/
example : Physical coolOffice ∧ Physical (takeSetPoints coolOffice smallOffice) ∧ PlainSystems coolOffice ∧ HeavyEnough coolOffice ∧
    NotOverhead windyWeather ∧ WindDriven coolOffice windyWeather 20 28 ∧ WindDriven (takeSetPoints coolOffice smallOffice) windyWeather 20 28 ∧
    smallOffice.heating.temperatureSetPointOccupied = coolOffice.heating.temperatureSetPointOccupied ∧
    smallOffice.heating.temperatureSetPointUnoccupied = coolOffice.heating.temperatureSetPointUnoccupied ∧
    coolOffice.cooling.temperatureSetPointOccupied < smallOffice.cooling.temperatureSetPointOccupied ∧
    coolOffice.cooling.temperatureSetPointUnoccupied < smallOffice.cooling.temperatureSetPointUnoccupied ∧
    ∃ m r heat cool m' r' heat' cool', simulate false (fresh coolOffice windyWeather) = some (m, r) ∧ Course r heat cool ∧
      simulate false (fresh (takeSetPoints coolOffice smallOffice) windyWeather) = some (m', r') ∧ Course r' heat' cool' := by
  have hd : WindDriven coolOffice windyWeather 20 28 := windy_driven rfl (by norm_num [coolOffice, smallOffice])
    (by norm_num [coolOffice, smallOffice]) (by norm_num [coolOffice]) (by norm_num [coolOffice])
  have hs : Systems coolOffice := by constructor <;> norm_num [coolOffice, smallOffice]
  have l1 : coolOffice.cooling.temperatureSetPointOccupied < smallOffice.cooling.temperatureSetPointOccupied := by
    norm_num [coolOffice, smallOffice]
  have l2 : coolOffice.cooling.temperatureSetPointUnoccupied < smallOffice.cooling.temperatureSetPointUnoccupied := by
    norm_num [coolOffice, smallOffice]
  obtain ⟨win, hw, mass', air', surface', power', m0', run', ⟨i, hi, hpos⟩, m', r', heat', cool', hr', hc'⟩ := windy_year
  obtain ⟨mass, air, surface, power, m0, run, hp⟩ := year_run coolOffice_physical windy_overhead hd win
  obtain ⟨k, -⟩ := cooling_powers (x := coolOffice) (y := smallOffice) coolOffice_physical smallOffice_shares.2 rfl rfl l1.le l2.le win
    m0 m0' run run'
  have hjpos : 0 < power i := by
    have := k i hi
    rw [max_eq_right hpos.le] at this
    by_contra hn
    rw [max_eq_left (by linarith)] at this
    linarith
  obtain ⟨m, r, heat, cool, hr, hc⟩ := demand_course coolOffice_physical hs windy_overhead hw hp hi hjpos
  exact ⟨coolOffice_physical, smallOffice_physical, ⟨office_plain.1, office_plain.2, office_plain.3, office_plain.4, office_plain.5⟩,
    smallOffice_shares.2, windy_overhead, hd, windy_office, rfl, rfl, l1, l2, m, r, heat, cool, m', r', heat', cool', hr, hc, hr', hc'⟩

/-- the hypotheses of `C72_appliances` hold for the office with fewer and with more appliances, for which there are results -/
example : Physical leanOffice ∧ PlainSystems leanOffice ∧ HeavyEnough leanOffice ∧ 0 ≤ leanOffice.simSettings.phiIntFractionToAirNode ∧
    leanOffice.simSettings.phiIntFractionToAirNode ≤ 1 ∧
    massArea leanOffice + windowConductance leanOffice / massCoefficient leanOffice ≤ leanOffice.bldg.totalAreaPerFloorArea ∧
    NotOverhead windyWeather ∧ WindDriven leanOffice windyWeather 20 28 ∧
    leanOffice.building.electricApplianceHeatGainOccupied < smallOffice.building.electricApplianceHeatGainOccupied ∧
    leanOffice.building.electricApplianceHeatGainUnoccupied < smallOffice.building.electricApplianceHeatGainUnoccupied ∧
    ∃ m r heat cool m' r' heat' cool', simulate false (fresh leanOffice windyWeather) = some (m, r) ∧ Course r heat cool ∧
      simulate false (fresh (takeAppliances leanOffice smallOffice) windyWeather) = some (m', r') ∧ Course r' heat' cool' := by
  have px : Physical leanOffice := physical_appliances smallOffice_physical leanOffice
  have hd : WindDriven leanOffice windyWeather 20 28 :=
    ⟨windy_office.1, windy_office.2, windy_office.3, windy_office.4, windy_office.5, windy_office.6, windy_office.7, windy_office.8⟩
  have hs : Systems leanOffice := by constructor <;> norm_num [leanOffice, smallOffice]
  have l1 : leanOffice.building.electricApplianceHeatGainOccupied < smallOffice.building.electricApplianceHeatGainOccupied := by
    norm_num [leanOffice, smallOffice]
  have l2 : leanOffice.building.electricApplianceHeatGainUnoccupied < smallOffice.building.electricApplianceHeatGainUnoccupied := by
    norm_num [leanOffice, smallOffice]
  have s1 : 0 ≤ leanOffice.simSettings.phiIntFractionToAirNode ∧ leanOffice.simSettings.phiIntFractionToAirNode ≤ 1 := by
    constructor <;> norm_num [leanOffice, smallOffice]
  obtain ⟨win, hw, mass', air', surface', power', m0', run', ⟨i, hi, hpos⟩, m', r', heat', cool', hr', hc'⟩ := windy_year
  obtain ⟨mass, air, surface, power, m0, run, hp⟩ := year_run px windy_overhead hd win
  have k := appliances_powers (x := leanOffice) (y := smallOffice) px smallOffice_shares.2 s1.1 s1.2 smallOffice_shares.1 l1.le l2.le win
    m0 m0' run run'
  obtain ⟨m, r, heat, cool, hr, hc⟩ := demand_course px hs windy_overhead hw hp hi (lt_of_lt_of_le hpos (k i hi))
  exact ⟨px, ⟨office_plain.1, office_plain.2, office_plain.3, office_plain.4, office_plain.5⟩, smallOffice_shares.2, s1.1, s1.2,
    smallOffice_shares.1, windy_overhead, hd, l1, l2, m, r, heat, cool, m', r', heat', cool', hr, hc, hr', hc'⟩

/-- the hypotheses of `C72_sun` hold for the office without and with blinds, for which there are results -/
example : Physical smallOffice ∧ PlainSystems smallOffice ∧ HeavyEnough smallOffice ∧ BetterProtected smallOffice blinds ∧
    0 ≤ smallOffice.simSettings.phiSolFractionToAirNode ∧ smallOffice.simSettings.phiSolFractionToAirNode ≤ 1 ∧
    massArea smallOffice + windowConductance smallOffice / massCoefficient smallOffice ≤ smallOffice.bldg.totalAreaPerFloorArea ∧
    NotOverhead windyWeather ∧ WindDriven smallOffice windyWeather 20 28 ∧
    (∀ i, 0 ≤ windyWeather.data EB i ∧ 0 ≤ windyWeather.data ED i ∧ 0 ≤ windyWeather.data EGH i ∧
      (0 ≤ Spec.Sun.up (SunLemmas.place windyWeather) (i.1 / 24 : ℕ) (i.1 % 24 : ℕ) ∨
        (windyWeather.data EB i = 0 ∧ windyWeather.data ED i = 0))) ∧
    ∃ m r heat cool m' r' heat' cool', simulate false (fresh smallOffice windyWeather) = some (m, r) ∧ Course r heat cool ∧
      simulate false (fresh (takeSunProtection smallOffice blinds) windyWeather) = some (m', r') ∧ Course r' heat' cool' := by
  have b : BetterProtected smallOffice blinds := by
    refine ⟨fun i => le_rfl, fun i => ?_, fun i => ?_, fun i => ?_, ?_, ?_, ?_, ?_, le_rfl⟩
    · show smallOffice.bldg.windowNormalIncidenceSolarEnergyTransmittance i / 2 ≤ _
      have := (smallOffice_glass i).1
      linarith
    · show smallOffice.bldg.windowNormalIncidenceSolarEnergyTransmittance i / 4 ≤ smallOffice.bldg.windowShadingCorrectionFactor i
      fin_cases i <;> norm_num [smallOffice, nineOf]
    · show smallOffice.bldg.windowNormalIncidenceSolarEnergyTransmittance i / 4 ≤ smallOffice.bldg.windowNormalIncidenceSolarEnergyTransmittance i / 2
      have := (smallOffice_glass i).1
      linarith
    all_goals norm_num [blinds, smallOffice]
  have s1 : 0 ≤ smallOffice.simSettings.phiSolFractionToAirNode ∧ smallOffice.simSettings.phiSolFractionToAirNode ≤ 1 := by
    constructor <;> norm_num [smallOffice]
  have py : Physical (takeSunProtection smallOffice blinds) := physical_protected smallOffice_physical b.positive
  have hd : WindDriven (takeSunProtection smallOffice blinds) windyWeather 20 28 :=
    ⟨windy_office.1, windy_office.2, windy_office.3, windy_office.4, windy_office.5, windy_office.6, windy_office.7, windy_office.8⟩
  have hs : Systems (takeSunProtection smallOffice blinds) := by constructor <;> norm_num [takeSunProtection, smallOffice]
  obtain ⟨win, hw, mass, air, surface, power, m0, run, ⟨i, hi, hpos⟩, m, r, heat, cool, hr, hc⟩ := windy_year
  obtain ⟨mass', air', surface', power', m0', run', hp⟩ := year_run py windy_overhead hd win
  have k := sun_powers smallOffice_physical smallOffice_shares.2 b s1.1 s1.2 smallOffice_shares.1 win windy_overhead windy_radiation
    m0 m0' run run'
  obtain ⟨m', r', heat', cool', hr', hc'⟩ := demand_course py hs windy_overhead hw hp hi (lt_of_lt_of_le hpos (k i hi))
  exact ⟨smallOffice_physical, office_plain, smallOffice_shares.2, b, s1.1, s1.2, smallOffice_shares.1, windy_overhead, windy_office,
    windy_radiation, m, r, heat, cool, m', r', heat', cool', hr, hc, hr', hc'⟩

end ISO.Props
