import Verif.Props.HourlyWhole
import Verif.Props.HourlyWholeCases
import Verif.Props.Auxiliary

/-! # C21, C22, C23, C50: what the results of the hourly simulation show

The properties of single hours in `Props/Thermostat`, `Props/Auxiliary` and `Props/HeatBalance`, in terms of the results alone. -/

namespace ISO.Props
open ISO ISO.Spec ISO.Hourly ISO.Epw CNum Dbl ISO.Spec.HourlyWhole

/-- the end use to which heating is booked -/
noncomputable abbrev heatingColumn (x : Sim ℝ) : Fin 13 := @ite _ (x.heating.energyType = 1) (Classical.propDecidable _) 0 9

namespace HourlyObservable

theorem factor_pos {loss waste share : ℝ} (h1 : 0 ≤ loss) (h2 : 0 ≤ waste) (h3 : 0.1 ≤ share) : 0 < 1 + loss + waste / share := by
  have : 0 < share := lt_of_lt_of_le (by norm_num) h3
  have := div_nonneg h2 this.le
  linarith

theorem heat_zero {x : Sim ℝ} (hs : Systems x) (power : ℕ → ℝ) (i : ℕ) : heatEnergy x power i = 0 ↔ power i ≤ 0 := by
  have hf := factor_pos hs.lossHeating hs.waste (le_max_right (heatYear power / (coolYear power + heatYear power)) 0.1)
  unfold heatEnergy delivered heatNeed
  rw [div_eq_zero_iff, mul_eq_zero, or_iff_left hs.efficiency, or_iff_left (by exact hf.ne')]
  constructor
  · intro h; rw [← h]; exact le_max_right _ _
  · exact fun h => max_eq_left h

theorem cool_zero {x : Sim ℝ} (hs : Systems x) (power : ℕ → ℝ) (i : ℕ) : coolEnergy x power i = 0 ↔ 0 ≤ power i := by
  have hf := factor_pos hs.lossCooling hs.waste (le_max_right (1 - heatShare (heatYear power) (coolYear power)) 0.1)
  unfold coolEnergy delivered coolNeed
  rw [div_eq_zero_iff, mul_eq_zero, or_iff_left hs.cop, or_iff_left (by exact hf.ne')]
  constructor
  · intro h
    have := le_max_right 0 (-power i)
    linarith
  · exact fun h => max_eq_left (by linarith)

theorem heat_nonneg {x : Sim ℝ} (hs : Systems x) (he : 0 < x.heating.efficiency) (power : ℕ → ℝ) (i : ℕ) : 0 ≤ heatEnergy x power i :=
  div_nonneg (mul_nonneg (le_max_left _ _) (factor_pos hs.lossHeating hs.waste (le_max_right _ 0.1)).le) he.le

theorem cool_nonneg {x : Sim ℝ} (hs : Systems x) (hc : 0 < x.cooling.cop) (power : ℕ → ℝ) (i : ℕ) : 0 ≤ coolEnergy x power i :=
  div_nonneg (mul_nonneg (le_max_left _ _) (factor_pos hs.lossCooling hs.waste (le_max_right _ 0.1)).le) hc.le

end HourlyObservable
open HourlyObservable

/-- what the columns for heating and cooling are -/
theorem HourlyObservable.columns {x : Sim ℝ} (hx : Physical x) (hs : Systems x) (h0 : 0 ≤ x.pop.hoursEnd) (d0 : 0 ≤ x.pop.daysEnd)
    {w : Weather ℝ} (hz : NeverOverhead w) {m' : Model Dbl} {r : List (EndUses Dbl)} (hr : simulate false (fresh x w) = some (m', r))
    {mass air surface power : ℕ → ℝ} (hE : Evolution x w mass air surface power) (i : Fin 8760) (h : i.1 < r.length) :
    ((∀ j < 8760, power j = 0) ∧ r[i.1] 1 = nan ∧ r[i.1] (heatingColumn x) = nan) ∨
    (r[i.1] 1 = fin (coolEnergy x power i / 1000) ∧ r[i.1] (heatingColumn x) = fin (heatEnergy x power i / 1000)) := by
  by_cases hd : ∀ j < 8760, power j = 0
  · left
    have e := (C73_no_demand hx hs h0 d0 hz hr hE hd).2 i h
    refine ⟨hd, by rw [e 1, if_pos (.inl rfl)], ?_⟩
    rw [e, if_pos]
    right
    unfold heatingColumn
    split_ifs <;> rfl
  · right
    have e := (C73_results hx hs h0 d0 hz hr hE (by push Not at hd; exact hd)).2 i h
    refine ⟨e 1, ?_⟩
    rw [e]
    unfold heatingColumn
    by_cases ht : x.heating.energyType = 1
    · rw [if_pos ht]; simp only [endUse, if_pos ht]
    · rw [if_neg ht]; simp only [endUse, if_neg ht]

/-- **C21, by the results.** In no hour is there energy for heating and energy for cooling, and neither is ever negative.  (In a year
without any demand both are not numbers.) -/
theorem C21_results {x : Sim ℝ} (hx : Physical x) (hs : Systems x) (he : 0 < x.heating.efficiency) (hc : 0 < x.cooling.cop)
    (h0 : 0 ≤ x.pop.hoursEnd) (d0 : 0 ≤ x.pop.daysEnd) {w : Weather ℝ} (hz : NeverOverhead w) {m' : Model Dbl} {r : List (EndUses Dbl)}
    (hr : simulate false (fresh x w) = some (m', r)) (i : ℕ) (h : i < r.length) :
    (r[i] 1 = nan ∧ r[i] (heatingColumn x) = nan) ∨
    ∃ cool heat : ℝ, r[i] 1 = fin cool ∧ r[i] (heatingColumn x) = fin heat ∧ 0 ≤ cool ∧ 0 ≤ heat ∧ (cool = 0 ∨ heat = 0) := by
  obtain ⟨mass, air, surface, power, hE⟩ := C73_exists hx hs h0 d0 hz hr
  have hl : r.length = 8760 := by
    by_cases hd : ∀ j < 8760, power j = 0
    · exact (C73_no_demand hx hs h0 d0 hz hr hE hd).1
    · exact (C73_results hx hs h0 d0 hz hr hE (by push Not at hd; exact hd)).1
  have hi : i < 8760 := by
    have := hl ▸ h
    simpa using this
  rcases columns hx hs h0 d0 hz hr hE ⟨i, hi⟩ h with ⟨-, e1, e2⟩ | ⟨e1, e2⟩
  · exact .inl ⟨e1, e2⟩
  · refine .inr ⟨_, _, e1, e2, div_nonneg (cool_nonneg hs hc power i) (by norm_num), div_nonneg (heat_nonneg hs he power i) (by norm_num), ?_⟩
    rcases le_total 0 (power i) with hp | hp
    · left; rw [(cool_zero hs power i).mpr hp, zero_div]
    · right; rw [(heat_zero hs power i).mpr hp, zero_div]

/-- **C22, by the results.** There is exactly one course of temperatures that satisfies the heat balances of the building; in it the air
ends every hour within the set-points of that hour, at the heating set-point if the results show energy for heating in that hour, and at
the cooling set-point if they show energy for cooling. -/
theorem C22_results {x : Sim ℝ} (hx : Physical x) (hs : Systems x) (h0 : 0 ≤ x.pop.hoursEnd) (d0 : 0 ≤ x.pop.daysEnd) {w : Weather ℝ}
    (hz : NeverOverhead w) {m' : Model Dbl} {r : List (EndUses Dbl)} (hr : simulate false (fresh x w) = some (m', r)) :
    ∃ mass air surface power, Evolution x w mass air surface power ∧
      (∀ mass' air' surface' power', Evolution x w mass' air' surface' power' → ∀ i ≤ 8760, air' i = air i) ∧
      ∀ (i : Fin 8760) (h : i.1 < r.length),
        heatingSetPoint x i ≤ air (i + 1) ∧ air (i + 1) ≤ coolingSetPoint x i ∧
        (∀ q, r[i.1] (heatingColumn x) = fin q → q ≠ 0 → air (i + 1) = heatingSetPoint x i) ∧
        ∀ q, r[i.1] 1 = fin q → q ≠ 0 → air (i + 1) = coolingSetPoint x i := by
  obtain ⟨mass, air, surface, power, hE⟩ := C73_exists hx hs h0 d0 hz hr
  refine ⟨mass, air, surface, power, hE, fun _ _ _ _ e i hi => (((C73_unique hx hE e).1 i hi).2).symm, fun i h => ?_⟩
  have hc := hE.controlled i
  refine ⟨hc.above, hc.below, fun q hq hne => hc.heating ?_, fun q hq hne => hc.cooling ?_⟩
  · rcases columns hx hs h0 d0 hz hr hE i h with ⟨-, -, e⟩ | ⟨-, e⟩
    · exact absurd (e.symm.trans hq) (by simp)
    · rw [e, fin_inj] at hq
      by_contra hn
      exact hne (by rw [← hq, (heat_zero hs power i).mpr (not_lt.mp hn), zero_div])
  · rcases columns hx hs h0 d0 hz hr hE i h with ⟨-, e, -⟩ | ⟨e, -⟩
    · exact absurd (e.symm.trans hq) (by simp)
    · rw [e, fin_inj] at hq
      by_contra hn
      exact hne (by rw [← hq, (cool_zero hs power i).mpr (not_lt.mp hn), zero_div])

open Classical in
/-- **C23, by the results.** The pumps run exactly in the hours in which the results show energy for heating or cooling; the fans move at
least the scheduled air; the lighting lies between that of the part without daylight and the installed one; nothing is negative. -/
theorem C23_results {x : Sim ℝ} (hx : Physical x) (hs : Systems x) (ha : Auxiliary x) (h0 : 0 ≤ x.pop.hoursEnd) (d0 : 0 ≤ x.pop.daysEnd)
    {w : Weather ℝ} (hz : NeverOverhead w) {m' : Model Dbl} {r : List (EndUses Dbl)} (hr : simulate false (fresh x w) = some (m', r))
    (i : Fin 8760) (h : i.1 < r.length) (hb : 0 ≤ w.data EB i) (hd : 0 ≤ w.data ED i) (hg : 0 ≤ w.data EGH i)
    (hup : 0 ≤ Sun.up (placeOf w) (HourlyWhole.dayOf i) (HourlyWhole.hourOf i) ∨ (w.data EB i = 0 ∧ w.data ED i = 0)) :
    (∃ light : ℝ, r[i.1] 2 = fin light ∧ 0 ≤ light ∧ (1 - daylitFraction x) * lightingFactor x * installedLighting x i / 1000 ≤ light ∧
      light ≤ lightingFactor x * installedLighting x i / 1000) ∧
    r[i.1] 3 = fin (if 0 < w.data EGH i then 0 else x.lights.exteriorEnergy / x.bldg.floorArea / 1000) ∧
    (∃ fan : ℝ, r[i.1] 4 = fin fan ∧ 0 ≤ fan ∧
      (if OccupiedHour x.pop i then x.ventilation.supplyRate else 0) / x.bldg.floorArea * x.ventilation.fanPower / 1000 ≤ fan) ∧
    (r[i.1] 1 = nan → r[i.1] 5 = fin 0) ∧
    (∀ cool heat : ℝ, r[i.1] 1 = fin cool → r[i.1] (heatingColumn x) = fin heat →
      r[i.1] 5 = fin ((if cool ≠ 0 then x.cooling.E_pumps * x.cooling.pumpControlReduction
        else if heat ≠ 0 then x.heating.E_pumps * x.heating.pumpControlReduction else 0) / 1000)) ∧
    r[i.1] 6 = fin (appliances x i / 1000) ∧ r[i.1] 7 = fin (x.building.externalEquipment / x.bldg.floorArea / 1000) := by
  obtain ⟨mass, air, surface, power, hE⟩ := C73_exists hx hs h0 d0 hz hr
  obtain ⟨win, hw, -, -⟩ := simulate_false hr
  obtain ⟨light, fan, heat, cool, -, l, e3, f, -, e6, e7, b1, b2, b3, b4, b5⟩ :=
    C23_hour hx hs ha (HourlyWhole.overhead_iff hz) h0 d0 hr hw i h i rfl hb hd hg hup
  have e5 : r[i.1] 5 = fin (pumpsPower x power i / 1000) := by
    by_cases hd : ∀ j < 8760, power j = 0
    · rw [(C73_no_demand hx hs h0 d0 hz hr hE hd).2 i h 5, if_neg]
      · rfl
      · rintro (h | h)
        · exact absurd h (by decide)
        · split_ifs at h <;> exact absurd h (by decide)
    · exact (C73_results hx hs h0 d0 hz hr hE (by push Not at hd; exact hd)).2 i h 5
  refine ⟨⟨light, l, b1, b2, b3⟩, e3, ⟨fan, f, b4, b5⟩, fun hn => ?_, fun c q hc hq => ?_, e6, e7⟩
  · rcases columns hx hs h0 d0 hz hr hE i h with ⟨hp, -, -⟩ | ⟨e, -⟩
    · rw [e5]
      unfold pumpsPower
      rw [hp i i.2, if_neg (lt_irrefl _), if_neg (lt_irrefl _), zero_div]
    · exact absurd (hn.symm.trans e) (by simp)
  · rcases columns hx hs h0 d0 hz hr hE i h with ⟨-, e, -⟩ | ⟨k1, k2⟩
    · exact absurd (e.symm.trans hc) (by simp)
    · rw [k1, fin_inj] at hc
      rw [k2, fin_inj] at hq
      rw [e5]
      have hc' : c ≠ 0 ↔ power i < 0 := by
        rw [← hc, Ne, div_eq_zero_iff, or_iff_left (by norm_num), cool_zero hs power i, not_le]
      have hq' : q ≠ 0 ↔ 0 < power i := by
        rw [← hq, Ne, div_eq_zero_iff, or_iff_left (by norm_num), heat_zero hs power i, not_le]
      unfold pumpsPower
      simp only [hc', hq']

/-- **C50, over the year.** In the course of a building, what heating and cooling bring in over the year and the gains are what leaves the
building and what its mass has stored. -/
theorem C50_course {x : Sim ℝ} {w : Weather ℝ} {mass air surface power : ℕ → ℝ} (hE : Evolution x w mass air surface power) :
    ∑ i : Fin 8760, power i + ∑ i : Fin 8760, ((networkIn x w i (air i)).toAir + (networkIn x w i (air i)).toSurface +
        (networkIn x w i (air i)).toMass) =
      ∑ i : Fin 8760, losses (networkIn x w i (air i)) (mass i) (mass (i + 1)) (surface i) (air (i + 1)) +
        heatCapacity x / 3.6 * (mass 8760 - 20) := by
  have tele : ∀ n : ℕ, ∑ i : Fin n, (mass (i + 1) - mass i) = mass n - mass 0 := by
    intro n
    rw [Fin.sum_univ_eq_sum_range (fun i => mass (i + 1) - mass i), Finset.sum_range_sub]
  have one : ∀ i : Fin 8760, power i + ((networkIn x w i (air i)).toAir + (networkIn x w i (air i)).toSurface +
        (networkIn x w i (air i)).toMass) = losses (networkIn x w i (air i)) (mass i) (mass (i + 1)) (surface i) (air (i + 1)) +
        heatCapacity x / 3.6 * (mass (i + 1) - mass i) := by
    intro i
    have b := hE.balanced i
    have b1 := b.massBalance
    have b2 := b.surfaceBalance
    have b3 := b.airBalance
    have hcap : (networkIn x w i (air i)).capacity = heatCapacity x := rfl
    rw [hcap] at b1
    unfold losses
    linarith
  rw [← Finset.sum_add_distrib, Finset.sum_congr rfl (fun i _ => one i), Finset.sum_add_distrib, ← Finset.mul_sum, tele, hE.startMass]

/-- the hypotheses are met by the small office in Chicago, in any dark hour -/
example : Physical smallOffice ∧ Systems smallOffice ∧ Auxiliary smallOffice ∧ 0 < smallOffice.heating.efficiency ∧ 0 < smallOffice.cooling.cop ∧
    0 ≤ smallOffice.pop.hoursEnd ∧ 0 ≤ smallOffice.pop.daysEnd ∧ NeverOverhead someWeather ∧
    (∃ m r, simulate false (fresh smallOffice someWeather) = some (m, r) ∧ r.length = 8760) ∧
    someWeather.data EB 100 = 0 ∧ someWeather.data ED 100 = 0 ∧ 0 ≤ someWeather.data EGH 100 := by
  obtain ⟨win, hw, hq⟩ := office_heats
  have hr := simulate_of_window (m := fresh smallOffice someWeather) hw
  refine ⟨smallOffice_physical, smallOffice_systems, smallOffice_auxiliary, by norm_num [smallOffice], by norm_num [smallOffice],
    by norm_num [smallOffice], by norm_num [smallOffice], notOverhead_of_lat rfl, ⟨_, _, hr, by rw [endUses_length, rawResults_length]⟩, ?_, ?_, ?_⟩
  all_goals simp [someWeather, EB, ED, EGH, DBT]

end ISO.Props
