import Verif.Spec.HourlyWhole
import Verif.Props.WholeYear
import Verif.Props.Aggregate

/-! # C73: the hourly simulation is one specification -/

namespace ISO.Props
open ISO ISO.Spec ISO.Hourly ISO.Epw CNum Dbl

namespace HourlyWhole
open ISO.Spec.HourlyWhole

theorem place_eq (w : Weather ℝ) : SunLemmas.place w = placeOf w := rfl

theorem overhead_iff {w : Weather ℝ} (h : NeverOverhead w) : NotOverhead w := fun i => h i

/-- the radiation the program computes -/
theorem radiation_eq {w : Weather ℝ} (hz : NeverOverhead w) (i : Fin 8760) : (hourWeather w i).solarRadiation = radiation w i := by
  funext k
  unfold hourWeather radiation
  simp only
  split_ifs with h
  · have h1 := C20_sum w i ⟨k.1, h⟩ (hz i)
    have h2 := hourWeather_fin w i ((overhead_iff hz).cos i)
    have h3 := congrFun (congrArg HourWeather.solarRadiation h2) k
    simp only [hourWeather, HourWeather.map, dif_pos h] at h3
    rw [h1] at h3
    exact (Dbl.fin.inj h3).symm
  · rfl

open Classical in
/-- the schedule the program uses -/
theorem schedule_eq {x : Sim ℝ} (h0 : 0 ≤ x.pop.hoursEnd) (d0 : 0 ≤ x.pop.daysEnd) {win : Window}
    (hw : window (x.map fin).pop = some win) {w : Weather ℝ} (hz : NeverOverhead w) (i : Fin 8760) :
    (hourInput x win w i).1 = ⟨if OccupiedHour x.pop i then x.ventilation.supplyRate else 0, x.building.externalEquipment, appliances x i, 1,
      installedLighting x i, heatingSetPoint x i, coolingSetPoint x i⟩ := by
  have h := C13_schedule (x.map fin) x.pop rfl h0 d0 hw (w.map fin) i
  rw [hourInput_fin x win w i ((overhead_iff hz).cos i)] at h
  have e1 := congrArg Schedule.ventilation h
  have e2 := congrArg Schedule.exteriorEquipment h
  have e3 := congrArg Schedule.interiorEquipment h
  have e4 := congrArg Schedule.exteriorLighting h
  have e5 := congrArg Schedule.interiorLighting h
  have e6 := congrArg Schedule.heatingSetpoint h
  have e7 := congrArg Schedule.coolingSetpoint h
  simp only [Schedule.map, Sim.map, Ventilation.map, Building.map, Lighting.map, Heating.map, Cooling.map, ← apply_ite fin] at e1 e2 e3 e4 e5 e6 e7
  cases hc : (hourInput x win w i).1 with
  | mk a b c d e f g =>
    rw [hc] at e1 e2 e3 e4 e5 e6 e7
    have f1 : a = _ := Dbl.fin.inj e1
    have f2 : b = _ := Dbl.fin.inj e2
    have f3 : c = _ := Dbl.fin.inj e3
    have f4 : d = _ := Dbl.fin.inj e4
    have f5 : e = _ := Dbl.fin.inj e5
    have f6 : f = _ := Dbl.fin.inj e6
    have f7 : g = _ := Dbl.fin.inj e7
    rw [f1, f2, f3, f4, f5, f6, f7]
    rfl

theorem control_eq (x : Sim ℝ) :
    lightingControl x.building.lightingOccupancySensor x.lights.dimmingFraction x.lights = (lightingFactor x, wantedLux x) := by
  have k1 : (1.0 : ℝ) = 1 := by norm_num
  have kc : ∀ a : ℝ, clt a 1 = @decide (a < 1) (Classical.propDecidable _) := by
    intro a; rw [Bool.eq_iff_iff, clt_real, decide_eq_true_iff]
  unfold lightingControl lightingFactor wantedLux
  rw [k1, kc, kc]
  by_cases h1 : x.building.lightingOccupancySensor < 1 <;> by_cases h2 : x.lights.dimmingFraction < 1 <;> simp [h1, h2]

/-- the lighting the program computes -/
theorem lighting_eq {x : Sim ℝ} (sun : Fin 9 → ℝ) :
    electricForTotalLightArea x.bldg (initConsts x) (freshRatios x.bldg) sun = lightsOn x sun := by
  have k1 : (1.0 : ℝ) = 1 := by norm_num
  have k0 : (0.0 : ℝ) = 0 := by norm_num
  have k53 : (53.0 : ℝ) = 53 := by norm_num
  have e1 : (initConsts x).maxRatioElectricLighting = lightingFactor x := congrArg Prod.fst (control_eq x)
  have e2 : (initConsts x).elightNatural = wantedLux x := congrArg Prod.snd (control_eq x)
  have e3 : (initConsts x).areaNaturallyLightedRatio = daylitFraction x := by
    simp only [initConsts, cmax_real, daylitFraction]
  have e4 : ∀ i, (freshRatios x.bldg).naturalLightRatio i + (initConsts x).shadingUsePerWPerM2 *
        (freshRatios x.bldg).naturalLightShadeRatioReduction i * cmin x.bldg.irradianceForMaxShadingUse (sun i) =
      x.bldg.windowArea i * (x.bldg.windowShadingDevice i / 0.87) / x.bldg.floorArea := by
    intro i
    simp only [freshRatios, initConsts, facade, structureCalculations, sub_self, mul_zero, zero_mul, add_zero]
  unfold electricForTotalLightArea
  simp only [e1, e2, e3, e4, k1, k0, k53, cmax_real, csum_real, nine, List.sum_ofFn]
  have e5 : ∑ i, 53 / daylitFraction x * sun i * (x.bldg.windowArea i * (x.bldg.windowShadingDevice i / 0.87) / x.bldg.floorArea) =
      daylight x sun := by
    unfold daylight
    rw [Finset.sum_div, Finset.mul_sum]
    exact Finset.sum_congr rfl fun i _ => by ring
  rw [e5, lightsOn, mul_comm]

/-- the air the fans extract -/
theorem extract_eq (x : Sim ℝ) (i : ℕ) :
    (@ite _ (OccupiedHour x.pop i) (Classical.propDecidable _) x.ventilation.supplyRate 0) * 3.6 / x.bldg.floorArea = extractOf x i := by
  unfold extractOf
  split_ifs
  · rfl
  · simp

section
variable {x : Sim ℝ} (h0 : 0 ≤ x.pop.hoursEnd) (d0 : 0 ≤ x.pop.daysEnd) {win : Window} (hw : window (x.map fin).pop = some win)
  {w : Weather ℝ} (hz : NeverOverhead w) (i : Fin 8760)
include h0 d0 hw hz

theorem network_eq (indoor : ℝ) : hourNetwork x (hourInput x win w i) indoor = networkIn x w i indoor := by
  have hs := schedule_eq h0 d0 hw hz i
  have hr : (hourInput x win w i).2.solarRadiation = radiation w i := radiation_eq hz i
  unfold hourNetwork insideOf networkIn
  rw [hs, hr, lighting_eq]
  simp only [extract_eq]
  rfl

/-- what the program computes in one hour -/
theorem hour_eq (st : ThermalState ℝ) (q : HourResults ℝ) {p : ℝ}
    (hq : q = (calculateHour x (initConsts x) (freshRatios x.bldg) (hourInput x win w i).1 (hourInput x win w i).2 st).2)
    (hh : q.Qneed_ht = max 0 p) (hc : q.Qneed_cl = max 0 (-p)) :
    q.Q_illum_tot = lighting x w i ∧
    q.Q_illum_ext_tot = (@ite _ (0 < w.data EGH i) (Classical.propDecidable _) 0 (x.lights.exteriorEnergy / x.bldg.floorArea)) ∧
    q.Qfan_tot = max (heatingAir x st.tiHeatCool (max 0 p) + coolingAir x st.tiHeatCool (max 0 (-p))) (extractOf x i) *
      x.ventilation.fanPower * 1000 / 3600 ∧
    q.Qpump_tot = (@ite _ (p < 0) (Classical.propDecidable _) (x.cooling.E_pumps * x.cooling.pumpControlReduction)
      (@ite _ (0 < p) (Classical.propDecidable _) (x.heating.E_pumps * x.heating.pumpControlReduction) 0)) ∧
    q.phi_plug = appliances x i ∧
    q.externalEquipmentEnergyWperm2 = x.building.externalEquipment / x.bldg.floorArea ∧ q.Q_dhw = 0 := by
  have hs := schedule_eq h0 d0 hw hz i
  have hr : (hourInput x win w i).2.solarRadiation = radiation w i := radiation_eq hz i
  have k0 : (0.0 : ℝ) = 0 := by norm_num
  have g1 : q.Q_illum_tot = electricForTotalLightArea x.bldg (initConsts x) (freshRatios x.bldg)
      (hourInput x win w i).2.solarRadiation * (hourInput x win w i).1.interiorLighting := by rw [hq]; rfl
  have g2 : q.Q_illum_ext_tot = bif clt 0.0 ((hourInput x win w i).2.solarRadiation 8) then 0.0
       else x.lights.exteriorEnergy * (hourInput x win w i).1.exteriorLighting / x.bldg.floorArea := by rw [hq]; rfl
  have g3 : q.Qfan_tot = fanEnergy x q.Qneed_ht q.Qneed_cl st.tiHeatCool ((hourInput x win w i).1.ventilation * 3.6 / x.bldg.floorArea) := by
    rw [hq]; rfl
  have g4 : q.Qpump_tot = Hourly.pumpEnergy x q.Qneed_ht q.Qneed_cl := by rw [hq]; rfl
  have g5 : q.phi_plug = (hourInput x win w i).1.interiorEquipment := by rw [hq]; rfl
  have g6 : q.externalEquipmentEnergyWperm2 = (hourInput x win w i).1.exteriorEquipment / x.bldg.floorArea := by rw [hq]; rfl
  have g7 : q.Q_dhw = 0.0 := by rw [hq]; rfl
  clear hq
  rw [hs] at g1 g2 g3 g5 g6
  rw [hr] at g1 g2
  rw [hh, hc] at g3 g4
  refine ⟨?_, ?_, ?_, ?_, g5, g6, g7.trans k0⟩
  · rw [g1, lighting_eq]; rfl
  · rw [g2, show radiation w i 8 = w.data EGH i from rfl, k0]
    by_cases h : 0 < w.data EGH i
    · rw [if_pos h, (clt_real _ _).mpr h, cond_true]
    · rw [if_neg h, show clt 0 (w.data EGH i) = false by rw [← Bool.not_eq_true, clt_real]; exact h, cond_false]
      simp only [mul_one]
  · rw [g3]
    simp only [extract_eq]
    unfold fanEnergy heatingAir coolingAir
    have k1 : (1000.0 : ℝ) = 1000 := by norm_num
    have k2 : (3600.0 : ℝ) = 3600 := by norm_num
    have kt : (dblMin : ℝ) = tiny := rfl
    simp only [cmax_real, k0, k1, k2, kt]
    cases x.heating.forcedAirHeating <;> cases x.cooling.forcedAirCooling <;>
      simp only [cond_true, cond_false, if_true, Bool.false_eq_true, if_false]
  · rw [g4]
    unfold Hourly.pumpEnergy
    have c1 : clt 0 (max 0 (-p)) = true ↔ p < 0 := by
      rw [clt_real, lt_max_iff]; constructor
      · rintro (h | h) <;> linarith
      · intro h; right; linarith
    have c2 : clt 0 (max 0 p) = true ↔ 0 < p := by
      rw [clt_real, lt_max_iff]; constructor
      · rintro (h | h) <;> linarith
      · intro h; right; linarith
    rw [k0]
    by_cases h : p < 0
    · rw [if_pos h, c1.mpr h, cond_true]
    · rw [if_neg h, show clt 0 (max 0 (-p)) = false by rw [← Bool.not_eq_true, c1]; exact h, cond_false]
      by_cases h' : 0 < p
      · rw [if_pos h', c2.mpr h', cond_true]
      · rw [if_neg h', show clt 0 (max 0 p) = false by rw [← Bool.not_eq_true, c2]; exact h', cond_false]

end

/-- the states and results of the year, in numbers -/
theorem year_states (x : Sim ℝ) (win : Window) (w : Weather ℝ) {rs : List (HourResults ℝ)}
    (hrs : rs = rawResults x (freshRatios x.bldg) win w) :
    ∃ S : ℕ → ThermalState ℝ, (S 0).TMT1 = 20 ∧ (S 0).tiHeatCool = 20 ∧ ∀ i (h : i < 8760) (h' : i < rs.length),
      S (i + 1) = (calculateHour x (initConsts x) (freshRatios x.bldg) (hourInput x win w ⟨i, h⟩).1 (hourInput x win w ⟨i, h⟩).2 (S i)).1 ∧
      rs[i] = (calculateHour x (initConsts x) (freshRatios x.bldg) (hourInput x win w ⟨i, h⟩).1 (hourInput x win w ⟨i, h⟩).2 (S i)).2 := by
  unfold rawResults at hrs
  generalize hl : List.ofFn (hourInput x win w) = l at hrs
  have hll : l.length = 8760 := by rw [← hl, List.length_ofFn]
  have hlg : ∀ i (h : i < 8760) (h' : i < l.length), l[i] = hourInput x win w ⟨i, h⟩ := by
    intro i h h'
    simp only [← hl, List.getElem_ofFn]
  clear hl
  refine ⟨stateAt x (initConsts x) (freshRatios x.bldg) l initialState, ?_, ?_, ?_⟩
  · have : stateAt x (initConsts x) (freshRatios x.bldg) l initialState 0 = initialState := by cases l <;> rfl
    rw [this]; simp only [initialState]; norm_num
  · have : stateAt x (initConsts x) (freshRatios x.bldg) l initialState 0 = initialState := by cases l <;> rfl
    rw [this]; simp only [initialState]; norm_num
  · intro i h h'
    have hi : i < l.length := by rw [hll]; exact h
    rw [stateAt_succ _ _ _ _ _ i hi, ← hlg i h hi]
    refine ⟨rfl, ?_⟩
    subst hrs
    exact runHours_get _ _ _ _ _ i h' hi

/-- the program's year as an evolution, with what it computes in each hour -/
theorem program_year {x : Sim ℝ} (hx : Physical x) (h0 : 0 ≤ x.pop.hoursEnd) (d0 : 0 ≤ x.pop.daysEnd) {win : Window}
    (hw : window (x.map fin).pop = some win) {w : Weather ℝ} (hz : NeverOverhead w) {rs : List (HourResults ℝ)}
    (hrs : rs = rawResults x (freshRatios x.bldg) win w) (hlen : ∀ i, i < rs.length ↔ i < 8760) :
    ∃ mass air surface power : ℕ → ℝ, Evolution x w mass air surface power ∧
      ∀ (i : Fin 8760) (h : i.1 < rs.length), rs[i.1].Qneed_ht = max 0 (power i) ∧ rs[i.1].Qneed_cl = max 0 (-power i) ∧
        rs[i.1] = (calculateHour x (initConsts x) (freshRatios x.bldg) (hourInput x win w i).1 (hourInput x win w i).2
          ⟨mass i, air i⟩).2 := by
  obtain ⟨S, s1, s2, hS⟩ := year_states x win w hrs
  have hok := hourInput_ok hx win w
  have hn := fun (i : Fin 8760) t => network_eq h0 d0 hw hz i t
  have hsch := fun i => schedule_eq h0 d0 hw hz (win := win) (x := x) i
  have hbal : ∀ i : Fin 8760, ∃ s p, Balanced (networkIn x w i (S i).tiHeatCool) (S i).TMT1 (S (i + 1)).TMT1 s (S (i + 1)).tiHeatCool p ∧
      Controlled (heatingSetPoint x i) (coolingSetPoint x i) (S (i + 1)).tiHeatCool p ∧
      ∀ h : i.1 < rs.length, rs[i.1].Qneed_ht = max 0 p ∧ rs[i.1].Qneed_cl = max 0 (-p) := by
    intro i
    obtain ⟨t1, t2⟩ := hS i.1 i.2 ((hlen i).mpr i.2)
    obtain ⟨s, hb⟩ := balance_hour hx (hok i).vent (hourInput x win w i).2 (S i)
    have hc := hour_controlled hx (hok i).vent (hok i).mid (hourInput x win w i).2 (S i)
    obtain ⟨-, -, e3, e4⟩ := calculateHour_state x (initConsts x) (freshRatios x.bldg) (hourInput x win w i).1 (hourInput x win w i).2 (S i)
    refine ⟨s, ?_, ?_, ?_, ?_⟩
    · exact (calculateHour x (initConsts x) (freshRatios x.bldg) (hourInput x win w i).1 (hourInput x win w i).2 (S i)).2.Qneed_ht -
        (calculateHour x (initConsts x) (freshRatios x.bldg) (hourInput x win w i).1 (hourInput x win w i).2 (S i)).2.Qneed_cl
    · rw [← hn i, t1]; exact hb
    · have g1 : (hourInput x win w i).1.heatingSetpoint = heatingSetPoint x i := by rw [hsch i]
      have g2 : (hourInput x win w i).1.coolingSetpoint = coolingSetPoint x i := by rw [hsch i]
      rw [← g1, ← g2, t1]; exact hc
    · intro h
      rw [t2, e3, e4]
      generalize hourPhi x (initConsts x) (freshRatios x.bldg) (hourInput x win w i).1 (hourInput x win w i).2 (S i) = p
      have := parts p
      rw [show max 0 p - max 0 (-p) = p by linarith]
      exact ⟨rfl, rfl⟩
  choose surf pow hsp using hbal
  refine ⟨fun j => (S j).TMT1, fun j => (S j).tiHeatCool, fun j => if h : j < 8760 then surf ⟨j, h⟩ else 0,
    fun j => if h : j < 8760 then pow ⟨j, h⟩ else 0, ⟨s1, s2, fun i => ?_, fun i => ?_⟩, fun i h => ?_⟩
  · simp only [i.2, dif_pos]; exact (hsp i).1
  · simp only [i.2, dif_pos]; exact (hsp i).2.1
  · simp only [i.2, dif_pos]
    exact ⟨((hsp i).2.2 h).1, ((hsp i).2.2 h).2, (hS i.1 i.2 h).2⟩

/-- one hour of two evolutions from the same temperatures -/
theorem same_hour {x : Sim ℝ} (hx : Physical x) {w : Weather ℝ} (i : Fin 8760) {t T T₁ T₂ s₁ s₂ a₁ a₂ p₁ p₂ H C : ℝ}
    (b₁ : Balanced (networkIn x w i t) T T₁ s₁ a₁ p₁) (b₂ : Balanced (networkIn x w i t) T T₂ s₂ a₂ p₂)
    (c₁ : Controlled H C a₁ p₁) (c₂ : Controlled H C a₂ p₂) : T₁ = T₂ ∧ a₁ = a₂ ∧ s₁ = s₂ ∧ p₁ = p₂ := by
  have he : 0 ≤ extractOf x i := by
    unfold extractOf
    have h1 := hx.supplyRate
    have h2 := hx.floor
    split_ifs
    · positivity
    · exact le_rfl
  obtain ⟨n1, n2, n3, n4, n5, n6⟩ := network_positive hx he t (appliances x i + lighting x w i * x.lights.elecInternalGains)
    (w.data DBT i) (w.data WSPD i) (radiation w i)
  have ha : a₁ = a₂ := le_antisymm
    (compare_controlled (Warmer.refl _) n1 n2 n3 n4 n5 n6 le_rfl b₁ b₂ c₁ c₂ le_rfl le_rfl)
    (compare_controlled (Warmer.refl _) n1 n2 n3 n4 n5 n6 le_rfl b₂ b₁ c₂ c₁ le_rfl le_rfl)
  obtain ⟨g1, g2⟩ := compare_pinned (Warmer.refl _) n1 n2 n3 n4 n5 le_rfl b₁ b₂ ha.le
  obtain ⟨g3, g4⟩ := compare_pinned (Warmer.refl _) n1 n2 n3 n4 n5 le_rfl b₂ b₁ ha.ge
  have hs : s₁ = s₂ := le_antisymm g1 g3
  have q1 := b₁.airBalance
  have q2 := b₂.airBalance
  subst ha hs
  exact ⟨by linarith, rfl, rfl, by linarith⟩

theorem same_course {x : Sim ℝ} (hx : Physical x) {w : Weather ℝ} {mass air surface power mass' air' surface' power' : ℕ → ℝ}
    (e : Evolution x w mass air surface power) (e' : Evolution x w mass' air' surface' power') :
    ∀ n ≤ 8760, mass n = mass' n ∧ air n = air' n ∧ ∀ j < n, surface j = surface' j ∧ power j = power' j := by
  intro n
  induction n with
  | zero => intro _; exact ⟨e.startMass.trans e'.startMass.symm, e.startAir.trans e'.startAir.symm, fun j h => absurd h (Nat.not_lt_zero j)⟩
  | succ n ih =>
    intro hn
    obtain ⟨i1, i2, i3⟩ := ih (by omega)
    have b := e.balanced ⟨n, hn⟩
    have b' := e'.balanced ⟨n, hn⟩
    simp only [← i1, ← i2] at b'
    obtain ⟨r1, r2, r3, r4⟩ := same_hour hx ⟨n, hn⟩ b b' (e.controlled ⟨n, hn⟩) (e'.controlled ⟨n, hn⟩)
    refine ⟨r1, r2, fun j hj => ?_⟩
    rcases Nat.lt_succ_iff_lt_or_eq.mp hj with h | h
    · exact i3 j h
    · subst h; exact ⟨r3, r4⟩

theorem need_sum {rs : List (HourResults ℝ)} (f : HourResults ℝ → ℝ) (g : ℕ → ℝ) {N : ℕ} (hN : rs.length = N)
    (h : ∀ i (hi : i < rs.length), f rs[i] = g i) : (rs.map f).sum = ∑ i ∈ Finset.range N, g i := by
  have e : rs.map f = (List.range N).map g := by
    refine List.ext_getElem (by simp [hN]) fun i h1 h2 => ?_
    simp only [List.getElem_map, List.getElem_range]
    exact h i (by simpa using h1)
  rw [e]; rfl

/-- the energy for heating and cooling of an hour, in a year with some demand -/
theorem energy_eq {x : Sim ℝ} {power : ℕ → ℝ} {rs : List (HourResults ℝ)} (hN : rs.length = 8760)
    (hh : ∀ i (hi : i < rs.length), rs[i].Qneed_ht = heatNeed power i) (hc : ∀ i (hi : i < rs.length), rs[i].Qneed_cl = coolNeed power i)
    (i : ℕ) (hi : i < rs.length) :
    rs[i].Qneed_ht / (yearDistribution x rs).1 / x.heating.efficiency = heatEnergy x power i ∧
    rs[i].Qneed_cl / (yearDistribution x rs).2 / x.cooling.cop = coolEnergy x power i := by
  have inv : ∀ a b c : ℝ, a / (1 / b) / c = a * b / c := by intro a b c; rw [div_div_eq_mul_div, div_one]
  rw [yearDistribution_eq, need_sum _ (heatNeed power) hN hh, need_sum _ (coolNeed power) hN hc]
  simp only [inv, hh i hi, hc i hi]
  exact ⟨rfl, rfl⟩

section
variable {x : Sim ℝ} (hx : Physical x) (hs : Systems x) (h0 : 0 ≤ x.pop.hoursEnd) (d0 : 0 ≤ x.pop.daysEnd)
  {w : Weather ℝ} (hz : NeverOverhead w) {m' : Model Dbl} {r : List (EndUses Dbl)} (hr : simulate false (fresh x w) = some (m', r))
include hx hs h0 d0 hz hr

/-- the year of the program with its evolution -/
theorem year_of : ∃ (win : Window) (rs : List (HourResults ℝ)) (mass air surface power : ℕ → ℝ),
    window (x.map fin).pop = some win ∧ rs.length = 8760 ∧ r = endUses (x.map fin) (rs.map (·.map fin)) ∧
    Evolution x w mass air surface power ∧
    (∀ i (h : i < rs.length), rs[i].Qneed_ht = heatNeed power i ∧ rs[i].Qneed_cl = coolNeed power i) ∧
    ∀ (i : Fin 8760) (h : i.1 < rs.length), rs[i.1].Q_illum_tot = endUse x w air power i 2 ∧
      rs[i.1].Q_illum_ext_tot = endUse x w air power i 3 ∧ rs[i.1].Qfan_tot = endUse x w air power i 4 ∧
      rs[i.1].Qpump_tot = endUse x w air power i 5 ∧ rs[i.1].phi_plug = endUse x w air power i 6 ∧
      rs[i.1].externalEquipmentEnergyWperm2 = endUse x w air power i 7 ∧ rs[i.1].Q_dhw = 0 := by
  obtain ⟨win, rs, hw, hrs, -, he⟩ := year_fin hx hs (overhead_iff hz) hr
  have hN : rs.length = 8760 := by rw [hrs]; exact rawResults_length _ _ _ _
  obtain ⟨mass, air, surface, power, hE, hq⟩ := program_year hx h0 d0 hw hz hrs (fun i => by rw [hN])
  refine ⟨win, rs, mass, air, surface, power, hw, hN, he, hE, fun i h => ?_, fun i h => ?_⟩
  · obtain ⟨q1, q2, -⟩ := hq ⟨i, hN ▸ h⟩ h
    exact ⟨q1, q2⟩
  · obtain ⟨q1, q2, q3⟩ := hq i h
    exact hour_eq h0 d0 hw hz i ⟨mass i, air i⟩ _ q3 q1 q2

end

/-- the end uses depend on the course in the hours of the year only -/
theorem endUse_congr {x : Sim ℝ} {w : Weather ℝ} {air air' power power' : ℕ → ℝ} (ha : ∀ i < 8760, air i = air' i)
    (hp : ∀ i < 8760, power i = power' i) (i : Fin 8760) : endUse x w air power i = endUse x w air' power' i := by
  have n1 : ∀ i < 8760, heatNeed power i = heatNeed power' i := fun i h => by unfold heatNeed; rw [hp i h]
  have n2 : ∀ i < 8760, coolNeed power i = coolNeed power' i := fun i h => by unfold coolNeed; rw [hp i h]
  have y1 : heatYear power = heatYear power' := Finset.sum_congr rfl fun i h => n1 i (Finset.mem_range.mp h)
  have y2 : coolYear power = coolYear power' := Finset.sum_congr rfl fun i h => n2 i (Finset.mem_range.mp h)
  have e1 : heatEnergy x power i = heatEnergy x power' i := by unfold heatEnergy; rw [y1, y2, n1 i i.2]
  have e2 : coolEnergy x power i = coolEnergy x power' i := by unfold coolEnergy; rw [y1, y2, n2 i i.2]
  have e3 : fansPower x air power i = fansPower x air' power' i := by unfold fansPower; rw [ha i i.2, n1 i i.2, n2 i i.2]
  have e4 : pumpsPower x power i = pumpsPower x power' i := by unfold pumpsPower; rw [hp i i.2]
  unfold endUse
  rw [e1, e2, e3, e4]

/-- the year of the program for a given evolution -/
theorem year_for {x : Sim ℝ} (hx : Physical x) (hs : Systems x) (h0 : 0 ≤ x.pop.hoursEnd) (d0 : 0 ≤ x.pop.daysEnd)
    {w : Weather ℝ} (hz : NeverOverhead w) {m' : Model Dbl} {r : List (EndUses Dbl)} (hr : simulate false (fresh x w) = some (m', r))
    {mass air surface power : ℕ → ℝ} (hE : Evolution x w mass air surface power) :
    ∃ rs : List (HourResults ℝ), rs.length = 8760 ∧ r = endUses (x.map fin) (rs.map (·.map fin)) ∧
    (∀ i (h : i < rs.length), rs[i].Qneed_ht = heatNeed power i ∧ rs[i].Qneed_cl = coolNeed power i) ∧
    ∀ (i : Fin 8760) (h : i.1 < rs.length), rs[i.1].Q_illum_tot = endUse x w air power i 2 ∧
      rs[i.1].Q_illum_ext_tot = endUse x w air power i 3 ∧ rs[i.1].Qfan_tot = endUse x w air power i 4 ∧
      rs[i.1].Qpump_tot = endUse x w air power i 5 ∧ rs[i.1].phi_plug = endUse x w air power i 6 ∧
      rs[i.1].externalEquipmentEnergyWperm2 = endUse x w air power i 7 ∧ rs[i.1].Q_dhw = 0 := by
  obtain ⟨win, rs, mass', air', surface', power', -, hN, he, hE', hn, hq⟩ := year_of hx hs h0 d0 hz hr
  have hsame := same_course hx hE' hE
  have ha : ∀ i < 8760, air' i = air i := fun i hi => (hsame i hi.le).2.1
  have hp : ∀ i < 8760, power' i = power i := fun i hi => ((hsame (i + 1) hi).2.2 i (Nat.lt_succ_self i)).2
  refine ⟨rs, hN, he, fun i h => ?_, fun i h => ?_⟩
  · have := hn i h
    unfold heatNeed coolNeed at this ⊢
    rw [← hp i (hN ▸ h)]; exact this
  · have := hq i h
    rw [endUse_congr ha hp i] at this
    exact this

/-- the thirteen end uses of an hour from its results -/
theorem uses_eq {x : Sim ℝ} {w : Weather ℝ} {air power : ℕ → ℝ} {i : Fin 8760} {q : HourResults ℝ} {eta : ℝ × ℝ}
    (e1 : q.Qneed_ht / eta.1 / x.heating.efficiency = heatEnergy x power i) (e2 : q.Qneed_cl / eta.2 / x.cooling.cop = coolEnergy x power i)
    (hq : q.Q_illum_tot = endUse x w air power i 2 ∧ q.Q_illum_ext_tot = endUse x w air power i 3 ∧
      q.Qfan_tot = endUse x w air power i 4 ∧ q.Qpump_tot = endUse x w air power i 5 ∧ q.phi_plug = endUse x w air power i 6 ∧
      q.externalEquipmentEnergyWperm2 = endUse x w air power i 7 ∧ q.Q_dhw = 0) (k : Fin 13) :
    hourEndUses x eta q k = endUse x w air power i k / 1000 := by
  have k1 : (1.0 : ℝ) = 1 := by norm_num
  have k0 : (0.0 : ℝ) = 0 := by norm_num
  have k1000 : (1000.0 : ℝ) = 1000 := by norm_num
  have kc : ceq x.heating.energyType 1 = @decide (x.heating.energyType = 1) (Classical.propDecidable _) := by
    rw [Bool.eq_iff_iff, ceq_real, decide_eq_true_iff]
  obtain ⟨q2, q3, q4, q5, q6, q7, q8⟩ := hq
  have c0 : (bif ceq x.heating.energyType 1 then heatEnergy x power i else 0) = endUse x w air power i 0 := by
    show _ = @ite _ (x.heating.energyType = 1) _ (heatEnergy x power i) 0
    rw [kc]; by_cases h : x.heating.energyType = 1 <;> simp [h]
  have c9 : (bif ceq x.heating.energyType 1 then 0 else heatEnergy x power i) = endUse x w air power i 9 := by
    show _ = @ite _ (x.heating.energyType = 1) _ 0 (heatEnergy x power i)
    rw [kc]; by_cases h : x.heating.energyType = 1 <;> simp [h]
  fin_cases k <;> simp only [hourEndUses, e1, e2, k0, k1, k1000, c0, c9, q2, q3, q4, q5, q6, q7, q8] <;> rfl

/-- without any demand the shares are 0/0 -/
theorem nan_shares (x : Sim Dbl) {rs : List (HourResults Dbl)} (h : ∀ q ∈ rs, q.Qneed_ht = fin 0 ∧ q.Qneed_cl = fin 0) :
    yearDistribution x rs = (nan, nan) := by
  have s1 : csum (rs.map (·.Qneed_ht)) = fin 0 := by
    rw [csum_dbl]
    refine List.sum_eq_zero fun a ha => ?_
    obtain ⟨q, hq, rfl⟩ := List.mem_map.mp ha
    exact (h q hq).1
  have s2 : csum (rs.map (·.Qneed_cl)) = fin 0 := by
    rw [csum_dbl]
    refine List.sum_eq_zero fun a ha => ?_
    obtain ⟨q, hq, rfl⟩ := List.mem_map.mp ha
    exact (h q hq).2
  have mx : ∀ d : Dbl, cmax nan d = nan := by
    intro d; unfold cmax; rw [nan_clt]; rfl
  unfold yearDistribution distribution
  rw [s1, s2, fin_add, add_zero, zero_div_zero, mx]
  simp only [sub_nan, mx, div_nan, add_nan]

/-- the end uses of an hour when the shares are 0/0 -/
theorem uses_nan {x : Sim ℝ} {w : Weather ℝ} {air power : ℕ → ℝ} {i : Fin 8760} {q : HourResults ℝ}
    (hq : q.Q_illum_tot = endUse x w air power i 2 ∧ q.Q_illum_ext_tot = endUse x w air power i 3 ∧
      q.Qfan_tot = endUse x w air power i 4 ∧ q.Qpump_tot = endUse x w air power i 5 ∧ q.phi_plug = endUse x w air power i 6 ∧
      q.externalEquipmentEnergyWperm2 = endUse x w air power i 7 ∧ q.Q_dhw = 0) (k : Fin 13) :
    hourEndUses (x.map fin) (nan, nan) (q.map fin) k =
      @ite _ (k = 1 ∨ k = if x.heating.energyType = 1 then 0 else 9) (Classical.propDecidable _) nan (fin (endUse x w air power i k / 1000)) := by
  have z : (0.0 : Dbl) / 1000.0 = fin (0 / 1000) := by
    rw [fin_lit, fin_lit, fin_div _ (by norm_num)]; norm_num
  have d : ∀ a : ℝ, fin a / (1000.0 : Dbl) = fin (a / 1000) := by
    intro a; rw [fin_lit, fin_div _ (by norm_num)]; norm_num
  have kc : ceq (fin x.heating.energyType) 1.0 = @decide (x.heating.energyType = 1) (Classical.propDecidable _) := by
    rw [fin_lit, fin_ceq, Bool.eq_iff_iff, ceq_real, decide_eq_true_iff]; norm_num
  obtain ⟨q2, q3, q4, q5, q6, q7, q8⟩ := hq
  have u8 : endUse x w air power i 8 = 0 := rfl
  have u10 : endUse x w air power i 10 = 0 := rfl
  have u11 : endUse x w air power i 11 = 0 := rfl
  have u12 : endUse x w air power i 12 = 0 := rfl
  by_cases h : x.heating.energyType = 1
  · have u9 : endUse x w air power i 9 = 0 := by show @ite _ (x.heating.energyType = 1) _ 0 (heatEnergy x power i) = 0; rw [if_pos h]
    have hk : ceq (fin x.heating.energyType) 1.0 = true := by rw [kc]; exact decide_eq_true h
    rw [if_pos h]
    fin_cases k <;>
      simp [-zero_div, hourEndUses, Sim.map, Heating.map, HourResults.map, hk, z, d, q2, q3, q4, q5, q6, q7, q8, u8, u9, u10, u11, u12, div_nan, nan_div]
  · have u0 : endUse x w air power i 0 = 0 := by show @ite _ (x.heating.energyType = 1) _ (heatEnergy x power i) 0 = 0; rw [if_neg h]
    have hk : ceq (fin x.heating.energyType) 1.0 = false := by rw [kc]; exact decide_eq_false h
    rw [if_neg h]
    fin_cases k <;>
      simp [-zero_div, hourEndUses, Sim.map, Heating.map, HourResults.map, hk, z, d, q2, q3, q4, q5, q6, q7, q8, u8, u0, u10, u11, u12, div_nan, nan_div]

end HourlyWhole

open HourlyWhole ISO.Spec.HourlyWhole

/-- C73: whenever the simulation of a new object gives results, there is a course of temperatures and powers that satisfies the heat
balances in every hour under thermostat control. -/
theorem C73_exists {x : Sim ℝ} (hx : Physical x) (hs : Systems x) (h0 : 0 ≤ x.pop.hoursEnd) (d0 : 0 ≤ x.pop.daysEnd)
    {w : Weather ℝ} (hz : NeverOverhead w) {m' : Model Dbl} {r : List (EndUses Dbl)}
    (hr : simulate false (fresh x w) = some (m', r)) :
    ∃ mass air surface power, Evolution x w mass air surface power := by
  obtain ⟨win, rs, mass, air, surface, power, -, -, -, hE, -⟩ := year_of hx hs h0 d0 hz hr
  exact ⟨mass, air, surface, power, hE⟩

/-- C73: there is only one. -/
theorem C73_unique {x : Sim ℝ} (hx : Physical x) {w : Weather ℝ} {mass air surface power mass' air' surface' power' : ℕ → ℝ}
    (e : Evolution x w mass air surface power) (e' : Evolution x w mass' air' surface' power') :
    (∀ i ≤ 8760, mass i = mass' i ∧ air i = air' i) ∧ ∀ i < 8760, surface i = surface' i ∧ power i = power' i :=
  ⟨fun i hi => ⟨(same_course hx e e' i hi).1, (same_course hx e e' i hi).2.1⟩,
    fun i hi => (same_course hx e e' (i + 1) hi).2.2 i (Nat.lt_succ_self i)⟩

/-- C73, with some demand in the year: the simulation gives 8760 hours, and every end use of every hour is the number the
specification gives for the course of the building, in kWh per m². -/
theorem C73_results {x : Sim ℝ} (hx : Physical x) (hs : Systems x) (h0 : 0 ≤ x.pop.hoursEnd) (d0 : 0 ≤ x.pop.daysEnd)
    {w : Weather ℝ} (hz : NeverOverhead w) {m' : Model Dbl} {r : List (EndUses Dbl)}
    (hr : simulate false (fresh x w) = some (m', r)) {mass air surface power : ℕ → ℝ}
    (hE : Evolution x w mass air surface power) (hd : ∃ i < 8760, power i ≠ 0) :
    r.length = 8760 ∧ ∀ (i : Fin 8760) (h : i.1 < r.length) (k : Fin 13), r[i.1] k = fin (endUse x w air power i k / 1000) := by
  obtain ⟨rs, hN, he, hn, hq⟩ := year_for hx hs h0 d0 hz hr hE
  have hdem : (rs.map (·.Qneed_cl)).sum + (rs.map (·.Qneed_ht)).sum ≠ 0 := by
    obtain ⟨j, hj, hp⟩ := hd
    have hj' : j < rs.length := hN ▸ hj
    refine demand_ne ?_ ⟨rs[j].map fin, List.mem_map_of_mem (List.getElem_mem hj'), ?_⟩
    · intro q hq
      obtain ⟨n, hn', rfl⟩ := List.getElem_of_mem hq
      rw [(hn n hn').1, (hn n hn').2]
      exact ⟨le_max_left _ _, le_max_left _ _⟩
    · simp only [HourResults.map, (hn j hj').1, (hn j hj').2, heatNeed, coolNeed, ne_eq, fin_inj]
      rcases lt_or_gt_of_ne hp with h | h
      · right; rw [max_eq_right (by linarith)]; linarith
      · left; rw [max_eq_right h.le]; exact h.ne'
  rw [endUses_fin hs rs hdem] at he
  have hl : r.length = 8760 := by rw [he, List.length_map, endUses_length, hN]
  refine ⟨hl, fun i h k => ?_⟩
  have hi : i.1 < rs.length := by rw [hN]; exact i.2
  have hi' : i.1 < (endUses x rs).length := by rw [endUses_length]; exact hi
  obtain ⟨e1, e2⟩ := energy_eq (x := x) hN (fun i hi => (hn i hi).1) (fun i hi => (hn i hi).2) i.1 hi
  subst he
  rw [List.getElem_map, endUses_get x rs i.1 hi' hi, uses_eq e1 e2 (hq i hi)]

open Classical in
/-- C73, without any demand in the year: the program divides 0 by 0, so that the energy for cooling and for heating is not a number;
all other end uses are those of the specification. -/
theorem C73_no_demand {x : Sim ℝ} (hx : Physical x) (hs : Systems x) (h0 : 0 ≤ x.pop.hoursEnd) (d0 : 0 ≤ x.pop.daysEnd)
    {w : Weather ℝ} (hz : NeverOverhead w) {m' : Model Dbl} {r : List (EndUses Dbl)}
    (hr : simulate false (fresh x w) = some (m', r)) {mass air surface power : ℕ → ℝ}
    (hE : Evolution x w mass air surface power) (hd : ∀ i < 8760, power i = 0) :
    r.length = 8760 ∧ ∀ (i : Fin 8760) (h : i.1 < r.length) (k : Fin 13), r[i.1] k =
      if k = 1 ∨ k = (if x.heating.energyType = 1 then 0 else 9) then nan else fin (endUse x w air power i k / 1000) := by
  obtain ⟨rs, hN, he, hn, hq⟩ := year_for hx hs h0 d0 hz hr hE
  have hl : r.length = 8760 := by rw [he, endUses_length, List.length_map, hN]
  refine ⟨hl, fun i h k => ?_⟩
  have hi : i.1 < rs.length := by rw [hN]; exact i.2
  have hi' : i.1 < (rs.map (·.map fin)).length := by rw [List.length_map]; exact hi
  have hnan : yearDistribution (x.map fin) (rs.map (·.map fin)) = (nan, nan) := by
    refine nan_shares _ fun q hm => ?_
    obtain ⟨q', hm', rfl⟩ := List.mem_map.mp hm
    obtain ⟨n, hn', rfl⟩ := List.getElem_of_mem hm'
    simp only [HourResults.map, (hn n hn').1, (hn n hn').2, heatNeed, coolNeed, hd n (hN ▸ hn'), neg_zero, max_self, and_self]
  subst he
  rw [endUses_get (x.map fin) _ i.1 h hi', hnan, List.getElem_map, uses_nan (hq i hi)]
  congr 1

/-- C73, by month: the twelve results of the simulation aggregated by month are the sums over the calendar months. -/
theorem C73_months {x : Sim ℝ} (hx : Physical x) (hs : Systems x) (h0 : 0 ≤ x.pop.hoursEnd) (d0 : 0 ≤ x.pop.daysEnd)
    {w : Weather ℝ} (hz : NeverOverhead w) {m' : Model Dbl} {r : List (EndUses Dbl)}
    (hr : simulate true (fresh x w) = some (m', r)) {mass air surface power : ℕ → ℝ}
    (hE : Evolution x w mass air surface power) (hd : ∃ i < 8760, power i ≠ 0) :
    r.length = 12 ∧ ∀ j (h : j < r.length) (k : Fin 13), r[j] k = fin (monthUse x w air power (j + 1) k / 1000) := by
  obtain ⟨⟨m₁, hourly⟩, hf⟩ : ∃ a, simulate false (fresh x w) = some a := by
    rcases hc : simulate false (fresh x w) with _ | a
    · rw [(C28_fail_together _).mp hc] at hr; cases hr
    · exact ⟨a, rfl⟩
  obtain ⟨hl, ha⟩ := C73_results hx hs h0 d0 hz hf hE hd
  obtain ⟨-, out, ho, hlen, hsum⟩ := C28_aggregated _ hf
  rw [hr] at ho
  obtain rfl : r = out := congrArg Prod.snd (Option.some.inj ho)
  refine ⟨hlen, fun j h k => ?_⟩
  rw [hsum j h k]
  have hlt : ∀ i ∈ hoursOfMonth (j + 1), i < 8760 := by
    have h12 : j < 12 := hlen ▸ h
    intro i hi
    have := (Finset.mem_Ico.mp hi).2
    have k : 24 * daysBefore (j + 1 + 1) ≤ 8760 := by interval_cases j <;> decide
    omega
  have e : ∀ i ∈ hoursOfMonth (j + 1), (hourly.map fun u => u k).getD i 0 =
      fin ((if h : i < 8760 then endUse x w air power ⟨i, h⟩ k else 0) / 1000) := by
    intro i hi
    have hi' := hlt i hi
    have hi'' : i < hourly.length := by rw [hl]; exact hi'
    rw [dif_pos hi', ← ha ⟨i, hi'⟩ hi'' k, List.getD_eq_getElem?_getD, List.getElem?_map, List.getElem?_eq_getElem hi'']; rfl
  rw [Finset.sum_congr rfl e, fin_sum, monthUse, Finset.sum_div]

/-- C73, by month, without any demand in the year: the months of heating and cooling are not numbers either. -/
theorem C73_months_no_demand {x : Sim ℝ} (hx : Physical x) (hs : Systems x) (h0 : 0 ≤ x.pop.hoursEnd) (d0 : 0 ≤ x.pop.daysEnd)
    {w : Weather ℝ} (hz : NeverOverhead w) {m' : Model Dbl} {r : List (EndUses Dbl)}
    (hr : simulate true (fresh x w) = some (m', r)) {mass air surface power : ℕ → ℝ}
    (hE : Evolution x w mass air surface power) (hd : ∀ i < 8760, power i = 0) :
    r.length = 12 ∧ ∀ j (h : j < r.length) (k : Fin 13), r[j] k =
      if k = 1 ∨ k = (if x.heating.energyType = 1 then 0 else 9) then nan else fin (monthUse x w air power (j + 1) k / 1000) := by
  obtain ⟨⟨m₁, hourly⟩, hf⟩ : ∃ a, simulate false (fresh x w) = some a := by
    rcases hc : simulate false (fresh x w) with _ | a
    · rw [(C28_fail_together _).mp hc] at hr; cases hr
    · exact ⟨a, rfl⟩
  obtain ⟨hl, ha⟩ := C73_no_demand hx hs h0 d0 hz hf hE hd
  obtain ⟨-, out, ho, hlen, hsum⟩ := C28_aggregated _ hf
  rw [hr] at ho
  obtain rfl : r = out := congrArg Prod.snd (Option.some.inj ho)
  refine ⟨hlen, fun j h k => ?_⟩
  rw [hsum j h k]
  have h12 : j < 12 := hlen ▸ h
  have hlt : ∀ i ∈ hoursOfMonth (j + 1), i < 8760 := by
    intro i hi
    have := (Finset.mem_Ico.mp hi).2
    have k : 24 * daysBefore (j + 1 + 1) ≤ 8760 := by interval_cases j <;> decide
    omega
  by_cases hk : k = 1 ∨ k = (if x.heating.energyType = 1 then 0 else 9)
  · rw [if_pos hk]
    have e : ∀ i ∈ hoursOfMonth (j + 1), (hourly.map fun u => u k).getD i 0 = nan := by
      intro i hi
      have hi'' : i < hourly.length := by rw [hl]; exact hlt i hi
      rw [List.getD_eq_getElem?_getD, List.getElem?_map, List.getElem?_eq_getElem hi'']
      have := ha ⟨i, hlt i hi⟩ hi'' k
      rw [if_pos hk] at this
      exact this
    rw [Finset.sum_congr rfl e]
    have hne : 24 * daysBefore (j + 1) ∈ hoursOfMonth (j + 1) :=
      Finset.mem_Ico.mpr ⟨le_refl _, by interval_cases j <;> decide⟩
    rw [← Finset.add_sum_erase _ _ hne]
    rfl
  · rw [if_neg hk]
    have e : ∀ i ∈ hoursOfMonth (j + 1), (hourly.map fun u => u k).getD i 0 =
        fin ((if h : i < 8760 then endUse x w air power ⟨i, h⟩ k else 0) / 1000) := by
      intro i hi
      have hi' := hlt i hi
      have hi'' : i < hourly.length := by rw [hl]; exact hi'
      rw [dif_pos hi', List.getD_eq_getElem?_getD, List.getElem?_map, List.getElem?_eq_getElem hi'']
      have := ha ⟨i, hi'⟩ hi'' k
      rw [if_neg hk] at this
      exact this
    rw [Finset.sum_congr rfl e, fin_sum, monthUse, Finset.sum_div]

/-- C26, in full: with physically meaningful input either every end use of every hour is a finite number, or in every hour cooling and
heating (on the fuel of the building) are not numbers and all other end uses are. -/
theorem C26_dichotomy {x : Sim ℝ} (hx : Physical x) (hs : Systems x) (h0 : 0 ≤ x.pop.hoursEnd) (d0 : 0 ≤ x.pop.daysEnd)
    {w : Weather ℝ} (hz : NeverOverhead w) {m' : Model Dbl} {r : List (EndUses Dbl)}
    (hr : simulate false (fresh x w) = some (m', r)) :
    (∀ u ∈ r, ∀ k, ∃ v : ℝ, u k = fin v) ∨
    (∀ u ∈ r, ∀ k : Fin 13, if k = 1 ∨ k = (if x.heating.energyType = 1 then 0 else 9) then u k = nan else ∃ v : ℝ, u k = fin v) := by
  obtain ⟨mass, air, surface, power, hE⟩ := C73_exists hx hs h0 d0 hz hr
  by_cases hd : ∃ i < 8760, power i ≠ 0
  · left
    obtain ⟨hl, h⟩ := C73_results hx hs h0 d0 hz hr hE hd
    intro u hu k
    obtain ⟨i, hi, rfl⟩ := List.getElem_of_mem hu
    exact ⟨_, h ⟨i, hl ▸ hi⟩ hi k⟩
  · right
    push Not at hd
    obtain ⟨hl, h⟩ := C73_no_demand hx hs h0 d0 hz hr hE hd
    intro u hu k
    obtain ⟨i, hi, rfl⟩ := List.getElem_of_mem hu
    have := h ⟨i, hl ▸ hi⟩ hi k
    by_cases hk : k = 1 ∨ k = (if x.heating.energyType = 1 then 0 else 9)
    · rw [if_pos hk] at this ⊢; exact this
    · rw [if_neg hk] at this ⊢; exact ⟨_, this⟩

end ISO.Props
