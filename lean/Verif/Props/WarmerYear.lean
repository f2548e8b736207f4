import Verif.Spec.WarmerYear
import Verif.Props.WholeYear
import Verif.Props.WeatherEditing

/-! # C78: a warmer year -/

namespace ISO.Props
open ISO ISO.Spec ISO.Dbl ISO.Epw Hourly CNum ISO.Lemmas

/-- the weather of an hour of the warmer year -/
theorem warmer_hour {w w' : Weather ℝ} (h : WarmerYear w w') (x : Sim ℝ) (win : Window) (i : ℕ) :
    (hourAt x win w' i).1 = (hourAt x win w i).1 ∧ (hourAt x win w' i).2.windMps = (hourAt x win w i).2.windMps ∧
    (hourAt x win w' i).2.solarRadiation = (hourAt x win w i).2.solarRadiation ∧
    (hourAt x win w i).2.temperature ≤ (hourAt x win w' i).2.temperature := by
  have e := WeatherEditing.eglobe_reads h.latitude h.longitude h.timezone h.direct h.diffuse
  have one : ∀ j : Fin 8760, (hourInput x win w' j).1 = (hourInput x win w j).1 ∧ (hourInput x win w' j).2.windMps = (hourInput x win w j).2.windMps ∧
      (hourInput x win w' j).2.solarRadiation = (hourInput x win w j).2.solarRadiation ∧
      (hourInput x win w j).2.temperature ≤ (hourInput x win w' j).2.temperature := by
    intro j
    refine ⟨rfl, congrFun h.wind j, ?_, h.temperature j⟩
    funext k
    simp only [hourInput, hourWeather, e, h.global]
  unfold hourAt
  split_ifs
  · exact one _
  · exact one _

/-- air that is warmer outside enters warmer -/
theorem warmer_outside {x : Sim ℝ} (hr0 : 0 ≤ x.ventilation.heatRecoveryEfficiency) (hr1 : x.ventilation.heatRecoveryEfficiency ≤ 1)
    {e : ℝ} (he : supplied x e = e) (h0 : 0 ≤ e) (inside : ℝ) {T T' W : ℝ} (hT : T ≤ T') (sun : Fin 9 → ℝ)
    (h : stackFlow x T 20 ≤ windFlow x W) (h' : stackFlow x T' 20 ≤ windFlow x W) :
    Warmer (buildingNetwork x e 20 inside T W sun) (buildingNetwork x e 20 inside T' W sun) := by
  have f : ∀ t, stackFlow x t 20 ≤ windFlow x W → throughEnvelope x e t 20 W = max 0 (windFlow x W) := by
    intro t ht
    unfold throughEnvelope
    rw [he, sub_self, abs_zero, zero_mul, max_eq_right ht, max_self, sub_zero, zero_add]
  have f1 := f T h
  have f2 := f T' h'
  have hs : supplyTemperature x T ≤ supplyTemperature x T' := by
    unfold supplyTemperature
    refine max_le_max le_rfl ?_
    nlinarith [mul_nonneg (sub_nonneg.mpr hr1) (sub_nonneg.mpr hT)]
  have hq : 0 ≤ max 0 (windFlow x W) := le_max_left _ _
  constructor <;> try first | rfl | exact le_rfl | exact hT
  · show 0.34 * (throughEnvelope x e T 20 W + supplied x e) = 0.34 * (throughEnvelope x e T' 20 W + supplied x e)
    rw [f1, f2]
  · show (T * throughEnvelope x e T 20 W + supplyTemperature x T * supplied x e) / (throughEnvelope x e T 20 W + supplied x e) ≤
      (T' * throughEnvelope x e T' 20 W + supplyTemperature x T' * supplied x e) / (throughEnvelope x e T' 20 W + supplied x e)
    rw [f1, f2, he]
    exact div_le_div_of_nonneg_right (add_le_add (mul_le_mul_of_nonneg_right hT hq) (mul_le_mul_of_nonneg_right hs h0)) (add_nonneg hq h0)

/-- no hour of a warmer year takes more heating or less cooling -/
theorem warmer_powers {x : Sim ℝ} (hx : Physical x) (hm : HeavyEnough x) (hr0 : 0 ≤ x.ventilation.heatRecoveryEfficiency)
    (hr1 : x.ventilation.heatRecoveryEfficiency ≤ 1) {w w' : Weather ℝ} (hw : WarmerYear w w') {low high low' high' : ℝ}
    (hd : WindDriven x w low high) (hd' : WindDriven x w' low' high') (win : Window)
    {mass air surface power mass' air' surface' power' : ℕ → ℝ} (m0 : mass 0 = 20) (m0' : mass' 0 = 20)
    (run : Run 8760 (windNetwork x win w) (fun i => (hourAt x win w i).1.heatingSetpoint)
      (fun i => (hourAt x win w i).1.coolingSetpoint) mass air surface power)
    (run' : Run 8760 (windNetwork x win w') (fun i => (hourAt x win w' i).1.heatingSetpoint)
      (fun i => (hourAt x win w' i).1.coolingSetpoint) mass' air' surface' power') : ∀ i < 8760, power' i ≤ power i := by
  have hH : (fun i => (hourAt x win w' i).1.heatingSetpoint) = fun i => (hourAt x win w i).1.heatingSetpoint := by
    funext i; rw [(warmer_hour hw x win i).1]
  have hC : (fun i => (hourAt x win w' i).1.coolingSetpoint) = fun i => (hourAt x win w i).1.coolingSetpoint := by
    funext i; rw [(warmer_hour hw x win i).1]
  have wind : ∀ {w : Weather ℝ} {low high : ℝ}, WindDriven x w low high → ∀ i < 8760,
      stackFlow x (hourAt x win w i).2.temperature 20 ≤ windFlow x (hourAt x win w i).2.windMps := by
    intro w low high hd i hi
    have := hd.wind ⟨i, hi⟩ 20 hd.startLow hd.startHigh
    unfold hourAt
    rw [dif_pos hi]
    exact this
  have hwarm : ∀ i < 8760, Warmer (windNetwork x win w i) (windNetwork x win w' i) := by
    intro i hi
    obtain ⟨e1, e2, e3, e4⟩ := warmer_hour hw x win i
    have w1 := wind hd i hi
    have w2 := wind hd' i hi
    have hv := (hourAt_ok hx win w i).vent
    unfold windNetwork hourNetwork
    have ei : insideOf x (hourAt x win w' i) = insideOf x (hourAt x win w i) := by
      unfold insideOf
      rw [e1, e3]
    rw [ei, e1, e2, e3]
    rw [e2] at w2
    have := hx.floor
    refine warmer_outside hr0 hr1 ?_ (by positivity) _ e4 _ w1 w2
    unfold supplied
    rcases hd.fans with hf | hf
    · rw [hf, max_eq_right (by norm_num), mul_one]
    · have : (hourAt x win w i).1.ventilation = 0 := by
        have v : ∀ j, (hourInput x win w j).1.ventilation = 0 := by
          intro j
          simp only [hourInput, scheduleCell, hf]
          cases (decide (win.hourStart ≤ ((Solar.sliceAt j).hour : ℤ)) && decide (((Solar.sliceAt j).hour : ℤ) ≤ win.hourEnd)) <;> norm_num
        unfold hourAt
        split_ifs
        exact v _
      rw [this]
      simp
  rw [hH, hC] at run'
  exact run_gains run run' (fun i _ => wind_solid hx hm win w i) hwarm (m0.trans m0'.symm).le

/-- **C78** In a warmer year no hour takes more energy for heating or less for cooling: the same building, two years at the same place with the same
wind and sun of which the second is in no hour the cooler one. -/
theorem C78_warmer {x : Sim ℝ} (hx : Physical x) (hp : PlainSystems x) (hm : HeavyEnough x) (hr0 : 0 ≤ x.ventilation.heatRecoveryEfficiency)
    (hr1 : x.ventilation.heatRecoveryEfficiency ≤ 1) {w w' : Weather ℝ} (hz : NotOverhead w) (hz' : NotOverhead w') (hw : WarmerYear w w')
    {low high low' high' : ℝ} (hd : WindDriven x w low high) (hd' : WindDriven x w' low' high')
    {m m' : Model Dbl} {r r' : List (EndUses Dbl)} (hr : simulate false (fresh x w) = some (m, r))
    (hr' : simulate false (fresh x w') = some (m', r')) {heat cool heat' cool' : Fin 8760 → ℝ}
    (hc : Course r heat cool) (hc' : Course r' heat' cool') :
    (∀ i, heat' i ≤ heat i) ∧ ∀ i, cool i ≤ cool' i := by
  obtain ⟨win, hwin⟩ := year_window hr
  obtain ⟨mass, air, surface, power, m0, run, e⟩ := wind_energy hx hp hz hd hwin hr hc
  obtain ⟨mass', air', surface', power', m0', run', e'⟩ := wind_energy hx hp hz' hd' hwin hr' hc'
  have k := warmer_powers hx hm hr0 hr1 hw hd hd' win m0 m0' run run'
  exact ⟨scaled_hour (heating_factor hp) (fun i hi => max_le_max le_rfl (k i hi)) (fun i => (e i).1) (fun i => (e' i).1),
    scaled_hour (cooling_factor hp) (fun i hi => max_le_max le_rfl (neg_le_neg (k i hi))) (fun i => (e' i).2) (fun i => (e i).2)⟩

end ISO.Props
