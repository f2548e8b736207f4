import Verif.Spec.Memory
import Verif.Lemmas.Memory
import Verif.Props.WarmerYearCases

/-! # C82: how sensitive the hourly results are to the temperatures of the weather, and for how long -/

namespace ISO.Props
open ISO ISO.Spec ISO.Dbl ISO.Epw Hourly CNum ISO.Lemmas

namespace Memory

/-- the weather of an hour of the two years -/
theorem within_hour {D : ℝ} {w w' : Weather ℝ} (h : WithinDegrees D w w') (x : Sim ℝ) (win : Window) (i : ℕ) :
    (hourAt x win w' i).1 = (hourAt x win w i).1 ∧ (hourAt x win w' i).2.windMps = (hourAt x win w i).2.windMps ∧
    (hourAt x win w' i).2.solarRadiation = (hourAt x win w i).2.solarRadiation ∧
    |(hourAt x win w' i).2.temperature - (hourAt x win w i).2.temperature| ≤ D := by
  have e := WeatherEditing.eglobe_reads h.latitude h.longitude h.timezone h.direct h.diffuse
  have one : ∀ j : Fin 8760, (hourInput x win w' j).1 = (hourInput x win w j).1 ∧ (hourInput x win w' j).2.windMps = (hourInput x win w j).2.windMps ∧
      (hourInput x win w' j).2.solarRadiation = (hourInput x win w j).2.solarRadiation ∧
      |(hourInput x win w' j).2.temperature - (hourInput x win w j).2.temperature| ≤ D := by
    intro j
    refine ⟨rfl, congrFun h.wind j, ?_, h.temperature j⟩
    funext k
    simp only [hourInput, hourWeather, e, h.global]
  unfold hourAt
  split_ifs
  · exact one _
  · exact one _

theorem hour_temperature {w w' : Weather ℝ} (x : Sim ℝ) (win : Window) {i : ℕ} (hi : i < 8760) (h : w'.data DBT ⟨i, hi⟩ = w.data DBT ⟨i, hi⟩) :
    (hourAt x win w' i).2.temperature = (hourAt x win w i).2.temperature := by
  unfold hourAt
  rw [dif_pos hi, dif_pos hi]
  exact h

theorem hour_wind {w : Weather ℝ} (x : Sim ℝ) (win : Window) {i : ℕ} (hi : i < 8760) :
    (hourAt x win w i).2.windMps = w.data WSPD ⟨i, hi⟩ := by
  unfold hourAt
  rw [dif_pos hi]
  rfl

theorem max_near {b s t D : ℝ} (h : |s - t| ≤ D) : |max b s - max b t| ≤ D := by
  rw [max_comm b s, max_comm b t]
  exact (abs_max_sub_max_le_abs s t b).trans h

/-- air that is warmer outside by some degrees enters warmer by no more -/
theorem near_outside {x : Sim ℝ} (hr0 : 0 ≤ x.ventilation.heatRecoveryEfficiency) (hr1 : x.ventilation.heatRecoveryEfficiency ≤ 1)
    {e : ℝ} (he : supplied x e = e) (h0 : 0 ≤ e) (inside : ℝ) {T T' W D : ℝ} (hT : |T' - T| ≤ D) (sun : Fin 9 → ℝ)
    (h : stackFlow x T 20 ≤ windFlow x W) (h' : stackFlow x T' 20 ≤ windFlow x W) :
    Near D (buildingNetwork x e 20 inside T W sun) (buildingNetwork x e 20 inside T' W sun) ∧
      (buildingNetwork x e 20 inside T W sun).airExchange = 0.34 * (max 0 (windFlow x W) + e) := by
  have f : ∀ t, stackFlow x t 20 ≤ windFlow x W → throughEnvelope x e t 20 W = max 0 (windFlow x W) := by
    intro t ht
    unfold throughEnvelope
    rw [he, sub_self, abs_zero, zero_mul, max_eq_right ht, max_self, sub_zero, zero_add]
  have f1 := f T h
  have f2 := f T' h'
  have hD : 0 ≤ D := (abs_nonneg _).trans hT
  have hs : |supplyTemperature x T' - supplyTemperature x T| ≤ D := by
    unfold supplyTemperature
    refine max_near ?_
    have : T' + x.ventilation.heatRecoveryEfficiency * (20 - T') - (T + x.ventilation.heatRecoveryEfficiency * (20 - T)) =
        (1 - x.ventilation.heatRecoveryEfficiency) * (T' - T) := by ring
    rw [this, abs_mul, abs_of_nonneg (by linarith)]
    calc (1 - x.ventilation.heatRecoveryEfficiency) * |T' - T| ≤ 1 * |T' - T| := mul_le_mul_of_nonneg_right (by linarith) (abs_nonneg _)
      _ ≤ D := by linarith
  have hq : 0 ≤ max 0 (windFlow x W) := le_max_left _ _
  refine ⟨?_, ?_⟩
  · constructor <;> try first | rfl | exact hT
    · show 0.34 * (throughEnvelope x e T' 20 W + supplied x e) = 0.34 * (throughEnvelope x e T 20 W + supplied x e)
      rw [f1, f2]
    · show |(T' * throughEnvelope x e T' 20 W + supplyTemperature x T' * supplied x e) / (throughEnvelope x e T' 20 W + supplied x e) -
        (T * throughEnvelope x e T 20 W + supplyTemperature x T * supplied x e) / (throughEnvelope x e T 20 W + supplied x e)| ≤ D
      rw [f1, f2, he, ← sub_div]
      generalize max 0 (windFlow x W) = q at hq
      rcases (add_nonneg hq h0).lt_or_eq with hp | hp
      · rw [abs_div, abs_of_pos hp, div_le_iff₀ hp]
        have : T' * q + supplyTemperature x T' * e - (T * q + supplyTemperature x T * e) =
          (T' - T) * q + (supplyTemperature x T' - supplyTemperature x T) * e := by ring
        rw [this]
        refine (abs_add_le _ _).trans ?_
        rw [abs_mul, abs_mul, abs_of_nonneg hq, abs_of_nonneg h0]
        have := mul_le_mul_of_nonneg_right hT hq
        have := mul_le_mul_of_nonneg_right hs h0
        linarith
      · rw [← hp, div_zero, abs_zero]
        exact hD
  · show 0.34 * (throughEnvelope x e T 20 W + supplied x e) = _
    rw [f1, he]

/-- the networks of the two years -/
theorem near_networks {x : Sim ℝ} (hx : Physical x) (hr0 : 0 ≤ x.ventilation.heatRecoveryEfficiency)
    (hr1 : x.ventilation.heatRecoveryEfficiency ≤ 1) {D : ℝ} {w w' : Weather ℝ} (hw : WithinDegrees D w w') {low high low' high' : ℝ}
    (hd : WindDriven x w low high) (hd' : WindDriven x w' low' high') (win : Window) {i : ℕ} (hi : i < 8760) :
    Near |w'.data DBT ⟨i, hi⟩ - w.data DBT ⟨i, hi⟩| (windNetwork x win w i) (windNetwork x win w' i) ∧
      (windNetwork x win w i).airExchange ≤ airBorne x (w.data WSPD ⟨i, hi⟩) := by
  have wind : ∀ {w : Weather ℝ} {low high : ℝ}, WindDriven x w low high →
      stackFlow x (hourAt x win w i).2.temperature 20 ≤ windFlow x (hourAt x win w i).2.windMps := by
    intro w low high hd
    have := hd.wind ⟨i, hi⟩ 20 hd.startLow hd.startHigh
    unfold hourAt
    rw [dif_pos hi]
    exact this
  obtain ⟨e1, e2, e3, -⟩ := within_hour hw x win i
  have e4 : |(hourAt x win w' i).2.temperature - (hourAt x win w i).2.temperature| ≤ |w'.data DBT ⟨i, hi⟩ - w.data DBT ⟨i, hi⟩| := by
    unfold hourAt
    rw [dif_pos hi, dif_pos hi]
    exact le_rfl
  have w1 := wind hd
  have w2 := wind hd'
  have hv := (hourAt_ok hx win w i).vent
  have hf := hx.floor
  have cell : (hourAt x win w i).1.ventilation = x.ventilation.supplyRate ∨ (hourAt x win w i).1.ventilation = 0 := by
    have v : ∀ j, (hourInput x win w j).1.ventilation = x.ventilation.supplyRate ∨ (hourInput x win w j).1.ventilation = 0 := by
      intro j
      simp only [hourInput, scheduleCell]
      cases (decide (win.hourStart ≤ ((Solar.sliceAt j).hour : ℤ)) && decide (((Solar.sliceAt j).hour : ℤ) ≤ win.hourEnd))
      · exact .inr (by norm_num)
      · exact .inl rfl
    unfold hourAt
    split_ifs
    exact v _
  have he : supplied x ((hourAt x win w i).1.ventilation * 3.6 / x.bldg.floorArea) = (hourAt x win w i).1.ventilation * 3.6 / x.bldg.floorArea := by
    unfold supplied
    rcases hd.fans with hf | hf
    · rw [hf, max_eq_right (by norm_num), mul_one]
    · have : (hourAt x win w i).1.ventilation = 0 := by
        rcases cell with h | h
        · rw [h, hf]
        · exact h
      rw [this]
      simp
  have ei : insideOf x (hourAt x win w' i) = insideOf x (hourAt x win w i) := by
    unfold insideOf
    rw [e1, e3]
  unfold windNetwork hourNetwork
  rw [ei, e1, e2, e3]
  rw [e2] at w2
  obtain ⟨k1, k2⟩ := near_outside hr0 hr1 he (by positivity) (insideOf x (hourAt x win w i)) e4 (hourAt x win w i).2.solarRadiation w1 w2
  refine ⟨k1, ?_⟩
  rw [k2, hour_wind x win hi]
  unfold airBorne
  refine mul_le_mul_of_nonneg_left (add_le_add le_rfl ?_) (by norm_num)
  refine div_le_div_of_nonneg_right ?_ hf.le
  rcases cell with h | h
  · rw [h]
  · rw [h, zero_mul]
    have := hx.supplyRate
    positivity

theorem powers {x : Sim ℝ} (hx : Physical x) (hm : HeavyEnough x) (hr0 : 0 ≤ x.ventilation.heatRecoveryEfficiency)
    (hr1 : x.ventilation.heatRecoveryEfficiency ≤ 1) {D : ℝ} {w w' : Weather ℝ} (hw : WithinDegrees D w w') {low high low' high' : ℝ}
    (hd : WindDriven x w low high) (hd' : WindDriven x w' low' high') (win : Window)
    {mass air surface power mass' air' surface' power' : ℕ → ℝ} (m0 : mass 0 = 20) (m0' : mass' 0 = 20)
    (run : Run 8760 (windNetwork x win w) (fun i => (hourAt x win w i).1.heatingSetpoint)
      (fun i => (hourAt x win w i).1.coolingSetpoint) mass air surface power)
    (run' : Run 8760 (windNetwork x win w') (fun i => (hourAt x win w' i).1.heatingSetpoint)
      (fun i => (hourAt x win w' i).1.coolingSetpoint) mass' air' surface' power') :
    (∀ i : Fin 8760, |power' i - power i| ≤ (surfaceToAir x + airBorne x (w.data WSPD i)) * D) ∧
    ∀ n k : ℕ, (∀ i : Fin 8760, n ≤ i.1 → w'.data DBT i = w.data DBT i) → n + k < 8760 →
      |power' (n + k) - power (n + k)| ≤ surfaceToAir x * (remembered x ^ k * D) := by
  have hH : (fun i => (hourAt x win w' i).1.heatingSetpoint) = fun i => (hourAt x win w i).1.heatingSetpoint := by
    funext i; rw [(within_hour hw x win i).1]
  have hC : (fun i => (hourAt x win w' i).1.coolingSetpoint) = fun i => (hourAt x win w i).1.coolingSetpoint := by
    funext i; rw [(within_hour hw x win i).1]
  rw [hH, hC] at run'
  have hs : ∀ i < 8760, Solid (windNetwork x win w i) := fun i _ => wind_solid hx hm win w i
  have hD : 0 ≤ D := (abs_nonneg _).trans (hw.temperature 0)
  have near : ∀ i < 8760, Near D (windNetwork x win w i) (windNetwork x win w' i) := by
    intro i hi
    have n := (near_networks hx hr0 hr1 hw hd hd' win hi).1
    have h := hw.temperature ⟨i, hi⟩
    exact { n with outdoor := n.outdoor.trans h, entering := n.entering.trans h }
  obtain ⟨h1, h2⟩ := run_near run run' hs near (by rw [m0, m0', sub_self, abs_zero]; exact hD)
  refine ⟨fun i => (h2 i.1 i.2).trans (mul_le_mul_of_nonneg_right (add_le_add le_rfl ?_) hD), ?_⟩
  · exact (near_networks hx hr0 hr1 hw hd hd' win i.2).2
  · intro n k he hk
    have f := (run_fades (k := k) (n := n) (c := heatCapacity x / 3.6) (B := massToOutdoor x) run run' hs (fun i hi hn => by
      have h := (near_networks hx hr0 hr1 hw hd hd' win hi).1
      rwa [he ⟨i, hi⟩ hn, sub_self, abs_zero] at h) (fun _ _ => rfl) (fun _ _ => rfl) hk).2
    refine f.trans (mul_le_mul_of_nonneg_left (mul_le_mul_of_nonneg_left (h1 n (by omega)) ?_) (hs _ hk).surfaceAir.le)
    have s := hs _ hk
    have g1 := s.heavy
    have g2 := s.massSurface
    have g3 := s.massOutdoor
    refine pow_nonneg (div_nonneg ?_ ?_) _
    · show 0 ≤ heatCapacity x / 3.6 - (windNetwork x win w (n + k)).massOutdoor / 2
      have : (windNetwork x win w (n + k)).capacity = heatCapacity x := rfl
      rw [this] at g1
      linarith
    · show 0 ≤ heatCapacity x / 3.6 + (windNetwork x win w (n + k)).massOutdoor / 2
      have : (windNetwork x win w (n + k)).capacity = heatCapacity x := rfl
      rw [this] at g1
      linarith

theorem part_near {p p' b f : ℝ} (h : |p' - p| ≤ b) (hf : 0 ≤ f) :
    |max 0 p' * f - max 0 p * f| ≤ f * b ∧ |max 0 (-p') * f - max 0 (-p) * f| ≤ f * b := by
  have one : ∀ {p p' : ℝ}, |p' - p| ≤ b → |max 0 p' * f - max 0 p * f| ≤ f * b := by
    intro p p' h
    rw [← sub_mul, abs_mul, abs_of_nonneg hf, mul_comm]
    exact mul_le_mul_of_nonneg_left (max_near h) hf
  refine ⟨one h, one ?_⟩
  rw [← abs_neg]
  convert h using 2
  ring

end Memory

/-- **C82** An error of `D` degrees in the temperatures of the weather changes the energy for heating or cooling of no hour by more than a figure
that is proportional to `D` and depends only on the building and the wind of that hour: the energy for what the inner surfaces and the air exchanged
with outdoors carry at `D` degrees. -/
theorem C82_sensitivity {x : Sim ℝ} (hx : Physical x) (hp : PlainSystems x) (hm : HeavyEnough x)
    (hr0 : 0 ≤ x.ventilation.heatRecoveryEfficiency) (hr1 : x.ventilation.heatRecoveryEfficiency ≤ 1)
    {D : ℝ} {w w' : Weather ℝ} (hz : NotOverhead w) (hz' : NotOverhead w') (hw : WithinDegrees D w w')
    {low high low' high' : ℝ} (hd : WindDriven x w low high) (hd' : WindDriven x w' low' high')
    {m m' : Model Dbl} {r r' : List (EndUses Dbl)} (hr : simulate false (fresh x w) = some (m, r))
    (hr' : simulate false (fresh x w') = some (m', r')) {heat cool heat' cool' : Fin 8760 → ℝ}
    (hc : Course r heat cool) (hc' : Course r' heat' cool') (i : Fin 8760) :
    |heat' i - heat i| ≤ heatingEnergy x * ((surfaceToAir x + airBorne x (w.data WSPD i)) * D) ∧
    |cool' i - cool i| ≤ coolingEnergy x * ((surfaceToAir x + airBorne x (w.data WSPD i)) * D) := by
  obtain ⟨win, hwin⟩ := year_window hr
  obtain ⟨mass, air, surface, power, m0, run, e⟩ := wind_energy hx hp hz hd hwin hr hc
  obtain ⟨mass', air', surface', power', m0', run', e'⟩ := wind_energy hx hp hz' hd' hwin hr' hc'
  have k := (Memory.powers hx hm hr0 hr1 hw hd hd' win m0 m0' run run').1 i
  rw [(e i).1, (e i).2, (e' i).1, (e' i).2]
  exact ⟨(Memory.part_near k (heating_factor hp)).1, (Memory.part_near k (cooling_factor hp)).2⟩

/-- **C82** The building forgets: if the temperatures of the two years differ by at most `D` degrees before hour `n` and not at all from then on, what
is left of it in the energy of the `k`th hour after that is at most a figure that shrinks by the ratio `remembered x` in every hour. -/
theorem C82_forgets {x : Sim ℝ} (hx : Physical x) (hp : PlainSystems x) (hm : HeavyEnough x)
    (hr0 : 0 ≤ x.ventilation.heatRecoveryEfficiency) (hr1 : x.ventilation.heatRecoveryEfficiency ≤ 1)
    {D : ℝ} {w w' : Weather ℝ} (hz : NotOverhead w) (hz' : NotOverhead w') (hw : WithinDegrees D w w')
    {low high low' high' : ℝ} (hd : WindDriven x w low high) (hd' : WindDriven x w' low' high')
    {m m' : Model Dbl} {r r' : List (EndUses Dbl)} (hr : simulate false (fresh x w) = some (m, r))
    (hr' : simulate false (fresh x w') = some (m', r')) {heat cool heat' cool' : Fin 8760 → ℝ}
    (hc : Course r heat cool) (hc' : Course r' heat' cool') {n : ℕ} (hn : ∀ i : Fin 8760, n ≤ i.1 → w'.data DBT i = w.data DBT i)
    (i : Fin 8760) (k : ℕ) (hi : i.1 = n + k) :
    |heat' i - heat i| ≤ heatingEnergy x * (surfaceToAir x * (remembered x ^ k * D)) ∧
    |cool' i - cool i| ≤ coolingEnergy x * (surfaceToAir x * (remembered x ^ k * D)) := by
  obtain ⟨win, hwin⟩ := year_window hr
  obtain ⟨mass, air, surface, power, m0, run, e⟩ := wind_energy hx hp hz hd hwin hr hc
  obtain ⟨mass', air', surface', power', m0', run', e'⟩ := wind_energy hx hp hz' hd' hwin hr' hc'
  have k := (Memory.powers hx hm hr0 hr1 hw hd hd' win m0 m0' run run').2 n k hn (by rw [← hi]; exact i.2)
  rw [← hi] at k
  rw [(e i).1, (e i).2, (e' i).1, (e' i).2]
  exact ⟨(Memory.part_near k (heating_factor hp)).1, (Memory.part_near k (cooling_factor hp)).2⟩

/-- **C82** and the ratio is less than one, and not negative -/
theorem C82_ratio {x : Sim ℝ} (hx : Physical x) (hm : HeavyEnough x) : 0 ≤ remembered x ∧ remembered x < 1 := by
  obtain ⟨p1, p2, p3, -⟩ := network_positive hx (le_refl (0:ℝ)) 20 0 0 0 (fun _ => 0)
  have g1 : (massCoefficient x * massArea x + massToOutdoor x) / 2 ≤ heatCapacity x / 3.6 := hm
  have g2 : 0 < massCoefficient x * massArea x := p2
  have g3 : 0 < massToOutdoor x := p3
  unfold remembered
  constructor
  · exact div_nonneg (by linarith) (by linarith)
  · rw [div_lt_one (by linarith)]
    linarith

/-! ## the hypotheses are met by the small office in the windy year and one with a colder January -/

/-- the windy year, in January with days of six degrees instead of ten -/
noncomputable def coldJanuary : Weather ℝ :=
  { windyWeather with data := fun c i => if c = DBT then (if i.1 < 744 then 0.6 * windyWeather.data DBT i else windyWeather.data DBT i)
      else windyWeather.data c i }

theorem january_range (i : Fin 8760) : 0 ≤ coldJanuary.data DBT i ∧ coldJanuary.data DBT i ≤ windyWeather.data DBT i ∧
    windyWeather.data DBT i ≤ 10 := by
  have k : 0 ≤ windyWeather.data DBT i ∧ windyWeather.data DBT i ≤ 10 := by
    simp only [windyWeather, if_true]; split_ifs <;> norm_num
  have e : coldJanuary.data DBT i = if i.1 < 744 then 0.6 * windyWeather.data DBT i else windyWeather.data DBT i := by
    simp only [coldJanuary, if_true]
  rw [e]
  split_ifs
  · exact ⟨by linarith, by linarith, k.2⟩
  · exact ⟨k.1, le_rfl, k.2⟩

theorem january_warmer : WarmerYear coldJanuary windyWeather := by
  exact ⟨rfl, rfl, rfl, rfl, rfl, rfl, rfl, fun i => (january_range i).2.1⟩

theorem january_within : WithinDegrees 4 coldJanuary windyWeather := by
  refine ⟨rfl, rfl, rfl, rfl, rfl, rfl, rfl, fun i => ?_⟩
  have k := january_range i
  have e : coldJanuary.data DBT i = if i.1 < 744 then 0.6 * windyWeather.data DBT i else windyWeather.data DBT i := by
    simp only [coldJanuary, if_true]
  rw [abs_of_nonneg (by linarith [k.2.1])]
  rw [e] at k ⊢
  split_ifs
  · linarith [k.2.2]
  · linarith

theorem january_overhead : NotOverhead coldJanuary := notOverhead_of_lat rfl

theorem january_office : WindDriven smallOffice coldJanuary 20 28 := by
  refine ⟨windy_office.fans, ?_, le_rfl, by norm_num, windy_office.heatOccupied, windy_office.heatUnoccupied, windy_office.coolOccupied,
    windy_office.coolUnoccupied⟩
  intro i t t1 t2
  have hl : 0 ≤ leakageAt4Pa smallOffice := le_max_of_le_left (by norm_num)
  have w1 : coldJanuary.data WSPD i = 10 := by
    show windyWeather.data WSPD i = 10
    simp [windyWeather, DBT, WSPD]
  have w2 := january_range i
  unfold stackFlow windFlow
  have v1 : smallOffice.ventilation.hzone = 39 := rfl
  have v2 : smallOffice.ventilation.dCp = 0.75 := rfl
  rw [w1, v1, v2]
  have a1 : |coldJanuary.data DBT i - t| ≤ 28 := by rw [abs_le]; constructor <;> linarith [w2.1, w2.2.1, w2.2.2]
  have a2 : 0.5 * max 0.1 39 * max 0.00001 |coldJanuary.data DBT i - t| ≤ (546:ℝ) := by
    have : max 0.00001 |coldJanuary.data DBT i - t| ≤ 28 := max_le (by norm_num) a1
    rw [max_eq_right (by norm_num)]
    linarith
  have a3 : (0:ℝ) ≤ 0.5 * max 0.1 39 * max 0.00001 |coldJanuary.data DBT i - t| := by
    have : (0:ℝ) ≤ max 0.1 39 := le_max_of_le_right (by norm_num)
    have : 0 ≤ max 0.00001 |coldJanuary.data DBT i - t| := le_max_of_le_right (abs_nonneg _)
    positivity
  have a4 := Real.rpow_le_rpow a3 a2 (by norm_num : (0:ℝ) ≤ 0.667)
  have e : (0.75 * 10 ^ 2 : ℝ) = 75 := by norm_num
  rw [e]
  have := wind_power
  have h5 : leakageAt4Pa smallOffice * ((0.5 * max 0.1 39 * max 0.00001 |coldJanuary.data DBT i - t|) ^ (0.667:ℝ) * 0.0146) ≤
      leakageAt4Pa smallOffice * (0.0769 * 75 ^ (0.667:ℝ)) :=
    mul_le_mul_of_nonneg_left ((mul_le_mul_of_nonneg_right a4 (by norm_num)).trans this) hl
  linarith

/-- the hypotheses of `C82_sensitivity` and `C82_forgets` hold for the office in the two years, which differ, and for which there are results -/
example : Physical smallOffice ∧ PlainSystems smallOffice ∧ HeavyEnough smallOffice ∧ 0 ≤ smallOffice.ventilation.heatRecoveryEfficiency ∧
    smallOffice.ventilation.heatRecoveryEfficiency ≤ 1 ∧ NotOverhead coldJanuary ∧ NotOverhead windyWeather ∧
    WithinDegrees 4 coldJanuary windyWeather ∧ WindDriven smallOffice coldJanuary 20 28 ∧ WindDriven smallOffice windyWeather 20 28 ∧
    (∀ i : Fin 8760, 744 ≤ i.1 → windyWeather.data DBT i = coldJanuary.data DBT i) ∧
    windyWeather.data DBT 12 - coldJanuary.data DBT 12 = 4 ∧
    ∃ m r heat cool m' r' heat' cool', simulate false (fresh smallOffice coldJanuary) = some (m, r) ∧ Course r heat cool ∧
      simulate false (fresh smallOffice windyWeather) = some (m', r') ∧ Course r' heat' cool' := by
  have s1 : 0 ≤ smallOffice.ventilation.heatRecoveryEfficiency ∧ smallOffice.ventilation.heatRecoveryEfficiency ≤ 1 := by
    constructor <;> norm_num [smallOffice]
  have e : ∀ i, coldJanuary.data DBT i = if i.1 < 744 then 0.6 * windyWeather.data DBT i else windyWeather.data DBT i := by
    intro i
    simp only [coldJanuary, if_true]
  obtain ⟨win, hw, mass', air', surface', power', m0', run', ⟨i, hi, hpos⟩, m', r', heat', cool', hr', hc'⟩ := windy_year
  obtain ⟨mass, air, surface, power, m0, run, hp⟩ := year_run smallOffice_physical january_overhead january_office win
  have k := warmer_powers smallOffice_physical smallOffice_shares.2 s1.1 s1.2 january_warmer january_office windy_office win m0 m0' run run'
  obtain ⟨m, r, heat, cool, hr, hc⟩ := demand_course smallOffice_physical smallOffice_systems january_overhead hw hp hi (lt_of_lt_of_le hpos (k i hi))
  refine ⟨smallOffice_physical, office_plain, smallOffice_shares.2, s1.1, s1.2, january_overhead, windy_overhead, january_within, january_office,
    windy_office, fun i hi => ?_, ?_, m, r, heat, cool, m', r', heat', cool', hr, hc, hr', hc'⟩
  · rw [e i, if_neg (by omega)]
  · have : windyWeather.data DBT 12 = 10 := by
      simp only [windyWeather, if_true]
      exact if_pos (by decide)
    rw [e 12, if_pos (by decide), this]
    norm_num

end ISO.Props
