import Verif.Props.MonthlyClosed
import Verif.Spec.MonthlyRetrofit

/-!
# C69: a better envelope, or stronger heat sources, in the monthly simulation
-/

namespace ISO.Monthly
open ISO Dbl ISO.Spec

theorem demand_le {a g g' L L' : ℝ} (ha : 0 < a) (hg : 0 < g) (hgg : g ≤ g') (hL' : 0 < L') (hLL : L' ≤ L) (h : g ≠ L)
    (h' : g' ≠ L') : L' / sec a (g' / L') ≤ L / sec a (g / L) := by
  have hL : 0 < L := hL'.trans_le hLL
  have h1 : g / L ≠ 1 := by rw [Ne, div_eq_one_iff_eq hL.ne']; exact h
  have h1' : g' / L' ≠ 1 := by rw [Ne, div_eq_one_iff_eq hL'.ne']; exact h'
  have hγ : g / L ≤ g' / L' := div_le_div₀ (hg.le.trans hgg) hgg hL' hLL
  have hpos : 0 < g / L := by positivity
  have h0 := one_lt_sec ha hpos h1
  have hs : sec a (g / L) ≤ sec a (g' / L') := by
    rcases hγ.eq_or_lt with e | e
    · rw [e]
    · exact (sec_strictMono ha hpos.le h1 h1' e).le
  exact div_le_div₀ hL.le hLL (by linarith) hs

/-- taking the same amount from gain and loss does not raise the need -/
theorem demand_shift {a g L δ : ℝ} (ha : 0 < a) (hδ : 0 ≤ δ) (hg : 0 < g - δ) (hL : 0 < L - δ) (h : g ≠ L) :
    (L - δ) / sec a ((g - δ) / (L - δ)) ≤ L / sec a (g / L) := by
  have hL0 : 0 < L := by linarith
  have hg0 : 0 < g := by linarith
  have form : ∀ {p q : ℝ}, 0 < p → 0 < q → p ≠ q → q / sec a (p / q) = (p - q) / ((p / q) ^ (a + 1) - 1) := by
    intro p q hp hq hpq
    unfold sec
    have h1 : p / q ≠ 1 := by rw [Ne, div_eq_one_iff_eq hq.ne']; exact hpq
    have h2 := pow_ne ha (by positivity : 0 < p / q) h1
    have h3 : (p / q) ^ (a + 1) - 1 ≠ 0 := fun e => h2 (by linarith)
    have h4 : p - q ≠ 0 := sub_ne_zero.mpr hpq
    have h5 : p / q - 1 = (p - q) / q := by field_simp
    rw [h5]
    field_simp
  rw [form hg hL (by intro e; apply h; linarith), form hg0 hL0 h]
  rcases lt_or_gt_of_ne h with hlt | hlt
  · have e1 : (g - δ) / (L - δ) ≤ g / L := by rw [div_le_div_iff₀ hL hL0]; nlinarith
    have e2 : g / L < 1 := by rw [div_lt_one hL0]; exact hlt
    have p1 : ((g - δ) / (L - δ)) ^ (a + 1) ≤ (g / L) ^ (a + 1) := Real.rpow_le_rpow (by positivity) e1 (by linarith)
    have p2 : (g / L) ^ (a + 1) < 1 := Real.rpow_lt_one (by positivity) e2 (by linarith)
    rw [show g - δ - (L - δ) = -(L - g) by ring, show g - L = -(L - g) by ring, ← neg_div_neg_eq, ← neg_div_neg_eq (-(L - g)), neg_neg]
    exact div_le_div_of_nonneg_left (by linarith) (by linarith) (by linarith)
  · have e1 : g / L ≤ (g - δ) / (L - δ) := by rw [div_le_div_iff₀ hL0 hL]; nlinarith
    have e2 : 1 < g / L := by rw [one_lt_div hL0]; exact hlt
    have p1 : (g / L) ^ (a + 1) ≤ ((g - δ) / (L - δ)) ^ (a + 1) := Real.rpow_le_rpow (by positivity) e1 (by linarith)
    have p2 : 1 < (g / L) ^ (a + 1) := Real.one_lt_rpow e2 (by linarith)
    rw [show g - δ - (L - δ) = g - L by ring]
    exact div_le_div_of_nonneg_left (by linarith) (by linarith) (by linarith)

theorem demand_inertia {a b g L : ℝ} (ha : 0 < a) (hab : a ≤ b) (hg : 0 < g) (hL : 0 < L) (h : g ≠ L) :
    L / sec b (g / L) ≤ L / sec a (g / L) := by
  rcases hab.eq_or_lt with e | e
  · rw [e]
  · exact (need_mono_inertia ha e hg hL h).le

theorem heatDemand_sec {a g l : ℝ} (ha : 0 < a) (hg : 0 < g) (hl : 0 < l) (h : g ≠ l + dblMin) :
    heatDemand a g l = (l + dblMin) / sec a (g / (l + dblMin)) - dblMin := by
  have hp := dblMin_pos
  unfold heatDemand
  rw [if_pos hl, ← need_sec ha hg (by linarith) h]
  ring

/-- the need for heat falls if the loss falls by at least as much as the gain, and inertia does not -/
theorem heatDemand_le {a b g g' l l' : ℝ} (ha : 0 < a) (hab : a ≤ b) (hg : 0 < g) (hg' : 0 < g') (hl' : 0 < l') (hll : l' ≤ l)
    (h : g ≠ l + dblMin) (h' : g' ≠ l' + dblMin) (hd : g - g' ≤ l - l') : heatDemand b g' l' ≤ heatDemand a g l := by
  have hp := dblMin_pos
  have hL' : 0 < l' + dblMin := by linarith
  have hL : 0 < l + dblMin := by linarith
  rw [heatDemand_sec (ha.trans_le hab) hg' hl' h', heatDemand_sec ha hg (hl'.trans_le hll) h]
  refine sub_le_sub_right ((demand_inertia ha hab hg' hL' h').trans ?_) _
  rcases le_or_gt g g' with hc | hc
  · exact demand_le ha hg hc hL' (by linarith) h h'
  · have e : g - (g - g') = g' := by ring
    have s := demand_shift (L := l + dblMin) ha (by linarith : 0 ≤ g - g') (by linarith) (by linarith) h
    rw [e] at s
    refine le_trans ?_ s
    exact demand_le ha hg' le_rfl hL' (by linarith) (by intro e'; apply h; linarith) h'

/-- the need for cold grows with the gain -/
theorem coolDemand_le {a g g' l : ℝ} (ha : 0 < a) (hg : 0 < g) (hgg : g ≤ g') (h : l ≠ g + dblMin) (h' : l ≠ g' + dblMin) :
    coolDemand a g l ≤ coolDemand a g' l := by
  have hp := dblMin_pos
  unfold coolDemand
  split_ifs with hl
  · have e1 := need_sec ha hl (by linarith : 0 < g + dblMin) h
    have e2 := need_sec ha hl (by linarith : 0 < g' + dblMin) h'
    have := demand_le ha hl le_rfl (by linarith : 0 < g + dblMin) (by linarith : g + dblMin ≤ g' + dblMin) h' h
    linarith
  · linarith

end ISO.Monthly

namespace ISO.Props
open ISO ISO.Monthly ISO.Spec Dbl CNum

theorem megaseconds_pos (m : Fin 12) : 0 < megaseconds m := by fin_cases m <;> norm_num [megaseconds, days, monthDays]

theorem share_bounds {x : Sim ℝ} (h : WeekWindow x.pop) : 0 ≤ occupiedShare x ∧ occupiedShare x ≤ 1 := by
  have h1 := h.hours_nonneg; have h2 := h.hours_le; have h3 := h.days_ge; have h4 := h.days_le
  unfold occupiedShare
  constructor
  · positivity
  · rw [div_le_one (by norm_num)]; nlinarith

/-- two buildings with the same heating system (the set-points may differ) -/
structure SameHeating (x y : Sim ℝ) : Prop where
  hvacLossFactor : y.heating.hvacLossFactor = x.heating.hvacLossFactor
  hotcoldWasteFactor : y.heating.hotcoldWasteFactor = x.heating.hotcoldWasteFactor
  efficiency : y.heating.efficiency = x.heating.efficiency
  DH_YesNo : y.heating.DH_YesNo = x.heating.DH_YesNo
  energyType : y.heating.energyType = x.heating.energyType
  frac_DH_free : y.heating.frac_DH_free = x.heating.frac_DH_free
  eta_DH_sys : y.heating.eta_DH_sys = x.heating.eta_DH_sys
  eta_DH_network : y.heating.eta_DH_network = x.heating.eta_DH_network

/-- less need, less energy -/
theorem heat_energy' {x y : Sim ℝ} (hs : SystemData x) (hu : Unmixed x) (hA : 0 < x.bldg.floorArea) (eh : SameHeating x y)
    (eA : y.bldg.floorArea = x.bldg.floorArea) {m : Fin 12} (h : monthHeat y m ≤ monthHeat x m) :
    perArea y (heatElectricity y m) ≤ perArea x (heatElectricity x m) ∧ perArea y (heatGas y m) ≤ perArea x (heatGas x m) := by
  have hk : 0 < singleMJ := by unfold singleMJ; norm_num
  have hd : heatDelivered y m ≤ heatDelivered x m := by
    unfold heatDelivered heatLossRate
    rw [eh.hvacLossFactor, eh.hotcoldWasteFactor, hu.waste, zero_div, zero_div]
    have := hs.heatLoss
    exact mul_le_mul_of_nonneg_right h (by linarith)
  have hp := dblMin_pos
  have p1 : 0 < x.heating.efficiency + dblMin := by have := hs.efficiency; linarith
  have p2 := hs.districtHeat
  have p3 : 0 ≤ 1 - x.heating.frac_DH_free := by linarith [hu.freeHeat]
  have per : ∀ {p q : ℝ}, p ≤ q → perArea y p ≤ perArea x q := by
    intro p q hpq
    unfold perArea
    rw [eA]
    exact div_le_div_of_nonneg_right (div_le_div_of_nonneg_right hpq hA.le) hk.le
  constructor
  · apply per
    unfold heatElectricity
    rw [eh.DH_YesNo, eh.energyType, eh.efficiency]
    split_ifs
    · exact div_le_div_of_nonneg_right hd p1.le
    · exact le_rfl
  · apply per
    unfold heatGas
    rw [eh.DH_YesNo, eh.energyType, eh.efficiency, eh.frac_DH_free, eh.eta_DH_sys, eh.eta_DH_network]
    split_ifs
    · exact div_le_div_of_nonneg_right (mul_le_mul_of_nonneg_right hd p3) p2.le
    · exact le_rfl
    · exact div_le_div_of_nonneg_right hd p1.le

theorem heat_energy {x y : Sim ℝ} (hs : SystemData x) (hu : Unmixed x) (hA : 0 < x.bldg.floorArea) (eh : y.heating = x.heating)
    (eA : y.bldg.floorArea = x.bldg.floorArea) {m : Fin 12} (h : monthHeat y m ≤ monthHeat x m) :
    perArea y (heatElectricity y m) ≤ perArea x (heatElectricity x m) ∧ perArea y (heatGas y m) ≤ perArea x (heatGas x m) :=
  heat_energy' hs hu hA (by constructor <;> rw [eh]) eA h

/-- two buildings with the same cooling system and the same hot-cold waste -/
structure SameCooling (x y : Sim ℝ) : Prop where
  hvacLossFactor : y.cooling.hvacLossFactor = x.cooling.hvacLossFactor
  DC_YesNo : y.cooling.DC_YesNo = x.cooling.DC_YesNo
  eta_DC_frac_abs : y.cooling.eta_DC_frac_abs = x.cooling.eta_DC_frac_abs
  eta_DC_COP : y.cooling.eta_DC_COP = x.cooling.eta_DC_COP
  eta_DC_network : y.cooling.eta_DC_network = x.cooling.eta_DC_network
  cop : y.cooling.cop = x.cooling.cop
  partialLoadValue : y.cooling.partialLoadValue = x.cooling.partialLoadValue
  frac_DC_free : y.cooling.frac_DC_free = x.cooling.frac_DC_free
  eta_DC_COP_abs : y.cooling.eta_DC_COP_abs = x.cooling.eta_DC_COP_abs
  hotcoldWasteFactor : y.heating.hotcoldWasteFactor = x.heating.hotcoldWasteFactor

theorem cold_energy' {x y : Sim ℝ} (hs : SystemData x) (hu : Unmixed x) (hA : 0 < x.bldg.floorArea) (ec : SameCooling x y)
    (eA : y.bldg.floorArea = x.bldg.floorArea) {m : Fin 12} (h : monthCold x m ≤ monthCold y m) :
    perArea x (coldElectricity x m) ≤ perArea y (coldElectricity y m) ∧ perArea x (coldGas x m) ≤ perArea y (coldGas y m) := by
  have hk : 0 < singleMJ := by unfold singleMJ; norm_num
  have hd : coldDelivered x m ≤ coldDelivered y m := by
    unfold coldDelivered coolLossRate
    rw [ec.hvacLossFactor, ec.hotcoldWasteFactor, hu.waste, zero_div, zero_div]
    have := hs.coolLoss
    exact mul_le_mul_of_nonneg_right h (by linarith)
  have hp := dblMin_pos
  have p1 : 0 < x.cooling.cop * x.cooling.partialLoadValue + dblMin := by have := hs.cop; linarith
  have p2 := hs.districtCold
  have p3 := hs.absorption
  have p4 : 0 ≤ 1 - x.cooling.eta_DC_frac_abs := by linarith [hu.absorbed]
  have p5 : 0 ≤ 1 - x.cooling.frac_DC_free := by linarith [hu.freeCold]
  have per : ∀ {p q : ℝ}, p ≤ q → perArea x p ≤ perArea y q := by
    intro p q hpq
    unfold perArea
    rw [eA]
    exact div_le_div_of_nonneg_right (div_le_div_of_nonneg_right hpq hA.le) hk.le
  constructor
  · apply per
    unfold coldElectricity
    rw [ec.DC_YesNo, ec.eta_DC_frac_abs, ec.eta_DC_COP, ec.eta_DC_network, ec.cop, ec.partialLoadValue]
    split_ifs
    · exact div_le_div_of_nonneg_right (mul_le_mul_of_nonneg_right hd p4) p2.le
    · exact div_le_div_of_nonneg_right hd p1.le
  · apply per
    unfold coldGas
    rw [ec.DC_YesNo, ec.frac_DC_free, ec.eta_DC_COP_abs]
    split_ifs
    · exact div_le_div_of_nonneg_right (mul_le_mul_of_nonneg_right hd p5) p3.le
    · exact le_rfl

theorem cold_energy {x y : Sim ℝ} (hs : SystemData x) (hu : Unmixed x) (hA : 0 < x.bldg.floorArea) (eh : y.heating = x.heating)
    (ec : y.cooling = x.cooling) (eA : y.bldg.floorArea = x.bldg.floorArea) {m : Fin 12} (h : monthCold x m ≤ monthCold y m) :
    perArea x (coldElectricity x m) ≤ perArea y (coldElectricity y m) ∧ perArea x (coldGas x m) ≤ perArea y (coldGas y m) :=
  cold_energy' hs hu hA (by constructor <;> first | rw [ec] | rw [eh]) eA h

theorem more_gain {x y : Sim ℝ} (ht : TempData x) (hv : VentilationData x) (hl : LightingData x) (hn : NonNegative x.bldg x.weather)
    (hb : StrongerSources x y) (m : Fin 12) : monthGain x m ≤ monthGain (takeHeatSources x y) m := by
  obtain ⟨d0, d1⟩ := share_bounds ht.week
  have hA := hv.floorArea
  have i1 : insideHeat x ≤ insideHeat (takeHeatSources x y) := by
    have a1 : x.bldg.floorArea * x.pop.heatGainPerPerson
        * (occupiedShare x / x.pop.densityOccupied + (1 - occupiedShare x) / x.pop.densityUnoccupied)
        ≤ x.bldg.floorArea * y.pop.heatGainPerPerson
        * (occupiedShare x / x.pop.densityOccupied + (1 - occupiedShare x) / x.pop.densityUnoccupied) := by
      have h1 := hv.occupied; have h2 := hv.unoccupied
      have h3 : 0 ≤ 1 - occupiedShare x := by linarith
      exact mul_le_mul_of_nonneg_right (mul_le_mul_of_nonneg_left hb.people hA.le) (by positivity)
    have a2 : x.bldg.floorArea
        * (occupiedShare x * (x.building.electricApplianceHeatGainOccupied + x.building.gasApplianceHeatGainOccupied)
          + (1 - occupiedShare x) * (x.building.electricApplianceHeatGainUnoccupied + x.building.gasApplianceHeatGainUnoccupied))
        ≤ x.bldg.floorArea
        * (occupiedShare x * (y.building.electricApplianceHeatGainOccupied + y.building.gasApplianceHeatGainOccupied)
          + (1 - occupiedShare x) * (y.building.electricApplianceHeatGainUnoccupied + y.building.gasApplianceHeatGainUnoccupied)) := by
      refine mul_le_mul_of_nonneg_left (add_le_add ?_ ?_) hA.le
      · exact mul_le_mul_of_nonneg_left (add_le_add hb.electricOccupied hb.gasOccupied) d0
      · exact mul_le_mul_of_nonneg_left (add_le_add hb.electricUnoccupied hb.gasUnoccupied) (by linarith)
    have a3 : lightsYear x ≤ lightsYear (takeHeatSources x y) := by
      have l1 := hl.overlap; have l2 := hl.days; have l3 := hl.dimming; have l4 := hl.sensor; have l5 := hl.constant
      have l6 := hl.year
      have l7 : 0 ≤ litByNight x := add_nonneg (le_max_left _ _) (le_max_left _ _)
      have b1 : x.bldg.floorArea * x.lights.powerDensityOccupied * (x.building.constantIllumination * x.building.lightingOccupancySensor)
          * (litDays x * (x.lights.dimmingFraction * litByDay x + litByNight x))
          ≤ x.bldg.floorArea * y.lights.powerDensityOccupied * (x.building.constantIllumination * x.building.lightingOccupancySensor)
          * (litDays x * (x.lights.dimmingFraction * litByDay x + litByNight x)) :=
        mul_le_mul_of_nonneg_right (mul_le_mul_of_nonneg_right (mul_le_mul_of_nonneg_left hb.lightsOccupied hA.le) (by positivity))
          (by positivity)
      have b2 : x.bldg.floorArea * x.lights.powerDensityUnoccupied * (8760 - litDays x * (x.pop.hoursEnd - x.pop.hoursStart))
          ≤ x.bldg.floorArea * y.lights.powerDensityUnoccupied * (8760 - litDays x * (x.pop.hoursEnd - x.pop.hoursStart)) :=
        mul_le_mul_of_nonneg_right (mul_le_mul_of_nonneg_left hb.lightsUnoccupied hA.le) (by linarith)
      exact div_le_div_of_nonneg_right (add_le_add b1 b2) (by norm_num)
    refine add_le_add (add_le_add a1 a2) ?_
    exact div_le_div_of_nonneg_right (mul_le_mul_of_nonneg_left a3 (by norm_num)) (by norm_num)
  have hI : ∀ j, 0 ≤ irradianceOn x.weather m j := by
    intro j
    unfold irradianceOn
    split_ifs
    · exact hn.solar _ _
    · exact hn.horizontal _
  have hsh : ∀ c, 0 ≤ shading c := by
    intro c
    unfold shading
    split_ifs <;> norm_num
  have i2 : windowHeat x.bldg x.weather m ≤ windowHeat (takeHeatSources x y).bldg x.weather m := by
    refine Finset.sum_le_sum fun j _ => mul_le_mul_of_nonneg_left ?_ (hI j)
    have h1 := hn.window j; have h2 : 0 ≤ 1 - x.bldg.win_ff := by linarith [hn.frame]
    have h4 := hn.glazing; have h5 := hn.correction j; have h6 := hsh (x.bldg.windowShadingDevice j)
    refine mul_le_mul_of_nonneg_right (mul_le_mul_of_nonneg_right (mul_le_mul_of_nonneg_left ?_ (by positivity)) h6) h5
    exact mul_le_mul_of_nonneg_right (hb.glass j) h4
  have i3 : opaqueHeat x.bldg x.weather m ≤ opaqueHeat (takeHeatSources x y).bldg x.weather m := by
    refine Finset.sum_le_sum fun j _ => mul_le_mul_of_nonneg_left ?_ (hI j)
    have h2 := hn.resistance; have h3 := hn.wallU j; have h4 := hn.wall j
    exact mul_le_mul_of_nonneg_right (mul_le_mul_of_nonneg_right (mul_le_mul_of_nonneg_right (hb.colour j) h2) h3) h4
  have i4 : skyLoss (takeHeatSources x y).bldg = skyLoss x.bldg := rfl
  unfold monthGain
  refine mul_le_mul_of_nonneg_left ?_ (megaseconds_pos m).le
  rw [i4]
  exact add_le_add i1 (sub_le_sub_right (add_le_add i2 i3) _)

/-- C69: more heat from people, appliances, lights or the sun never means more energy for heating or less for cooling, in any month
in which the building loses heat. -/
theorem C69_sources (x y : Sim ℝ) (hx : Ordinary x) (hy : Ordinary (takeHeatSources x y)) (hst : SteadyTemperatures x)
    (hn : NonNegative x.bldg x.weather) (hu : Unmixed x) (hb : StrongerSources x y) (r r' : List (Hourly.EndUses Dbl)) (hr : simulate (x.map fin) = some r)
    (hr' : simulate ((takeHeatSources x y).map fin) = some r') (m : Fin 12) :
    ∃ (_ : m.val < r.length) (_ : m.val < r'.length),
      (0 < monthLoss x (heatTo x) m → NotAbove (r'[m.val] 0) (r[m.val] 0) ∧ NotAbove (r'[m.val] 9) (r[m.val] 9)) ∧
      NotAbove (r[m.val] 1) (r'[m.val] 1) ∧ NotAbove (r[m.val] 10) (r'[m.val] 10) := by
  obtain ⟨l, hL⟩ := C68_energy x hx r hr
  obtain ⟨l', hL'⟩ := C68_energy _ hy r' hr'
  obtain ⟨a0, a9, a1, a10⟩ := hL m
  obtain ⟨b0, b9, b1, b10⟩ := hL' m
  have hg := more_gain hx.temperatures hx.flows hx.lights hn hb m
  have g0 := hx.months.gain m
  have hst' : SteadyTemperatures (takeHeatSources x y) := ⟨hst.1, hst.2⟩
  have t1 := heatedTo_steady hx.temperatures hst m
  have t2 := cooledTo_steady hx.temperatures hst m
  have t3 := heatedTo_steady hy.temperatures hst' m
  have t4 := cooledTo_steady hy.temperatures hst' m
  have p1 := hx.months.heating m; have p2 := hx.months.cooling m
  have p3 := hy.months.heating m; have p4 := hy.months.cooling m
  rw [t1] at p1; rw [t2] at p2; rw [t3] at p3; rw [t4] at p4
  have c := cold_energy (y := takeHeatSources x y) hx.systems hu hx.flows.floorArea rfl rfl rfl (m := m)
    (by
      unfold monthCold
      rw [t2, t4]
      exact coolDemand_le hx.inertia g0 hg p2 p4)
  refine ⟨by omega, by omega, fun hloss => ?_, ⟨_, _, a1, b1, c.1⟩, ⟨_, _, a10, b10, c.2⟩⟩
  have e := heat_energy (y := takeHeatSources x y) hx.systems hu hx.flows.floorArea rfl rfl (m := m)
    (by
      unfold monthHeat
      rw [t1, t3]
      have e : monthLoss (takeHeatSources x y) (heatTo (takeHeatSources x y)) m = monthLoss x (heatTo x) m := rfl
      exact heatDemand_le hx.inertia le_rfl g0 (hy.months.gain m) hloss le_rfl p1 p3 (by rw [e]; linarith))
  exact ⟨⟨_, _, b0, a0, e.1⟩, ⟨_, _, b9, a9, e.2⟩⟩

theorem leakage_le {x y : Sim ℝ} (hv : VentilationData x) (hq : 0 < y.bldg.infiltrationRate) (hb : BetterEnvelope x y) (m : Fin 12)
    (T : ℝ) : leakage (takeEnvelope x y) m T ≤ leakage x m T := by
  have hk : 0 ≤ x.ventilation.zone_frac * max 0.1 x.bldg.buildingHeight * |x.weather.mdbt m - T| := by
    have := hv.zone
    have h2 : (0:ℝ) ≤ max 0.1 x.bldg.buildingHeight := le_trans (by norm_num) (le_max_left _ _)
    positivity
  have s1 : stack (takeEnvelope x y) m T ≤ stack x m T := by
    refine max_le_max le_rfl (mul_le_mul_of_nonneg_right ?_ (Real.rpow_nonneg hk _))
    exact mul_le_mul_of_nonneg_left hb.leaks hv.stackCoeff
  have s0 : 0 ≤ stack (takeEnvelope x y) m T := le_trans (by norm_num) (le_max_left _ _)
  have hp : 0 ≤ (x.ventilation.dCp * x.terrain * x.weather.mwind m ^ 2) ^ x.ventilation.wind_exp :=
    Real.rpow_nonneg (mul_nonneg hv.windBase (sq_nonneg _)) _
  have w1 : windDriven (takeEnvelope x y) m ≤ windDriven x m :=
    mul_le_mul_of_nonneg_right (mul_le_mul_of_nonneg_left hb.leaks hv.windCoeff) hp
  have form : ∀ {s q : ℝ}, q ≠ 0 → 0.14 * (s * (x.ventilation.wind_coeff * q
      * (x.ventilation.dCp * x.terrain * x.weather.mwind m ^ 2) ^ x.ventilation.wind_exp)) / q
      = s * (0.14 * (x.ventilation.wind_coeff * (x.ventilation.dCp * x.terrain * x.weather.mwind m ^ 2) ^ x.ventilation.wind_exp)) := by
    intro s q hq
    generalize (x.ventilation.dCp * x.terrain * x.weather.mwind m ^ 2) ^ x.ventilation.wind_exp = z
    field_simp
  have c1 : 0.14 * (stack (takeEnvelope x y) m T * windDriven (takeEnvelope x y) m) / y.bldg.infiltrationRate
      ≤ 0.14 * (stack x m T * windDriven x m) / x.bldg.infiltrationRate := by
    refine (form hq.ne').trans_le (le_trans ?_ (form (s := stack x m T) hv.leaky.ne').symm.le)
    have := hv.windCoeff
    exact mul_le_mul_of_nonneg_right s1 (by positivity)
  exact add_le_add (add_le_add (max_le_max s1 w1) c1) le_rfl

theorem running_nonneg {x : Sim ℝ} (hv : VentilationData x) {d : ℝ} (h0 : 0 ≤ d) (h1 : d ≤ 1) : 0 ≤ running x d := by
  unfold running
  have := hv.occupied; have := hv.unoccupied
  split_ifs
  · norm_num
  · exact h0
  · exact add_nonneg h0 (mul_nonneg (by linarith) (by positivity))

theorem fanFlow_le {x y : Sim ℝ} (hv : VentilationData x) (hb : BetterEnvelope x y) {d : ℝ} (h0 : 0 ≤ d) (h1 : d ≤ 1) :
    fanFlow (takeEnvelope x y) d ≤ fanFlow x d := by
  have k : fanFlow (takeEnvelope x y) d = if x.ventilation.ventType = 3 then 0
      else running x d * (x.ventilation.supplyRate / x.bldg.floorArea / 3.6) * (1 - x.ventilation.exhaustAirRecirculated)
        * (1 - y.ventilation.heatRecoveryEfficiency) := rfl
  rw [k]
  unfold fanFlow
  split_ifs
  · exact le_rfl
  · have h1 := running_nonneg hv h0 h1
    have h2 := hv.supply; have h3 := hv.floorArea
    have h4 : 0 ≤ 1 - x.ventilation.exhaustAirRecirculated := by linarith [hv.recirculated]
    exact mul_le_mul_of_nonneg_left (by linarith [hb.recovery]) (by positivity)

/-- leaks and fans move air in one direction only -/
theorem air_nonneg {x : Sim ℝ} (hv : VentilationData x) {d : ℝ} (h0 : 0 ≤ d) (h1 : d ≤ 1) (m : Fin 12) (T : ℝ) :
    0 ≤ leakage x m T + fanFlow x d := by
  have hw : 0 ≤ windDriven x m :=
    mul_nonneg (mul_nonneg hv.windCoeff hv.leaky.le) (Real.rpow_nonneg (mul_nonneg hv.windBase (sq_nonneg _)) _)
  have hs : 0 ≤ stack x m T := le_trans (by norm_num) (le_max_left _ _)
  have hl : 0 ≤ leakage x m T := by
    have h3 : 0 ≤ 0.14 * (stack x m T * windDriven x m) / x.bldg.infiltrationRate :=
      div_nonneg (mul_nonneg (by norm_num) (mul_nonneg hs hw)) hv.leaky.le
    exact add_nonneg (add_nonneg (hs.trans (le_max_left _ _)) h3) (le_max_left _ _)
  refine add_nonneg hl ?_
  unfold fanFlow
  split_ifs
  · exact le_rfl
  · have h1 := running_nonneg hv h0 h1
    have h2 := hv.supply; have h3 := hv.floorArea
    have h4 : 0 ≤ 1 - x.ventilation.exhaustAirRecirculated := by linarith [hv.recirculated]
    have h5 : 0 ≤ 1 - x.ventilation.heatRecoveryEfficiency := by linarith [hv.recovered]
    positivity

/-- a better envelope takes from the losses of a cold month at least what it takes from the gains -/
theorem envelope_figures {x y : Sim ℝ} (ht : TempData x) (hv : VentilationData x) (hv' : VentilationData (takeEnvelope x y))
    (hs : Sensible x) (hb : BetterEnvelope x y) {m : Fin 12} (hc : ColdWalls x m)
    (hl : 0 < monthLoss (takeEnvelope x y) (heatTo x) m) :
    monthLoss (takeEnvelope x y) (heatTo x) m ≤ monthLoss x (heatTo x) m ∧
      monthGain x m - monthGain (takeEnvelope x y) m
        ≤ monthLoss x (heatTo x) m - monthLoss (takeEnvelope x y) (heatTo x) m := by
  obtain ⟨d0, d1⟩ := share_bounds ht.week
  have hM := megaseconds_pos m
  have hA := hv.floorArea
  have hair := hv.air
  set T := heatTo x with hT
  set q := (leakage x m T + fanFlow x (occupiedShare x)) * (x.phys.rhoCpAir * 1000000) / 3600 * x.bldg.floorArea with hq
  set q' := (leakage (takeEnvelope x y) m T + fanFlow (takeEnvelope x y) (occupiedShare x)) * (x.phys.rhoCpAir * 1000000) / 3600
    * x.bldg.floorArea with hq'
  have hqq : q' ≤ q := by
    have h1 := leakage_le (y := y) hv hv'.leaky hb m T
    have h2 := fanFlow_le hv hb d0 d1
    exact mul_le_mul_of_nonneg_right (div_le_div_of_nonneg_right (mul_le_mul_of_nonneg_right (add_le_add h1 h2) (by positivity))
      (by norm_num)) hA.le
  have hq0 : 0 ≤ q' := by
    have h1 := air_nonneg hv' d0 d1 m T
    have : 0 ≤ (leakage (takeEnvelope x y) m T + fanFlow (takeEnvelope x y) (occupiedShare x)) * (x.phys.rhoCpAir * 1000000) / 3600 :=
      div_nonneg (mul_nonneg h1 (by positivity)) (by norm_num)
    exact mul_nonneg this hA.le
  have ex : monthLoss x T m = megaseconds m * (T - x.weather.mdbt m)
      * (∑ i, (x.bldg.wallArea i * x.bldg.wallUniform i + x.bldg.windowArea i * x.bldg.windowUniform i) + q) := rfl
  have ey : monthLoss (takeEnvelope x y) T m = megaseconds m * (T - x.weather.mdbt m)
      * (∑ i, (x.bldg.wallArea i * y.bldg.wallUniform i + x.bldg.windowArea i * y.bldg.windowUniform i) + q') := rfl
  have hS0 : 0 ≤ ∑ i, (x.bldg.wallArea i * y.bldg.wallUniform i + x.bldg.windowArea i * y.bldg.windowUniform i) :=
    Finset.sum_nonneg fun i _ => add_nonneg (mul_nonneg (hs.walls i) (hb.walls0 i)) (mul_nonneg (hs.windows i) (hb.windows0 i))
  have hdT : 0 < T - x.weather.mdbt m := by
    by_contra hn
    rw [ey] at hl
    have : megaseconds m * (T - x.weather.mdbt m) ≤ 0 := mul_nonpos_of_nonneg_of_nonpos hM.le (not_lt.mp hn)
    have := mul_nonpos_of_nonpos_of_nonneg this (add_nonneg hS0 hq0)
    linarith
  have hdiff : ∑ i, x.bldg.wallArea i * (x.bldg.wallUniform i - y.bldg.wallUniform i)
      ≤ ∑ i, (x.bldg.wallArea i * x.bldg.wallUniform i + x.bldg.windowArea i * x.bldg.windowUniform i)
        - ∑ i, (x.bldg.wallArea i * y.bldg.wallUniform i + x.bldg.windowArea i * y.bldg.windowUniform i) := by
    rw [← Finset.sum_sub_distrib]
    refine Finset.sum_le_sum fun i _ => ?_
    have := mul_le_mul_of_nonneg_left (hb.windows i) (hs.windows i)
    linarith
  have hw0 : 0 ≤ ∑ i, x.bldg.wallArea i * (x.bldg.wallUniform i - y.bldg.wallUniform i) :=
    Finset.sum_nonneg fun i _ => mul_nonneg (hs.walls i) (by linarith [hb.walls i])
  have hloss : megaseconds m * (T - x.weather.mdbt m) * ∑ i, x.bldg.wallArea i * (x.bldg.wallUniform i - y.bldg.wallUniform i)
      ≤ monthLoss x T m - monthLoss (takeEnvelope x y) T m := by
    rw [ex, ey, ← mul_sub]
    exact mul_le_mul_of_nonneg_left (by linarith) (mul_nonneg hM.le hdT.le)
  have hgain : monthGain x m - monthGain (takeEnvelope x y) m
      ≤ megaseconds m * (T - x.weather.mdbt m) * ∑ i, x.bldg.wallArea i * (x.bldg.wallUniform i - y.bldg.wallUniform i) := by
    have e1 : insideHeat (takeEnvelope x y) = insideHeat x := rfl
    have e2 : windowHeat (takeEnvelope x y).bldg (takeEnvelope x y).weather m = windowHeat x.bldg x.weather m := rfl
    have e3 : opaqueHeat (takeEnvelope x y).bldg (takeEnvelope x y).weather m
      = ∑ j, irradianceOn x.weather m j * (x.bldg.wallSolarAbsorption j * x.bldg.R_sc_ext * y.bldg.wallUniform j * x.bldg.wallArea j) := rfl
    have e4 : skyLoss (takeEnvelope x y).bldg
      = ∑ j, skyView j * (x.bldg.R_sc_ext * y.bldg.wallUniform j * x.bldg.wallArea j * (5 * x.bldg.wallThermalEmissivity j) * 11) := rfl
    unfold monthGain
    rw [e1, e2, e3, e4, ← mul_sub, mul_assoc]
    refine mul_le_mul_of_nonneg_left ?_ hM.le
    unfold opaqueHeat skyLoss
    rw [Finset.mul_sum]
    have : ∀ a b c d e f : ℝ, a + (b + c - d) - (a + (b + e - f)) = (c - e) - (d - f) := by intros; ring
    rw [this, ← Finset.sum_sub_distrib, ← Finset.sum_sub_distrib, ← Finset.sum_sub_distrib]
    refine Finset.sum_le_sum fun j _ => ?_
    have hj : 0 ≤ x.bldg.wallArea j * (x.bldg.wallUniform j - y.bldg.wallUniform j) :=
      mul_nonneg (hs.walls j) (by linarith [hb.walls j])
    have := mul_le_mul_of_nonneg_right (show x.bldg.R_sc_ext
      * (x.bldg.wallSolarAbsorption j * irradianceOn x.weather m j - skyView j * (5 * x.bldg.wallThermalEmissivity j) * 11)
      ≤ T - x.weather.mdbt m by linarith [hc j]) hj
    refine le_trans (le_of_eq ?_) this
    ring
  refine ⟨?_, hgain.trans hloss⟩
  have : 0 ≤ megaseconds m * (T - x.weather.mdbt m) * ∑ i, x.bldg.wallArea i * (x.bldg.wallUniform i - y.bldg.wallUniform i) :=
    mul_nonneg (mul_nonneg hM.le hdT.le) hw0
  linarith

theorem inertia_le {x y : Sim ℝ} (hv : VentilationData x) (ht : TempData (takeEnvelope x y)) (hs : Sensible x)
    (hb : BetterEnvelope x y) : inertia x ≤ inertia (takeEnvelope x y) := by
  have hA := hv.floorArea
  have hC : 0 ≤ x.bldg.interiorHeatCapacity * x.bldg.floorArea + x.bldg.wallHeatCapacity * ∑ i, x.bldg.wallArea i :=
    add_nonneg (mul_nonneg hs.inside hA.le) (mul_nonneg hs.shell (Finset.sum_nonneg fun i _ => hs.walls i))
  have hS0 : 0 ≤ ∑ i, (x.bldg.wallArea i * y.bldg.wallUniform i + x.bldg.windowArea i * y.bldg.windowUniform i) :=
    Finset.sum_nonneg fun i _ => add_nonneg (mul_nonneg (hs.walls i) (hb.walls0 i)) (mul_nonneg (hs.windows i) (hb.windows0 i))
  have hne : ∑ i, (x.bldg.wallArea i * y.bldg.wallUniform i + x.bldg.windowArea i * y.bldg.windowUniform i)
      + x.ventilation.H_ve ≠ 0 := ht.heatLoss
  have hpos : 0 < ∑ i, (x.bldg.wallArea i * y.bldg.wallUniform i + x.bldg.windowArea i * y.bldg.windowUniform i)
      + x.ventilation.H_ve := lt_of_le_of_ne (add_nonneg hS0 hs.air) hne.symm
  have hle : ∑ i, (x.bldg.wallArea i * y.bldg.wallUniform i + x.bldg.windowArea i * y.bldg.windowUniform i)
      ≤ ∑ i, (x.bldg.wallArea i * x.bldg.wallUniform i + x.bldg.windowArea i * x.bldg.windowUniform i) :=
    Finset.sum_le_sum fun i _ => add_le_add (mul_le_mul_of_nonneg_left (hb.walls i) (hs.walls i))
      (mul_le_mul_of_nonneg_left (hb.windows i) (hs.windows i))
  refine add_le_add le_rfl (div_le_div_of_nonneg_right ?_ hs.reference.le)
  exact div_le_div_of_nonneg_right (div_le_div_of_nonneg_left hC hpos (add_le_add hle le_rfl)) (by norm_num)

/-- C69: better insulation of walls and windows, a tighter building and better heat recovery never mean more energy for heating, in
any month in which the building loses heat and no wall is warmed by the sun above the indoor temperature. -/
theorem C69_envelope (x y : Sim ℝ) (hx : Ordinary x) (hy : Ordinary (takeEnvelope x y)) (hst : SteadyTemperatures x)
    (hs : Sensible x) (hu : Unmixed x) (hb : BetterEnvelope x y) (r r' : List (Hourly.EndUses Dbl)) (hr : simulate (x.map fin) = some r)
    (hr' : simulate ((takeEnvelope x y).map fin) = some r') (m : Fin 12) (hc : ColdWalls x m)
    (hl : 0 < monthLoss (takeEnvelope x y) (heatTo x) m) :
    ∃ (_ : m.val < r.length) (_ : m.val < r'.length), NotAbove (r'[m.val] 0) (r[m.val] 0) ∧ NotAbove (r'[m.val] 9) (r[m.val] 9) := by
  obtain ⟨l, hL⟩ := C68_energy x hx r hr
  obtain ⟨l', hL'⟩ := C68_energy _ hy r' hr'
  obtain ⟨a0, a9, -, -⟩ := hL m
  obtain ⟨b0, b9, -, -⟩ := hL' m
  have hst' : SteadyTemperatures (takeEnvelope x y) := ⟨hst.1, hst.2⟩
  have t1 := heatedTo_steady hx.temperatures hst m
  have t3 := heatedTo_steady hy.temperatures hst' m
  have p1 := hx.months.heating m
  have p3 := hy.months.heating m
  rw [t1] at p1; rw [t3] at p3
  obtain ⟨f1, f2⟩ := envelope_figures hx.temperatures hx.flows hy.flows hs hb hc hl
  have e := heat_energy (y := takeEnvelope x y) hx.systems hu hx.flows.floorArea rfl rfl (m := m)
    (by
      unfold monthHeat
      rw [t1, t3]
      exact heatDemand_le hx.inertia (inertia_le hx.flows hy.temperatures hs hb) (hx.months.gain m) (hy.months.gain m) hl f1 p1 p3 f2)
  exact ⟨by omega, by omega, ⟨_, _, b0, a0, e.1⟩, ⟨_, _, b9, a9, e.2⟩⟩

/-! ## the hypotheses are met -/

/-- months with gains of at least a megajoule and losses that are larger by at least a megajoule are not ambiguous -/
theorem clear_months {x : Sim ℝ} (ha : 0 < inertia x) (h : ∀ m, 1 ≤ monthGain x m ∧ monthGain x m + 1 ≤ monthLoss x (heatedTo x m) m ∧
    monthGain x m + 1 ≤ monthLoss x (cooledTo x m) m) : Unambiguous x := by
  have hp := dblMin_pos
  have ht := dblMin_tiny
  norm_num at ht
  refine ⟨fun m => by linarith [(h m).1], fun m => .inl (by linarith [(h m).1, (h m).2.1]), fun m hm => ?_, fun m e => ?_, fun m e => ?_, ?_⟩
  · linarith [(h m).1, (h m).2.1]
  · linarith [(h m).2.1]
  · linarith [(h m).2.2]
  · have k : ∀ m, 1 / 2 < monthHeat x m + monthCold x m := by
      intro m
      obtain ⟨h1, h2, h3⟩ := h m
      obtain ⟨q, e1, -, e2, -⟩ := C36_heating (inertia x) (monthGain x m) (monthLoss x (heatedTo x m) m) ha (by linarith) (by linarith)
        (fun e => by linarith)
      obtain ⟨c, e3, e4, -, -⟩ := C36_cooling (inertia x) (monthGain x m) (monthLoss x (cooledTo x m) m) ha (by linarith) (by linarith)
        (fun e => by linarith)
      rw [heatDemand_eq ha (by linarith) (.inl (by linarith)) (fun hm => by linarith) (fun e => by linarith), fin_inj] at e1
      rw [coolDemand_eq ha (by linarith) (fun e => by linarith), fin_inj] at e3
      unfold monthHeat monthCold
      rw [e1, e3]
      linarith
    rw [← Finset.sum_add_distrib]
    exact (Finset.sum_pos (fun m _ => by linarith [k m]) Finset.univ_nonempty).ne'

/-- an office in a place with zero degrees all year: appliance power, transmittance of the glass, U-values, leakiness, heat recovery,
set-point of unoccupied hours, number of the last occupied day of the week, set-point for cooling -/
noncomputable def anyOffice (p g ug uw q e u w k : ℝ) : Sim ℝ :=
  { sunnyOffice with
    pop := { sunnyOffice.pop with daysEnd := w }
    weather := { sunnyOffice.weather with mdbt := fun _ => 0 }
    building := { sunnyOffice.building with electricApplianceHeatGainOccupied := p }
    bldg := { sunnyOffice.bldg with
      windowNormalIncidenceSolarEnergyTransmittance := fun _ => g
      windowUniform := fun _ => ug
      wallUniform := fun _ => uw
      infiltrationRate := q }
    heating := { sunnyOffice.heating with temperatureSetPointUnoccupied := u }
    cooling := { sunnyOffice.cooling with temperatureSetPointOccupied := k, temperatureSetPointUnoccupied := k }
    ventilation := { sunnyOffice.ventilation with heatRecoveryEfficiency := e } }

theorem cold_sums (p g ug uw q e u w k : ℝ) : (∑ i, ((anyOffice p g ug uw q e u w k).bldg.wallArea i * (anyOffice p g ug uw q e u w k).bldg.wallUniform i
    + (anyOffice p g ug uw q e u w k).bldg.windowArea i * (anyOffice p g ug uw q e u w k).bldg.windowUniform i)) = 880.26 * uw + 59.71 * ug ∧
    ∑ i, (anyOffice p g ug uw q e u w k).bldg.wallArea i = 880.26 := by
  constructor
  · rw [sum9]
    norm_num [anyOffice, sunnyOffice, monthlyOffice, smallOffice, nineOf]
    ring
  · rw [sum9]
    norm_num [anyOffice, sunnyOffice, monthlyOffice, smallOffice, nineOf]

theorem cold_gain {p g ug uw q e u w k : ℝ} (hw : w = 5 ∨ w = 7) (m : Fin 12) : ∃ c d : ℝ, 2000 < c ∧ c < 4000 ∧ 0 ≤ d ∧ d ≤ 1 ∧ monthGain (anyOffice p g ug uw q e u w k) m
    = megaseconds m * (c + 511.16 * (d * p + (1 - d) * 2.248) + 2015.2125 * g + uw * (2632.3808 - 1464.2298)) := by
  set x := anyOffice p g ug uw q e u w k with hx
  have hd : occupiedShare x = 9 * w / 168 := by
    rcases hw with rfl | rfl <;>
      norm_num [hx, occupiedShare, windowHours, windowDays, anyOffice, sunnyOffice, monthlyOffice, smallOffice]
  have hwin : windowHeat x.bldg x.weather m = 2015.2125 * g := by
    unfold windowHeat
    rw [sum9]
    norm_num [hx, irradianceOn, shading, anyOffice, sunnyOffice, monthlyOffice, smallOffice, nineOf]
    ring
  have ho : opaqueHeat x.bldg x.weather m = uw * 2632.3808 := by
    unfold opaqueHeat
    rw [sum9]
    norm_num [hx, irradianceOn, anyOffice, sunnyOffice, monthlyOffice, smallOffice, nineOf]
    ring
  have hs : skyLoss x.bldg = uw * 1464.2298 := by
    unfold skyLoss
    rw [sum9]
    norm_num [hx, skyView, anyOffice, sunnyOffice, monthlyOffice, smallOffice, nineOf]
    ring
  have hly : lightsYear x = (511.16 * 6.339 * (50 * w * 9) + 511.16 * 2.586 * (8760 - 50 * w * 9)) / 1000 := by
    rcases hw with rfl | rfl <;>
      norm_num [hx, lightsYear, litDays, litByDay, litByNight, windowDays, anyOffice, sunnyOffice, monthlyOffice, smallOffice]
  refine ⟨511.16 * 120 * (9 * w / 168 / 25.47 + (1 - 9 * w / 168) / 150.5)
    + 1000 * ((511.16 * 6.339 * (50 * w * 9) + 511.16 * 2.586 * (8760 - 50 * w * 9)) / 1000) / 8760, 9 * w / 168, ?_, ?_, ?_, ?_, ?_⟩
  · rcases hw with rfl | rfl <;> norm_num
  · rcases hw with rfl | rfl <;> norm_num
  · rcases hw with rfl | rfl <;> norm_num
  · rcases hw with rfl | rfl <;> norm_num
  unfold monthGain insideHeat
  rw [hd, hwin, ho, hs, hly]
  congr 1
  simp only [hx, anyOffice, sunnyOffice, monthlyOffice, smallOffice]
  ring

theorem night_levels (p g ug uw q e u w k : ℝ) : heatTo (anyOffice p g ug uw q e u w k) = 24 ∧ coolTo (anyOffice p g ug uw q e u w k) = k := by
  have hlev : levelShift (anyOffice p g ug uw q e u w k).building.buildingEnergyManagement = 0 := by
    norm_num [levelShift, anyOffice, sunnyOffice, monthlyOffice, smallOffice]
  constructor
  · unfold heatTo; rw [hlev]; norm_num [anyOffice, sunnyOffice, monthlyOffice, smallOffice]
  · unfold coolTo; rw [hlev]; norm_num [anyOffice, sunnyOffice, monthlyOffice, smallOffice]

/-- its indoor temperatures -/
theorem night_temperatures {p g ug uw q e u w k : ℝ} (ht : TempData (anyOffice p g ug uw q e u w k)) (hu : 22 ≤ u) (hu' : u ≤ 24) (hk : 28 ≤ k)
    (m : Fin 12) :
    22 ≤ heatedTo (anyOffice p g ug uw q e u w k) m ∧ 22 ≤ cooledTo (anyOffice p g ug uw q e u w k) m := by
  obtain ⟨hT, hT'⟩ := night_levels p g ug uw q e u w k
  set x := anyOffice p g ug uw q e u w k with hx
  have hU : x.heating.temperatureSetPointUnoccupied = u := rfl
  have hC : x.cooling.temperatureSetPointUnoccupied = k := rfl
  obtain ⟨d, n, f, -, -, -, h1, h2, p1, -, p2, -, p3, -, p4⟩ := C29_fractions x.pop ht.week
  have hd : occupiedShare x = d := by unfold occupiedShare; linarith
  have hn : nightShare x = n := by unfold nightShare; linarith
  have he : 1 - occupiedShare x - nightShare x = f := by rw [hd, hn]; linarith
  constructor
  · unfold heatedTo
    rw [hT]
    split_ifs
    · refine le_min ?_ (by norm_num)
      rw [he, hd, hn]
      refine weekMean_ge ⟨p1, p2, p3, p4⟩ (by norm_num) fun k => ?_
      exact (hu.trans hU.ge).trans (le_max_left _ _)
    · norm_num
  · unfold cooledTo
    rw [hT']
    split_ifs
    · refine le_min ?_ (by linarith)
      rw [he, hd, hn]
      refine weekMean_ge ⟨p1, p2, p3, p4⟩ (by linarith) fun i => ?_
      exact ((by linarith : (22:ℝ) ≤ k).trans hC.ge).trans (le_max_left _ _)
    · linarith

set_option maxHeartbeats 1000000 in
/-- the office is ordinary for a range of parameters -/
theorem night_ordinary {p g ug uw q e u w k : ℝ} (hp : 4 ≤ p) (hp' : p ≤ 10) (hg : 0 ≤ g) (hg' : g ≤ 0.6) (hug : 1 ≤ ug) (huw : 1 ≤ uw)
    (huw' : uw ≤ 2.5) (hq : 0 < q) (he : e ≤ 1) (hu : 22 ≤ u)
    (hu' : u ≤ 24) (hw : w = 5 ∨ w = 7) (hk : 28 ≤ k) : Ordinary (anyOffice p g ug uw q e u w k) := by
  obtain ⟨s1, s2⟩ := cold_sums p g ug uw q e u w k
  set x := anyOffice p g ug uw q e u w k with hx
  have ht : TempData x := by
    constructor
    case week =>
      rcases hw with rfl | rfl <;> constructor <;>
        norm_num [hx, anyOffice, sunnyOffice, monthlyOffice, smallOffice, windowHours, windowDays]
    case heatLoss =>
      rw [s1]
      have : x.ventilation.H_ve = 0 := rfl
      rw [this]
      have : 0 < 880.26 * uw + 59.71 * ug + 0 := by positivity
      exact this.ne'
    case capacity =>
      rw [s2]
      norm_num [hx, anyOffice, sunnyOffice, monthlyOffice, smallOffice]
    all_goals norm_num [hx, anyOffice, sunnyOffice, monthlyOffice, smallOffice, windowHours, windowDays]
  have hv : VentilationData x := by
    constructor
    case leaky => exact hq
    case recovered => exact he
    all_goals norm_num [hx, anyOffice, sunnyOffice, monthlyOffice, smallOffice]
  have hl : LightingData x := by
    rcases hw with rfl | rfl <;> constructor <;>
      norm_num [hx, anyOffice, sunnyOffice, monthlyOffice, smallOffice, litByDay, litDays, windowDays]
  have hsys : SystemData x := by
    constructor <;> norm_num [hx, anyOffice, sunnyOffice, monthlyOffice, smallOffice]
  have h15 : x.heating.tau_H0 = 15 := by norm_num [hx, anyOffice, sunnyOffice, monthlyOffice, smallOffice]
  have ha : 0 < inertia x := by
    unfold inertia
    rw [h15]
    have h1 : x.heating.a_H0 = 1 := rfl
    have h2 : 0 < buildingTau x := by
      unfold buildingTau
      rw [s1, s2]
      have : x.ventilation.H_ve = 0 := rfl
      rw [this]
      refine div_pos (div_pos ?_ ?_) (by norm_num)
      · norm_num [hx, anyOffice, sunnyOffice, monthlyOffice, smallOffice]
      · positivity
    rw [h1]; positivity
  have hsun : ∀ m j, 0 ≤ x.weather.mhEgh m j := by
    intro m j
    simp only [hx, anyOffice, sunnyOffice]
    split_ifs <;> norm_num
  refine ⟨ht, hv, hl, hsys, hsun, by rw [h15]; norm_num, ha, clear_months ha fun m => ?_⟩
  obtain ⟨c, d, c1, c2, c3, c4, hG⟩ := cold_gain (p := p) (g := g) (ug := ug) (uw := uw) (q := q) (e := e) (u := u) (k := k) hw m
  rw [← hx] at hG
  have hM : 2 < megaseconds m := by fin_cases m <;> norm_num [megaseconds, days, monthDays]
  obtain ⟨d0, d1⟩ := share_bounds ht.week
  have loss : ∀ T : ℝ, 22 ≤ T → megaseconds m * (22 * 900) ≤ monthLoss x T m := by
    intro T hT
    have h1 := air_nonneg hv d0 d1 m T
    have h2 : 0 ≤ (leakage x m T + fanFlow x (occupiedShare x)) * (x.phys.rhoCpAir * 1000000) / 3600 * x.bldg.floorArea :=
      mul_nonneg (div_nonneg (mul_nonneg h1 (mul_nonneg hv.air.le (by norm_num))) (by norm_num)) hv.floorArea.le
    have h3 : x.weather.mdbt m = 0 := rfl
    unfold monthLoss
    rw [s1, h3, sub_zero, mul_assoc]
    refine mul_le_mul_of_nonneg_left ?_ (by linarith)
    refine mul_le_mul hT ?_ (by norm_num) (by linarith)
    linarith
  have hin : 0 ≤ d * p + (1 - d) * 2.248 ∧ d * p + (1 - d) * 2.248 ≤ 10 := by constructor <;> nlinarith
  have hb : monthGain x m ≤ megaseconds m * 16000 := by
    rw [hG]
    refine mul_le_mul_of_nonneg_left ?_ (by linarith)
    linarith
  have hb' : megaseconds m * 1 ≤ monthGain x m := by
    rw [hG]
    refine mul_le_mul_of_nonneg_left ?_ (by linarith)
    linarith
  obtain ⟨w1, w2⟩ := night_temperatures (p := p) (g := g) (ug := ug) (uw := uw) (q := q) (e := e) (w := w) ht hu hu' hk m
  have l1 := loss _ w1
  have l2 := loss _ w2
  refine ⟨?_, ?_, ?_⟩ <;> linarith

/-- the office that is cooled to 28 degrees -/
noncomputable abbrev weekOffice (p g ug uw q e u w : ℝ) : Sim ℝ := anyOffice p g ug uw q e u w 28

/-- the office occupied from Monday to Friday -/
noncomputable abbrev nightOffice (p g ug uw q e u : ℝ) : Sim ℝ := weekOffice p g ug uw q e u 5

/-- the same office without set-back -/
noncomputable abbrev coldOffice (p g ug uw q e : ℝ) : Sim ℝ := nightOffice p g ug uw q e 24

theorem cold_ordinary {p g ug uw q e : ℝ} (hp : 4 ≤ p) (hp' : p ≤ 10) (hg : 0 ≤ g) (hg' : g ≤ 0.6) (hug : 1 ≤ ug) (huw : 1 ≤ uw)
    (huw' : uw ≤ 2.5) (hq : 0 < q) (he : e ≤ 1) : Ordinary (coldOffice p g ug uw q e) :=
  night_ordinary hp hp' hg hg' hug huw huw' hq he (by norm_num) le_rfl (.inl rfl) le_rfl

theorem cold_steady (p g ug uw q e : ℝ) : SteadyTemperatures (coldOffice p g ug uw q e) := by
  obtain ⟨hT, hT'⟩ := night_levels p g ug uw q e 24 5 28
  refine ⟨.inr ?_, .inr ?_⟩
  · rw [hT]; norm_num [anyOffice, sunnyOffice, monthlyOffice, smallOffice]
  · rw [hT']; norm_num [anyOffice, sunnyOffice, monthlyOffice, smallOffice]

theorem cold_simulates {p g ug uw q e : ℝ} : ∃ r, simulate ((coldOffice p g ug uw q e).map fin) = some r := by
  have h : ¬simulate ((coldOffice p g ug uw q e).map fin) = none := by
    rw [C41_defined (coldOffice p g ug uw q e)
      (by norm_num [anyOffice, sunnyOffice, monthlyOffice, smallOffice, windowHours])]
    rintro (⟨m, hm⟩ | ⟨i, hi⟩ | h)
    · have := hm 8
      norm_num [anyOffice, sunnyOffice] at this
    · norm_num [anyOffice, sunnyOffice, monthlyOffice] at hi
    · norm_num [anyOffice, sunnyOffice, monthlyOffice, smallOffice] at h
  cases hs : simulate ((coldOffice p g ug uw q e).map fin) with
  | none => exact absurd hs h
  | some r => exact ⟨r, rfl⟩

theorem cold_unmixed (p g ug uw q e : ℝ) : Unmixed (coldOffice p g ug uw q e) := by
  constructor <;> norm_num [anyOffice, sunnyOffice, monthlyOffice, smallOffice]

/-- `C68_energy`, `C68_others`: an office with windows and sun, heated to 24 degrees in occupied and to 22 in unoccupied hours -/
example : Ordinary (nightOffice 4.831 0.426 2.653 2 7 0 22) ∧ Equipped (nightOffice 4.831 0.426 2.653 2 7 0 22) ∧
    (nightOffice 4.831 0.426 2.653 2 7 0 22).heating.T_ht_ctrl_flag = 1 := by
  have ho : Ordinary (nightOffice 4.831 0.426 2.653 2 7 0 22) := by apply night_ordinary <;> norm_num
  refine ⟨ho, ?_, rfl⟩
  have hw := fun m => (night_temperatures ho.temperatures (by norm_num) (by norm_num) (by norm_num) m).2
  constructor
  case supplyCooling =>
    intro m
    refine le_trans ?_ (hw m)
    norm_num [anyOffice, sunnyOffice, monthlyOffice, smallOffice]
  all_goals norm_num [anyOffice, sunnyOffice, monthlyOffice, smallOffice, pumpEnergy]

/-- `C69_sources`: more appliances and clearer glass -/
example : Ordinary (coldOffice 4.831 0.426 2.653 2 7 0) ∧ SteadyTemperatures (coldOffice 4.831 0.426 2.653 2 7 0) ∧ StrongerSources (coldOffice 4.831 0.426 2.653 2 7 0) (coldOffice 8 0.5 2.653 2 7 0) ∧
    Ordinary (takeHeatSources (coldOffice 4.831 0.426 2.653 2 7 0) (coldOffice 8 0.5 2.653 2 7 0)) ∧
    NonNegative (coldOffice 4.831 0.426 2.653 2 7 0).bldg (coldOffice 4.831 0.426 2.653 2 7 0).weather := by
  refine ⟨by apply cold_ordinary <;> norm_num, cold_steady _ _ _ _ _ _, ?_, ?_, ?_⟩
  · constructor <;> norm_num [anyOffice, sunnyOffice, monthlyOffice, smallOffice]
  · rw [show takeHeatSources (coldOffice 4.831 0.426 2.653 2 7 0) (coldOffice 8 0.5 2.653 2 7 0) = coldOffice 8 0.5 2.653 2 7 0 from rfl]
    apply cold_ordinary <;> norm_num
  · constructor <;> norm_num [anyOffice, sunnyOffice, monthlyOffice, smallOffice] <;> intro j <;> fin_cases j <;> norm_num [nineOf]

/-- `C69_envelope`: U-values, leaks and heat recovery, in every month -/
example : Ordinary (coldOffice 4.831 0.426 2.653 2 7 0) ∧ SteadyTemperatures (coldOffice 4.831 0.426 2.653 2 7 0) ∧ BetterEnvelope (coldOffice 4.831 0.426 2.653 2 7 0) (coldOffice 4.831 0.426 1.2 1 3 0.5) ∧
    Ordinary (takeEnvelope (coldOffice 4.831 0.426 2.653 2 7 0) (coldOffice 4.831 0.426 1.2 1 3 0.5)) ∧
    Sensible (coldOffice 4.831 0.426 2.653 2 7 0) ∧ ∀ m, ColdWalls (coldOffice 4.831 0.426 2.653 2 7 0) m := by
  refine ⟨by apply cold_ordinary <;> norm_num, cold_steady _ _ _ _ _ _, ?_, ?_, ?_, ?_⟩
  · constructor <;> norm_num [anyOffice, sunnyOffice, monthlyOffice, smallOffice]
  · rw [show takeEnvelope (coldOffice 4.831 0.426 2.653 2 7 0) (coldOffice 4.831 0.426 1.2 1 3 0.5) = coldOffice 4.831 0.426 1.2 1 3 0.5 from rfl]
    apply cold_ordinary <;> norm_num
  · constructor <;> norm_num [anyOffice, sunnyOffice, monthlyOffice, smallOffice] <;> intro j <;> fin_cases j <;> norm_num [nineOf]
  · intro m j
    fin_cases j <;> norm_num [heatTo, levelShift, irradianceOn, skyView, anyOffice, sunnyOffice, monthlyOffice, smallOffice, nineOf]

end ISO.Props
