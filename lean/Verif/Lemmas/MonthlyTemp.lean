import Verif.Lemmas.MonthlyGains

/-! Helper lemmas: internal gains, indoor temperatures and ventilation of the monthly model on finite input. -/

namespace ISO.Monthly
open ISO CNum Dbl ISO.Spec

theorem lit_1000 : (1000.0 : ℝ) ≠ 0 := by norm_num
theorem lit_3600 : (3600.0 : ℝ) ≠ 0 := by norm_num
theorem lit_8760 : (8760.0 : ℝ) ≠ 0 := by norm_num
theorem lit_5 : (5.0 : ℝ) ≠ 0 := by norm_num
theorem lit_36 : (3.6 : ℝ) ≠ 0 := by norm_num

theorem fin_heatGains {x : Sim ℝ} {f : ℝ} (l : LightingUse ℝ) (h1 : x.pop.densityOccupied ≠ 0) (h2 : x.pop.densityUnoccupied ≠ 0)
    (h3 : x.bldg.floorArea ≠ 0) (h4 : f ≠ 1) :
    heatGainsAndLosses (x.map fin) (fin f) (l.map fin) = (heatGainsAndLosses x f l).map fin := by
  have h5 : (1.0 : ℝ) - f ≠ 0 := by
    intro h; apply h4; norm_num at h; linarith
  simp only [heatGainsAndLosses, InternalGains.map, Sim.map, Population.map, Building.map, Structure.map, LightingUse.map, dblfin,
    ne_eq, h1, h2, h3, h5, lit_8760, not_false_eq_true]

theorem fin_internalHeatGain (s : Structure ℝ) (g : InternalGains ℝ) :
    internalHeatGain (s.map fin) (g.map fin) = fin (internalHeatGain s g) := by
  simp only [internalHeatGain, InternalGains.map, Structure.map, dblfin]

theorem fin_unoccupied (s : Structure ℝ) (g : InternalGains ℝ) (o : Occupancy ℝ) (b : Breakdown ℝ) (e : Fin 12 → ℝ) :
    unoccupiedHeatGain (s.map fin) (g.map fin) (o.map fin) (b.map fin) (fun m => fin (e m))
      = (unoccupiedHeatGain s g o b e).map fin := by
  simp only [unoccupiedHeatGain, UnoccupiedGains.map, InternalGains.map, Structure.map, Occupancy.map, Breakdown.map, dblfin]

theorem fin_management (r : ℝ) : managementShift (fin r) = (managementShift r).map fin := by
  unfold managementShift
  rw [fin_cint]
  split <;> simp only [Option.map, dblfin]

theorem fin_timeConstant {x : Sim ℝ} {H : ℝ} (h : H + x.ventilation.H_ve ≠ 0) :
    timeConstant (x.map fin) (fin H) = fin (timeConstant x H) := by
  simp only [timeConstant, Sim.map, Structure.map, Ventilation.map, dblfin, ne_eq, h, lit_3600, not_false_eq_true]

theorem fin_period (a b c : ℝ) (k : Nat) : period (fin a) (fin b) (fin c) k = fin (period a b c k) := by
  unfold period
  split_ifs <;> rfl

theorem fin_periods {x : Sim ℝ} {H : ℝ} (o : Occupancy ℝ) (b : Breakdown ℝ) (g : UnoccupiedGains ℝ) (m : Fin 12)
    (h : H + x.ventilation.H_ve ≠ 0) :
    periods (x.map fin) (o.map fin) (b.map fin) (g.map fin) (fin H) m = (periods x o b g H m).map fin := by
  unfold periods
  rw [fin_timeConstant h]
  simp only [Sim.map, Ventilation.map, Periods.map, Occupancy.map, Breakdown.map, UnoccupiedGains.map]
  simp only [dblfin, ne_eq, h, not_false_eq_true]
  congr 1 <;> funext k <;> exact fin_period _ _ _ _

theorem fin_decay {p : Periods ℝ} (s : ℝ) (k : Nat) (h : p.tau ≠ 0) : decay (p.map fin) (fin s) k = fin (decay p s k) := by
  simp only [decay, Periods.map, dblfin, ne_eq, h, not_false_eq_true]

theorem fin_freeTemp {p : Periods ℝ} (s : ℝ) (k : Nat) (h : p.tau ≠ 0) :
    freeTemp (p.map fin) (fin s) k = fin (freeTemp p s k) := by
  induction k with
  | zero => rfl
  | succ k ih => unfold freeTemp; rw [ih, fin_decay _ _ h]

theorem fin_periodAverage {p : Periods ℝ} (s : ℝ) (k : Nat) (h : p.tau ≠ 0) (hk : p.ti k ≠ 0) :
    periodAverage (p.map fin) (fin s) k = fin (periodAverage p s k) := by
  simp only [periodAverage, Periods.map, dblfin, ne_eq, h, hk, not_false_eq_true]

theorem fin_segment {p : Periods ℝ} (f s l : ℝ) (k : Nat) (h : p.tau ≠ 0) (hk : p.ti k ≠ 0) :
    segment (p.map fin) (fin f) (fin s) (fin l) k = fin (segment p f s l k) := by
  unfold segment
  rw [fin_freeTemp _ _ h, fin_cmax]
  rcases Nat.eq_zero_or_pos k with rfl | h0
  · simp only [if_true]
    rw [fin_periodAverage _ _ h hk, fin_cmax]
  · simp only [if_neg h0.ne']
    rw [fin_periodAverage _ _ h hk, fin_cmax]

theorem fin_weekend {p : Periods ℝ} (f s l : ℝ) (h : p.tau ≠ 0) (hk : ∀ k, p.ti k ≠ 0) :
    weekend (p.map fin) (fin f) (fin s) (fin l) = ((fin (weekend p f s l).1, fin (weekend p f s l).2) : Dbl × Dbl) := by
  unfold weekend
  have e : segment (p.map fin) (fin f) (fin s) (fin l) = fin ∘ segment p f s l := by
    funext k; exact fin_segment _ _ _ _ h (hk k)
  rw [e, ← List.map_map, fin_csum]
  simp only [dblfin, ne_eq, lit_5, not_false_eq_true, Function.comp]

theorem fin_pair (p : Bool) (a b c d : ℝ) :
    (bif p then ((fin a, fin b) : Dbl × Dbl) else (fin c, fin d))
      = (fin (bif p then (a, b) else (c, d)).1, fin (bif p then (a, b) else (c, d)).2) := by
  cases p <;> rfl

theorem fin_heatingTemps {x : Sim ℝ} {p : Periods ℝ} (t : ℝ) (h : p.tau ≠ 0) (hk : ∀ k, p.ti k ≠ 0) :
    heatingTemps (x.map fin) (p.map fin) (fin t) = ((fin (heatingTemps x p t).1, fin (heatingTemps x p t).2) : Dbl × Dbl) := by
  unfold heatingTemps
  simp only [Sim.map, Heating.map]
  rw [fin_weekend _ _ _ h hk]
  simp only [dblfin]
  rw [fin_pair]

theorem fin_coolingTemps {x : Sim ℝ} {p : Periods ℝ} (t u : ℝ) (h : p.tau ≠ 0) (hk : ∀ k, p.ti k ≠ 0) :
    coolingTemps (x.map fin) (p.map fin) (fin t) (fin u)
      = ((fin (coolingTemps x p t u).1, fin (coolingTemps x p t u).2) : Dbl × Dbl) := by
  unfold coolingTemps
  simp only [Sim.map, Cooling.map, fin_cmin]
  rw [fin_weekend _ _ _ h hk]
  simp only [dblfin]
  rw [fin_pair]

theorem fin_interiorTemp {x : Sim ℝ} {o : Occupancy ℝ} {H : ℝ} (b : Breakdown ℝ) (g : UnoccupiedGains ℝ) (t : ℝ)
    (h : H + x.ventilation.H_ve ≠ 0) (ht : timeConstant x H ≠ 0) (ho : o.hoursOccupiedPerDay ≠ 0) (hu : o.hoursUnoccupiedPerDay ≠ 0) :
    interiorTemp (x.map fin) (o.map fin) (b.map fin) (g.map fin) (fin H) (fin t)
      = ((fun m => fin ((interiorTemp x o b g H t).1 m)), fun m => fin ((interiorTemp x o b g H t).2 m)) := by
  have hp : ∀ m k, (periods x o b g H m).ti k ≠ 0 := by
    intro m k
    simp only [periods, period]
    split_ifs <;> assumption
  unfold interiorTemp
  have e1 : ∀ c, (x.map fin).heating.temperatureSetPointOccupied = c → c = fin x.heating.temperatureSetPointOccupied :=
    fun c h => h.symm
  simp only [fin_periods o b g _ h]
  rw [show (x.map fin).heating.temperatureSetPointOccupied - fin t = fin (x.heating.temperatureSetPointOccupied - t) from rfl,
    show (x.map fin).cooling.temperatureSetPointOccupied + fin t = fin (x.cooling.temperatureSetPointOccupied + t) from rfl]
  congr 1
  · funext m
    rw [fin_heatingTemps (x := x) _ ht (hp m)]
    simp only [weekAverage, Occupancy.map, dblfin]
  · funext m
    rw [fin_coolingTemps (x := x) _ _ ht (hp m)]
    simp only [weekAverage, Occupancy.map, dblfin]

/-- the bases and exponents of the powers in the infiltration are not negative -/
structure FlowData (x : Sim ℝ) : Prop where
  floorArea : x.bldg.floorArea ≠ 0
  zone : 0 ≤ x.ventilation.zone_frac
  stackExp : 0 ≤ x.ventilation.stack_exp
  windBase : 0 ≤ x.ventilation.dCp * x.terrain
  windExp : 0 ≤ x.ventilation.wind_exp
  unoccupied : ¬(x.ventilation.vent_rate_flag = 0) → ¬(x.ventilation.vent_rate_flag = 1) → x.pop.densityUnoccupied ≠ 0

theorem fin_supplyFlow {x : Sim ℝ} (h : x.bldg.floorArea ≠ 0) : supplyFlow (x.map fin) = fin (supplyFlow x) := by
  simp only [supplyFlow, Sim.map, Structure.map, Ventilation.map, dblfin, ne_eq, h, lit_36, not_false_eq_true]

theorem fin_flowDifference {x : Sim ℝ} (h : x.bldg.floorArea ≠ 0) : flowDifference (x.map fin) = fin (flowDifference x) := by
  unfold flowDifference
  rw [fin_supplyFlow h]
  simp only [Sim.map, Structure.map, Ventilation.map, dblfin, ne_eq, h, lit_36, not_false_eq_true]

theorem fin_stackFlow {x : Sim ℝ} (h : FlowData x) (T : Fin 12 → ℝ) (m : Fin 12) :
    stackFlow (x.map fin) (fun m => fin (T m)) m = fin (stackFlow x T m) := by
  unfold stackFlow
  have hb : 0 ≤ |x.weather.mdbt m - T m| * (x.ventilation.zone_frac * max 0.1 x.bldg.buildingHeight) := by
    apply mul_nonneg (abs_nonneg _)
    apply mul_nonneg h.zone
    exact le_trans (by norm_num) (le_max_left _ _)
  rw [← cmax_real, ← cabs_real] at hb
  simp only [Sim.map, Structure.map, Ventilation.map, WeatherData.map, dblfin]
  rw [fin_cpow_nonneg hb h.stackExp]
  simp only [dblfin]

theorem fin_windFlow {x : Sim ℝ} (h : FlowData x) (m : Fin 12) : windFlow (x.map fin) m = fin (windFlow x m) := by
  unfold windFlow
  have hb : 0 ≤ x.weather.mwind m * x.weather.mwind m * (x.ventilation.dCp * x.terrain) :=
    mul_nonneg (mul_self_nonneg _) h.windBase
  simp only [Sim.map, Structure.map, Ventilation.map, WeatherData.map, dblfin]
  rw [fin_cpow_nonneg hb h.windExp]
  simp only [dblfin]

theorem fin_infiltration {x : Sim ℝ} (h : FlowData x) (T : Fin 12 → ℝ) (m : Fin 12) :
    infiltration (x.map fin) (fun m => fin (T m)) m = fin (infiltration x T m) := by
  unfold infiltration
  rw [fin_stackFlow h, fin_windFlow h, fin_flowDifference h.floorArea]
  simp only [Sim.map, Structure.map, dblfin]

theorem fin_operating {x : Sim ℝ} (h : FlowData x) (f : ℝ) : operatingFraction (x.map fin) (fin f) = fin (operatingFraction x f) := by
  unfold operatingFraction
  have e : (x.map fin).ventilation.vent_rate_flag = x.ventilation.vent_rate_flag := rfl
  rw [e]
  split_ifs with h0 h1
  · simp only [dblfin]
  · rfl
  · have := h.unoccupied h0 h1
    simp only [Sim.map, Population.map, dblfin, ne_eq, this, not_false_eq_true]

theorem fin_mechanical {x : Sim ℝ} (h : FlowData x) (f : ℝ) : mechanicalFlow (x.map fin) (fin f) = fin (mechanicalFlow x f) := by
  unfold mechanicalFlow
  rw [fin_operating h, fin_supplyFlow h.floorArea]
  simp only [Sim.map, Ventilation.map, dblfin]

theorem fin_ventilation {x : Sim ℝ} (h : FlowData x) (f : ℝ) (T : Fin 12 → ℝ) :
    ventilationCalc (x.map fin) (fin f) (fun m => fin (T m)) = fun m => fin (ventilationCalc x f T m) := by
  funext m
  unfold ventilationCalc
  rw [fin_infiltration h, fin_mechanical h]
  simp only [Sim.map, PhysicalQuantities.map, dblfin]

end ISO.Monthly
