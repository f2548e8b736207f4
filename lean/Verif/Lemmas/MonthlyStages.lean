import Verif.Lemmas.MonthlyTemp
import Verif.Spec.MonthlyTemp

/-! Helper lemmas: the stages of the monthly simulation on finite input, up to the indoor temperatures. -/

namespace ISO.Monthly
open ISO CNum Dbl ISO.Spec

theorem fin_shadingFactor (c : ℝ) : shadingFactor (fin c) = (shadingFactor c).map fin := by
  unfold shadingFactor
  rw [fin_cint]
  split <;> simp only [Option.map, dblfin]

theorem allFacades_map {β γ : Type} (f : Fin 9 → Option β) (k : β → γ) :
    allFacades (fun m => (f m).map k) = (allFacades f).map fun g m => k (g m) := by
  cases h : allFacades f with
  | none =>
    rw [allFacades_none] at h
    obtain ⟨m, hm⟩ := h
    rw [Option.map_none, allFacades_none]
    exact ⟨m, by rw [hm]; rfl⟩
  | some g =>
    rw [allFacades_eq] at h
    rw [Option.map_some, allFacades_eq]
    intro m; rw [h m]; rfl

theorem fin_windowSolarGain (s : Structure ℝ) : windowSolarGain (s.map fin) = (windowSolarGain s).map (SolarAreas.map fin) := by
  unfold windowSolarGain
  have e : (fun i => shadingFactor ((s.map fin).windowShadingDevice i)) = fun i => (shadingFactor (s.windowShadingDevice i)).map fin :=
    funext fun i => fin_shadingFactor _
  rw [e, allFacades_map]
  cases allFacades fun i => shadingFactor (s.windowShadingDevice i) with
  | none => rfl
  | some f => simp only [Option.map_some, Option.bind_eq_bind, Option.bind_some, Option.pure_def, fin_solarAreas]

theorem frac_ne {x : Sim ℝ} (h : TempData x) : (scheduleAndOccupancy x.pop).frac_hrs_wk_day ≠ 1 := by
  simp only [scheduleAndOccupancy, hours_eq, days_eq h.week.notJustBefore]
  have h1 := h.someHour; have h2 := h.notAllDay; have h3 := h.week.days_ge; have h4 := h.week.days_le
  generalize windowHours x.pop = a at *
  generalize windowDays x.pop = b at *
  norm_num
  intro hc
  have : a * b < 24 * 7 := by nlinarith
  nlinarith

theorem hours_ne {x : Sim ℝ} (h : TempData x) :
    (scheduleAndOccupancy x.pop).hoursOccupiedPerDay ≠ 0 ∧ (scheduleAndOccupancy x.pop).hoursUnoccupiedPerDay ≠ 0 := by
  simp only [scheduleAndOccupancy, hours_eq]
  have h1 := h.someHour; have h2 := h.notAllDay
  generalize windowHours x.pop = a at *
  constructor
  · exact h1.ne'
  · norm_num; linarith

theorem loss_ne {x : Sim ℝ} (h : TempData x) : envelopCalculations x.bldg + x.ventilation.H_ve ≠ 0 := by
  rw [envelope_real]; exact h.heatLoss

theorem tau_eq (x : Sim ℝ) : timeConstant x (envelopCalculations x.bldg) = buildingTau x := by
  simp only [timeConstant, buildingTau, envelope_real, vsum_real]
  norm_num

theorem tau_ne {x : Sim ℝ} (h : TempData x) : timeConstant x (envelopCalculations x.bldg) ≠ 0 := by
  rw [tau_eq]
  unfold buildingTau
  exact div_ne_zero (div_ne_zero h.capacity h.heatLoss) (by norm_num)

/-- the three possibly undefined parts of the simulation are defined at once for a finite building and its real reading -/
theorem stages_parts {x : Sim ℝ} (h : TempData x) {s : Stages Dbl} (hs : stages (x.map fin) = some s) :
    ∃ b a t, solarRadiationBreakdown x.weather (scheduleAndOccupancy x.pop) = some b ∧ windowSolarGain x.bldg = some a ∧
      managementShift x.building.buildingEnergyManagement = some t ∧
      s = stagesWith (x.map fin) (b.map fin) (a.map fin) (fin t) := by
  unfold stages at hs
  rw [show (x.map fin).weather = x.weather.map fin from rfl, show (x.map fin).pop = x.pop.map fin from rfl,
    show (x.map fin).bldg = x.bldg.map fin from rfl,
    show (x.map fin).building.buildingEnergyManagement = fin x.building.buildingEnergyManagement from rfl,
    fin_schedule, fin_breakdown (guards h.someHour).1 (guards h.someHour).2, fin_windowSolarGain, fin_management] at hs
  cases hb : solarRadiationBreakdown x.weather (scheduleAndOccupancy x.pop) with
  | none => rw [hb] at hs; cases hs
  | some b =>
    cases ha : windowSolarGain x.bldg with
    | none => rw [hb, ha] at hs; cases hs
    | some a =>
      cases ht : managementShift x.building.buildingEnergyManagement with
      | none => rw [hb, ha, ht] at hs; cases hs
      | some t =>
        rw [hb, ha, ht] at hs
        exact ⟨b, a, t, rfl, rfl, rfl, (Option.some.inj hs).symm⟩

theorem stages_some {x : Sim ℝ} {b : Breakdown ℝ} {a : SolarAreas ℝ} {t : ℝ} (h : TempData x)
    (hb : solarRadiationBreakdown x.weather (scheduleAndOccupancy x.pop) = some b) (ha : windowSolarGain x.bldg = some a)
    (ht : managementShift x.building.buildingEnergyManagement = some t) :
    stages (x.map fin) = some (stagesWith (x.map fin) (b.map fin) (a.map fin) (fin t)) := by
  unfold stages
  rw [show (x.map fin).weather = x.weather.map fin from rfl, show (x.map fin).pop = x.pop.map fin from rfl,
    show (x.map fin).bldg = x.bldg.map fin from rfl,
    show (x.map fin).building.buildingEnergyManagement = fin x.building.buildingEnergyManagement from rfl,
    fin_schedule, fin_breakdown (guards h.someHour).1 (guards h.someHour).2, fin_windowSolarGain, fin_management, hb, ha, ht]
  rfl

/-- every stage before the needs, on finite input -/
theorem fin_stages {x : Sim ℝ} (h : TempData x) (b : Breakdown ℝ) (a : SolarAreas ℝ) (t : ℝ) :
    (stagesWith (x.map fin) (b.map fin) (a.map fin) (fin t)).o = (stagesWith x b a t).o.map fin ∧
    (stagesWith (x.map fin) (b.map fin) (a.map fin) (fin t)).b = (stagesWith x b a t).b.map fin ∧
    (stagesWith (x.map fin) (b.map fin) (a.map fin) (fin t)).l = (stagesWith x b a t).l.map fin ∧
    (stagesWith (x.map fin) (b.map fin) (a.map fin) (fin t)).H_tr = fin (stagesWith x b a t).H_tr ∧
    (stagesWith (x.map fin) (b.map fin) (a.map fin) (fin t)).v_E_sol = (fun m => fin ((stagesWith x b a t).v_E_sol m)) ∧
    (stagesWith (x.map fin) (b.map fin) (a.map fin) (fin t)).g = (stagesWith x b a t).g.map fin ∧
    (stagesWith (x.map fin) (b.map fin) (a.map fin) (fin t)).phi_I_tot = fin (stagesWith x b a t).phi_I_tot ∧
    (stagesWith (x.map fin) (b.map fin) (a.map fin) (fin t)).unocc = (stagesWith x b a t).unocc.map fin ∧
    (stagesWith (x.map fin) (b.map fin) (a.map fin) (fin t)).v_Th_avg = (fun m => fin ((stagesWith x b a t).v_Th_avg m)) ∧
    (stagesWith (x.map fin) (b.map fin) (a.map fin) (fin t)).v_Tc_avg = (fun m => fin ((stagesWith x b a t).v_Tc_avg m)) := by
  have eo : scheduleAndOccupancy (x.map fin).pop = (scheduleAndOccupancy x.pop).map fin := fin_schedule x.pop
  have el : lightingEnergyUse (x.map fin) (b.map fin).v_hrs_sun_down_mo = (lightingEnergyUse x b.v_hrs_sun_down_mo).map fin :=
    fin_lighting x _
  have eH : envelopCalculations (x.map fin).bldg = fin (envelopCalculations x.bldg) := fin_envelope _
  have es : solarHeatGain (x.map fin).bldg (x.map fin).weather (a.map fin) = fun m => fin (solarHeatGain x.bldg x.weather a m) :=
    funext fun m => fin_solarHeatGain _ _ _ m
  have eg : heatGainsAndLosses (x.map fin) ((scheduleAndOccupancy x.pop).map fin).frac_hrs_wk_day
      ((lightingEnergyUse x b.v_hrs_sun_down_mo).map fin)
      = (heatGainsAndLosses x (scheduleAndOccupancy x.pop).frac_hrs_wk_day (lightingEnergyUse x b.v_hrs_sun_down_mo)).map fin :=
    fin_heatGains _ h.occupied h.unoccupied h.floorArea (frac_ne h)
  have ei : ∀ g : InternalGains ℝ, internalHeatGain (x.map fin).bldg (g.map fin) = fin (internalHeatGain x.bldg g) :=
    fun g => fin_internalHeatGain _ g
  have eu : ∀ (g : InternalGains ℝ) (e : Fin 12 → ℝ), unoccupiedHeatGain (x.map fin).bldg (g.map fin)
      ((scheduleAndOccupancy x.pop).map fin) (b.map fin) (fun m => fin (e m))
      = (unoccupiedHeatGain x.bldg g (scheduleAndOccupancy x.pop) b e).map fin := fun g e => fin_unoccupied _ g _ b e
  simp only [stagesWith, eo, el, eH, es, eg, ei, eu, fin_interiorTemp b _ t (loss_ne h) (tau_ne h) (hours_ne h).1 (hours_ne h).2,
    and_self]

theorem fin_flows {x : Sim ℝ} (h : TempData x) (hf : FlowData x) (b : Breakdown ℝ) (a : SolarAreas ℝ) (t : ℝ) :
    (stagesWith (x.map fin) (b.map fin) (a.map fin) (fin t)).v_Hve_ht = (fun m => fin ((stagesWith x b a t).v_Hve_ht m)) ∧
    (stagesWith (x.map fin) (b.map fin) (a.map fin) (fin t)).v_Hve_cl = (fun m => fin ((stagesWith x b a t).v_Hve_cl m)) := by
  obtain ⟨ho, hb, hl, hH, hs, hg, hi, hu, hth, htc⟩ := fin_stages h b a t
  have e1 : ∀ s : Sim Dbl, ∀ b a t, (stagesWith s b a t).v_Hve_ht
    = ventilationCalc s (stagesWith s b a t).o.frac_hrs_wk_day (stagesWith s b a t).v_Th_avg := fun _ _ _ _ => rfl
  have e2 : ∀ s : Sim Dbl, ∀ b a t, (stagesWith s b a t).v_Hve_cl
    = ventilationCalc s (stagesWith s b a t).o.frac_hrs_wk_day (stagesWith s b a t).v_Tc_avg := fun _ _ _ _ => rfl
  rw [e1, e2, ho, hth, htc]
  constructor
  · exact fin_ventilation hf _ _
  · exact fin_ventilation hf _ _

theorem timeMean_relax {tau T : ℝ} (target start : ℝ) (h : tau ≠ 0) (hT : T ≠ 0) :
    timeMean (relax tau target start) T = tau / T * (start - target) * (1 - Real.exp (-T / tau)) + target := by
  unfold timeMean relax
  have hd : ∀ t ∈ Set.uIcc 0 T, HasDerivAt (fun t => target * t + (start - target) * (-tau * Real.exp (-t / tau)))
      (target + (start - target) * Real.exp (-t / tau)) t := by
    intro t _
    have h1 : HasDerivAt (fun t : ℝ => -t / tau) (-1 / tau) t := (hasDerivAt_neg t).div_const tau
    have h2 := ((h1.exp.const_mul (-tau)).const_mul (start - target))
    have h3 := ((hasDerivAt_id t).const_mul target).add h2
    rw [mul_one, show -tau * (Real.exp (-t / tau) * (-1 / tau)) = Real.exp (-t / tau) by field_simp] at h3
    exact h3
  rw [intervalIntegral.integral_eq_sub_of_hasDerivAt hd]
  · simp only [neg_zero, zero_div, Real.exp_zero]
    field_simp
    ring
  · apply Continuous.intervalIntegrable
    fun_prop

theorem periodAverage_real {p : Periods ℝ} (s : ℝ) (k : ℕ) (h : p.tau ≠ 0) (hk : p.ti k ≠ 0) :
    periodAverage p s k = timeMean (relax p.tau (p.Te k + p.dT k) s) (p.ti k) := by
  rw [timeMean_relax _ _ h hk, periodAverage, cexp_real]
  norm_num
  ring

theorem decay_real (p : Periods ℝ) (s : ℝ) (k : ℕ) : decay p s k = relax p.tau (p.Te k + p.dT k) s (p.ti k) := by
  rw [decay, relax, cexp_real]
  norm_num
  ring

theorem freeTemp_real (p : Periods ℝ) (s : ℝ) (k : ℕ) :
    freeTemp p s k = freeRun p.tau (fun k => ⟨p.ti k, p.Te k + p.dT k⟩) s k := by
  induction k with
  | zero => rfl
  | succ k ih => unfold freeTemp freeRun; rw [ih, decay_real]

theorem segment_real {p : Periods ℝ} (f s l : ℝ) (k : ℕ) (h : p.tau ≠ 0) (hk : p.ti k ≠ 0) :
    segment p f s l k = stretchMean p.tau (fun k => ⟨p.ti k, p.Te k + p.dT k⟩) f s l k := by
  unfold segment stretchMean
  simp only [cmax_real, freeTemp_real, periodAverage_real _ _ h hk]
  rw [max_comm, max_comm l (freeRun _ _ _ _)]

theorem weekend_real {p : Periods ℝ} (f s l : ℝ) (h : p.tau ≠ 0) (hk : ∀ k, p.ti k ≠ 0) :
    weekend p f s l = ((stretchMean p.tau (fun k => ⟨p.ti k, p.Te k + p.dT k⟩) f s l 0
        + stretchMean p.tau (fun k => ⟨p.ti k, p.Te k + p.dT k⟩) f s l 1
        + stretchMean p.tau (fun k => ⟨p.ti k, p.Te k + p.dT k⟩) f s l 2
        + stretchMean p.tau (fun k => ⟨p.ti k, p.Te k + p.dT k⟩) f s l 3
        + stretchMean p.tau (fun k => ⟨p.ti k, p.Te k + p.dT k⟩) f s l 4) / 5,
      stretchMean p.tau (fun k => ⟨p.ti k, p.Te k + p.dT k⟩) f s l 1) := by
  unfold weekend
  rw [segment_real _ _ _ 1 h (hk 1)]
  congr 1
  have : (List.range 5) = [0, 1, 2, 3, 4] := rfl
  rw [this, csum_real]
  simp only [List.map, List.sum_cons, List.sum_nil, add_zero, segment_real _ _ _ _ h (hk _)]
  norm_num
  ring

end ISO.Monthly
