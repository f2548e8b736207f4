import Verif.Spec.MonthlyFlow
import Verif.Props.MonthlyTemp

/-! # C35: ventilation of the monthly model -/

namespace ISO.Props
open ISO ISO.Monthly ISO.Spec Dbl CNum

theorem stackFlow_real (x : Sim ℝ) (T : Fin 12 → ℝ) (m : Fin 12) : stackFlow x T m = stack x m (T m) := by
  simp only [stackFlow, stack, realnum]
  rw [max_comm]
  congr 1
  rw [mul_comm]
  congr 2
  ring

theorem windFlow_real (x : Sim ℝ) (m : Fin 12) : windFlow x m = windDriven x m := by
  simp only [windFlow, windDriven, realnum]
  rw [show x.weather.mwind m * x.weather.mwind m * (x.ventilation.dCp * x.terrain)
    = x.ventilation.dCp * x.terrain * x.weather.mwind m ^ 2 by ring]
  ring

theorem flowDifference_real (x : Sim ℝ) : flowDifference x = x.ventilation.supplyDifference / x.bldg.floorArea / 3.6 := by
  simp only [flowDifference]
  generalize supplyFlow x = q
  generalize x.ventilation.supplyDifference / x.bldg.floorArea / 3.6 = r
  rw [zero_lit_real]
  ring

theorem infiltration_real (x : Sim ℝ) (h : x.bldg.infiltrationRate ≠ 0) (T : Fin 12 → ℝ) (m : Fin 12) :
    infiltration x T m = leakage x m (T m) := by
  simp only [infiltration, leakage, stackFlow_real, windFlow_real, flowDifference_real, cmax_real, vdiv_ne _ h]
  rw [zero_lit_real, mul_comm (stack x m (T m) * windDriven x m) 0.14]

theorem mechanical_real (x : Sim ℝ) (d : ℝ) : mechanicalFlow x d = fanFlow x d := by
  simp only [mechanicalFlow, fanFlow, cond_ceq, operatingFraction, running, supplyFlow]
  norm_num
  split_ifs <;> first | rfl | ring

/-- C35: the ventilation heat-transfer coefficients (heating and cooling) from the flows; both are positive. -/
theorem C35_flows (x : Sim ℝ) (h : TempData x) (hv : VentilationData x) (s : Stages Dbl) (hs : stages (x.map fin) = some s)
    (m : Fin 12) :
    ∃ d Th Tc H H' : ℝ, s.o.frac_hrs_wk_day = fin d ∧ s.v_Th_avg m = fin Th ∧ s.v_Tc_avg m = fin Tc ∧
      s.v_Hve_ht m = fin H ∧ s.v_Hve_cl m = fin H' ∧
      3600 * H = (leakage x m Th + fanFlow x d) * (x.phys.rhoCpAir * 1000000) ∧
      3600 * H' = (leakage x m Tc + fanFlow x d) * (x.phys.rhoCpAir * 1000000) ∧
      0 ≤ fanFlow x d ∧ 0.001 ≤ leakage x m Th ∧ 0.001 ≤ leakage x m Tc ∧ 0 < H ∧ 0 < H' := by
  have hf : FlowData x := ⟨hv.floorArea.ne', hv.zone, hv.stackExp, hv.windBase, hv.windExp, fun _ _ => hv.unoccupied.ne'⟩
  obtain ⟨b, a, t, hb, ha, ht, rfl⟩ := stages_parts h hs
  obtain ⟨eo, -, -, -, -, -, -, -, eh, ec⟩ := fin_stages h b a t
  obtain ⟨e1, e2⟩ := fin_flows h hf b a t
  obtain ⟨d, n, e, hd, -, -, -, -, hd0, hd1, -⟩ := C29_fractions x.pop h.week
  rw [fin_schedule] at hd
  have hd' : (scheduleAndOccupancy x.pop).frac_hrs_wk_day = d := fin_inj.mp hd
  have key : ∀ T : Fin 12 → ℝ, 3600 * ventilationCalc x d T m = (leakage x m (T m) + fanFlow x d) * (x.phys.rhoCpAir * 1000000) := by
    intro T
    simp only [ventilationCalc, infiltration_real x hv.leaky.ne', mechanical_real, vdiv_ne _ lit_3600]
    norm_num
    ring
  have hw : 0 ≤ windDriven x m :=
    mul_nonneg (mul_nonneg hv.windCoeff hv.leaky.le) (Real.rpow_nonneg (mul_nonneg hv.windBase (sq_nonneg _)) _)
  have hl : ∀ T, 0.001 ≤ leakage x m T := by
    intro T
    unfold leakage
    have h1 : (0.001 : ℝ) ≤ stack x m T := le_max_left _ _
    have h2 := le_max_left (stack x m T) (windDriven x m)
    have h3 : 0 ≤ 0.14 * (stack x m T * windDriven x m) / x.bldg.infiltrationRate :=
      div_nonneg (mul_nonneg (by norm_num) (mul_nonneg (le_trans (by norm_num) h1) hw)) hv.leaky.le
    have h4 := le_max_left 0 (-(x.ventilation.supplyDifference / x.bldg.floorArea / 3.6))
    linarith
  have hfan : 0 ≤ fanFlow x d := by
    unfold fanFlow
    split_ifs
    · exact le_rfl
    · have h1 : 0 ≤ running x d := by
        unfold running
        have := hv.occupied; have := hv.unoccupied
        split_ifs
        · norm_num
        · exact hd0
        · exact add_nonneg hd0 (mul_nonneg (by linarith) (by positivity))
      have h2 := hv.supply; have h3 := hv.floorArea
      have h4 : 0 ≤ 1 - x.ventilation.exhaustAirRecirculated := by linarith [hv.recirculated]
      have h5 : 0 ≤ 1 - x.ventilation.heatRecoveryEfficiency := by linarith [hv.recovered]
      positivity
  refine ⟨d, (stagesWith x b a t).v_Th_avg m, (stagesWith x b a t).v_Tc_avg m, (stagesWith x b a t).v_Hve_ht m,
    (stagesWith x b a t).v_Hve_cl m, by rw [eo, ← hd']; rfl, by rw [eh], by rw [ec], by rw [e1], by rw [e2], ?_⟩
  have k1 := key (stagesWith x b a t).v_Th_avg
  have k2 := key (stagesWith x b a t).v_Tc_avg
  have g1 : (stagesWith x b a t).v_Hve_ht m = ventilationCalc x d (stagesWith x b a t).v_Th_avg m := by rw [← hd']; rfl
  have g2 : (stagesWith x b a t).v_Hve_cl m = ventilationCalc x d (stagesWith x b a t).v_Tc_avg m := by rw [← hd']; rfl
  rw [← g1] at k1
  rw [← g2] at k2
  refine ⟨k1, k2, hfan, hl _, hl _, ?_, ?_⟩
  · have := hl ((stagesWith x b a t).v_Th_avg m)
    have : 0 < (leakage x m ((stagesWith x b a t).v_Th_avg m) + fanFlow x d) * (x.phys.rhoCpAir * 1000000) :=
      mul_pos (by norm_num at this ⊢; linarith) (mul_pos hv.air (by norm_num))
    linarith
  · have := hl ((stagesWith x b a t).v_Tc_avg m)
    have : 0 < (leakage x m ((stagesWith x b a t).v_Tc_avg m) + fanFlow x d) * (x.phys.rhoCpAir * 1000000) :=
      mul_pos (by norm_num at this ⊢; linarith) (mul_pos hv.air (by norm_num))
    linarith

/-- a building with another supply rate, recirculation and heat recovery -/
noncomputable def otherFans (x : Sim ℝ) (rate recirculated recovered : ℝ) : Sim ℝ :=
  { x with ventilation := { x.ventilation with
      supplyRate := rate, exhaustAirRecirculated := recirculated, heatRecoveryEfficiency := recovered } }

/-- C35: with natural ventilation the coefficients do not depend on the fans. -/
theorem C35_natural (x : Sim ℝ) (hn : x.ventilation.ventType = 3) (h0 : x.bldg.floorArea ≠ 0) (rate recirculated recovered : ℝ)
    (d : Dbl) (T : Fin 12 → Dbl) (m : Fin 12) :
    ventilationCalc ((otherFans x rate recirculated recovered).map fin) d T m = ventilationCalc (x.map fin) d T m := by
  have e : ∀ y : Sim ℝ, y.bldg.floorArea ≠ 0 → y.ventilation.ventType = 3 → mechanicalFlow (y.map fin) d = fin 0 ∧
      flowDifference (y.map fin) = fin (y.ventilation.supplyDifference / y.bldg.floorArea / 3.6) := by
    intro y hy h3
    constructor
    · unfold mechanicalFlow
      have : ceq (y.map fin).ventilation.ventType 3.0 = true := by
        simp only [Sim.map, Ventilation.map, dblfin]
        rw [ceq_real, h3]; norm_num
      rw [this]
      show fin _ = fin _
      norm_num
    · rw [fin_flowDifference hy, flowDifference_real]
  obtain ⟨a1, a2⟩ := e x h0 hn
  obtain ⟨b1, b2⟩ := e (otherFans x rate recirculated recovered) h0 hn
  unfold ventilationCalc infiltration
  rw [a1, a2, b1, b2]
  rfl

/-- C35, the disagreement: a perfectly tight building (no infiltration) gets the largest double as infiltration instead of
none. -/
theorem C35_tight (x : Sim ℝ) (h : FlowData x) (h0 : x.bldg.infiltrationRate = 0) (T : Fin 12 → ℝ) (m : Fin 12) :
    ∃ q, infiltration (x.map fin) (fun m => fin (T m)) m = fin q ∧ dblMax < q := by
  rw [fin_infiltration h]
  refine ⟨_, rfl, ?_⟩
  simp only [infiltration, cmax_real, h0, vdiv_zero]
  have h1 : (0.001 : ℝ) ≤ stackFlow x T m := by rw [stackFlow_real]; exact le_max_left _ _
  have h2 := le_max_left (stackFlow x T m) (windFlow x m)
  have h3 := le_max_left (0.0 : ℝ) (-flowDifference x)
  rw [zero_lit_real] at h3 ⊢
  norm_num at h1
  linarith

/-- the hypotheses of C35 -/
example : VentilationData sunnyOffice := by
  constructor <;> norm_num [sunnyOffice, monthlyOffice, smallOffice]
example : ∃ x : Sim ℝ, FlowData x ∧ x.bldg.infiltrationRate = 0 :=
  ⟨{ sunnyOffice with bldg := { sunnyOffice.bldg with infiltrationRate := 0 } }, by
    constructor
    · constructor <;> norm_num [sunnyOffice, monthlyOffice, smallOffice]
    · rfl⟩
example : ∃ x : Sim ℝ, x.ventilation.ventType = 3 ∧ x.bldg.floorArea ≠ 0 :=
  ⟨{ sunnyOffice with ventilation := { sunnyOffice.ventilation with ventType := 3 } }, by
    norm_num [sunnyOffice, monthlyOffice, smallOffice]⟩

end ISO.Props
