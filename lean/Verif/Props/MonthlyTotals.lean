import Verif.Props.MonthlySystems

/-! # C47 internal gains, C48 fans, C49 finite results of the monthly model -/

namespace ISO.Props
open ISO ISO.Monthly ISO.Spec Dbl CNum

/-- C47: the heat from people, appliances and lights, in watts, is their time average: occupied share of the week times the
occupied figure plus the rest times the unoccupied one; lights give off the year's energy spread over the year. -/
theorem C47_gains (x : Sim ℝ) (h : TempData x) (s : Stages Dbl) (hs : stages (x.map fin) = some s) :
    ∃ Φ lights d : ℝ, s.phi_I_tot = fin Φ ∧ s.l.Q_illum_tot_yr = fin lights ∧ d = windowHours x.pop * windowDays x.pop / 168 ∧
      Φ = x.bldg.floorArea * x.pop.heatGainPerPerson * (d / x.pop.densityOccupied + (1 - d) / x.pop.densityUnoccupied)
        + x.bldg.floorArea * (d * (x.building.electricApplianceHeatGainOccupied + x.building.gasApplianceHeatGainOccupied)
          + (1 - d) * (x.building.electricApplianceHeatGainUnoccupied + x.building.gasApplianceHeatGainUnoccupied))
        + 1000 * lights / 8760 := by
  obtain ⟨b, a, t, hb, ha, ht, rfl⟩ := stages_parts h hs
  obtain ⟨eo, -, el, -, -, -, ei, -, -, -⟩ := fin_stages h b a t
  refine ⟨_, _, _, ei, by rw [el]; rfl, rfl, ?_⟩
  have hd : (scheduleAndOccupancy x.pop).frac_hrs_wk_day = windowHours x.pop * windowDays x.pop / 168 := by
    obtain ⟨d, n, e, h1, -, -, h2, -⟩ := C29_fractions x.pop h.week
    rw [fin_schedule] at h1
    have := fin_inj.mp h1
    rw [this]; linarith
  have hA := h.floorArea
  have h1 := h.occupied
  have h2 := h.unoccupied
  show internalHeatGain x.bldg (heatGainsAndLosses x (scheduleAndOccupancy x.pop).frac_hrs_wk_day (lightingEnergyUse x b.v_hrs_sun_down_mo))
    = _ + _ + 1000 * (lightingEnergyUse x b.v_hrs_sun_down_mo).Q_illum_tot_yr / 8760
  rw [hd]
  generalize (lightingEnergyUse x b.v_hrs_sun_down_mo) = l
  generalize windowHours x.pop * windowDays x.pop / 168 = d
  have l1 : (1.0 : ℝ) = 1 := by norm_num
  have l2 : (8760.0 : ℝ) = 8760 := by norm_num
  have l3 : (1000.0 : ℝ) = 1000 := by norm_num
  simp only [internalHeatGain, heatGainsAndLosses, l1, l2, l3]
  field_simp

/-- C47: unoccupied lighting is counted as heat of the unoccupied hours only: it is the power that, over the unoccupied hours of the
year, gives the unoccupied lighting energy. -/
theorem C47_unoccupied (x : Sim ℝ) (h : TempData x) (s : Stages Dbl) (hs : stages (x.map fin) = some s) :
    ∃ P lights d : ℝ, s.g.phi_int_wk_nt = fin P ∧ s.g.phi_int_wke_day = fin P ∧ s.g.phi_int_wke_nt = fin P ∧
      s.l.Q_illum_unocc = fin lights ∧ d = windowHours x.pop * windowDays x.pop / 168 ∧ d < 1 ∧
      (P - x.pop.heatGainPerPerson / x.pop.densityUnoccupied
        - (x.building.electricApplianceHeatGainUnoccupied + x.building.gasApplianceHeatGainUnoccupied))
        * x.bldg.floorArea * (8760 * (1 - d)) / 1000 = lights := by
  obtain ⟨b, a, t, hb, ha, ht, rfl⟩ := stages_parts h hs
  obtain ⟨eo, -, el, -, -, eg, -, -, -, -⟩ := fin_stages h b a t
  have hd : (scheduleAndOccupancy x.pop).frac_hrs_wk_day = windowHours x.pop * windowDays x.pop / 168 := by
    obtain ⟨d, n, e, h1, -, -, h2, -⟩ := C29_fractions x.pop h.week
    rw [fin_schedule] at h1
    have := fin_inj.mp h1
    rw [this]; linarith
  have hlt : windowHours x.pop * windowDays x.pop / 168 < 1 := by
    have a1 := h.notAllDay
    have a2 := h.week.days_le
    have a3 := h.someHour
    have a4 := h.week.days_ge
    rw [div_lt_one (by norm_num)]
    nlinarith
  have hne : (1:ℝ) - windowHours x.pop * windowDays x.pop / 168 ≠ 0 := by linarith
  refine ⟨(stagesWith x b a t).g.phi_int_wk_nt, (stagesWith x b a t).l.Q_illum_unocc, _, by rw [eg]; rfl, by rw [eg]; rfl,
    by rw [eg]; rfl, by rw [el]; rfl, rfl, hlt, ?_⟩
  have hA := h.floorArea
  show ((heatGainsAndLosses x (scheduleAndOccupancy x.pop).frac_hrs_wk_day (lightingEnergyUse x b.v_hrs_sun_down_mo)).phi_int_wk_nt - _ - _)
    * _ * _ / _ = (lightingEnergyUse x b.v_hrs_sun_down_mo).Q_illum_unocc
  rw [hd]
  generalize (lightingEnergyUse x b.v_hrs_sun_down_mo) = l
  generalize windowHours x.pop * windowDays x.pop / 168 = d at *
  have l1 : (1.0 : ℝ) = 1 := by norm_num
  have l2 : (8760.0 : ℝ) = 8760 := by norm_num
  have l3 : (1000.0 : ℝ) = 1000 := by norm_num
  simp only [heatGainsAndLosses, l1, l2, l3]
  generalize x.pop.heatGainPerPerson / x.pop.densityUnoccupied = p
  obtain ⟨q, rfl⟩ : ∃ q, d = 1 - q := ⟨1 - d, by ring⟩
  rw [sub_sub_cancel] at *
  field_simp
  ring

/-- C47: the heat gained in the unoccupied periods of a month: the power that multiplied by the length of the period (week nights,
weekend days, weekend nights, in megaseconds) gives the heat released inside during the period plus the share of the month's solar
gains that falls into it.  A period of length zero gets the largest double as power. -/
theorem C47_periods (x : Sim ℝ) (h : TempData x) (s : Stages Dbl) (hs : stages (x.map fin) = some s) (m : Fin 12) :
    ∃ P E wn wd wt Pn Pd Pt Ln Ld Lt : ℝ, s.g.phi_int_wk_nt = fin P ∧ s.v_E_sol m = fin E ∧
      s.b.frac_Pgh_wk_nt m = fin wn ∧ s.b.frac_Pgh_wke_day m = fin wd ∧ s.b.frac_Pgh_wke_nt m = fin wt ∧
      s.unocc.v_P_tot_wk_nt m = fin Pn ∧ s.unocc.v_P_tot_wke_day m = fin Pd ∧ s.unocc.v_P_tot_wke_nt m = fin Pt ∧
      Ln = megaseconds m * ((windowDays x.pop - 1) * (24 - windowHours x.pop) / 168) ∧
      Ld = megaseconds m * ((7 - windowDays x.pop) * windowHours x.pop / 168) ∧
      Lt = megaseconds m * ((8 - windowDays x.pop) * (24 - windowHours x.pop) / 168) ∧
      (Ln ≠ 0 → Pn * Ln = P * x.bldg.floorArea * Ln + E * wn) ∧ (Ln = 0 → Pn = dblMax) ∧
      (Ld ≠ 0 → Pd * Ld = P * x.bldg.floorArea * Ld + E * wd) ∧ (Ld = 0 → Pd = dblMax) ∧
      0 < Lt ∧ Pt * Lt = P * x.bldg.floorArea * Lt + E * wt := by
  obtain ⟨b, a, t, hb, ha, ht, rfl⟩ := stages_parts h hs
  obtain ⟨eo, eb, -, -, es, eg, -, eu, -, -⟩ := fin_stages h b a t
  obtain ⟨o1, o2, o3, o4, -, m2, m3, m4, q1, q2, q3, -, -, -, -, hsum⟩ := C29_months x.pop h.week m
  rw [fin_schedule] at m2 m3 m4
  have m2 := fin_inj.mp m2
  have m3 := fin_inj.mp m3
  have m4 := fin_inj.mp m4
  have hk : ∀ P A E w L : ℝ, (L ≠ 0 → vdiv (L * (P * A) + E * w) L * L = P * A * L + E * w) ∧
      (L = 0 → vdiv (L * (P * A) + E * w) L = dblMax) := by
    intro P A E w L
    refine ⟨fun hL => ?_, fun hL => by rw [hL, vdiv_zero]⟩
    rw [vdiv_ne _ hL, div_mul_cancel₀ _ hL]; ring
  have q3' : o3 = megaseconds m * ((7 - windowDays x.pop) * windowHours x.pop / 168) := by rw [q3]; ring
  have q4 : o4 = megaseconds m * ((8 - windowDays x.pop) * (24 - windowHours x.pop) / 168) := by
    have : o4 = megaseconds m - o1 - o2 - o3 := by linarith
    rw [this, q1, q2, q3]; ring
  have hm : 0 < megaseconds m := by
    unfold megaseconds
    have : 0 < days m := by fin_cases m <;> decide
    positivity
  have hLt : 0 < o4 := by
    rw [q4]
    have := h.notAllDay; have := h.week.days_le
    have h1 : 0 < 8 - windowDays x.pop := by linarith
    have h2 : 0 < 24 - windowHours x.pop := by linarith
    positivity
  refine ⟨(stagesWith x b a t).g.phi_int_wk_nt, (stagesWith x b a t).v_E_sol m, (stagesWith x b a t).b.frac_Pgh_wk_nt m,
    (stagesWith x b a t).b.frac_Pgh_wke_day m, (stagesWith x b a t).b.frac_Pgh_wke_nt m,
    (stagesWith x b a t).unocc.v_P_tot_wk_nt m, (stagesWith x b a t).unocc.v_P_tot_wke_day m,
    (stagesWith x b a t).unocc.v_P_tot_wke_nt m, o2, o3, o4, by rw [eg]; rfl, by rw [es], by rw [eb]; rfl, by rw [eb]; rfl,
    by rw [eb]; rfl, by rw [eu]; rfl, by rw [eu]; rfl, by rw [eu]; rfl, q2, q3', q4, ?_⟩
  rw [← m2, ← m3, ← m4] at *
  exact ⟨(hk _ _ _ _ _).1, (hk _ _ _ _ _).2, (hk _ _ _ _ _).1, (hk _ _ _ _ _).2, hLt, (hk _ _ _ _ _).1 hLt.ne'⟩

/-! ## C48: fans -/

theorem fin_fanUse (x : Sim ℝ) (f qh qc Th Tc : ℝ) (m : Fin 12) :
    fanUse (x.map fin) (fin f) (fin qh) (fin qc) (fin Th) (fin Tc) m = fin (fanUse x f qh qc Th Tc m) := by
  have h : (1000.0 : ℝ) ≠ 0 := by norm_num
  simp only [fanUse, Sim.map, Heating.map, Cooling.map, PhysicalQuantities.map, Ventilation.map, Structure.map, dblfin, ne_eq, h,
    not_false_eq_true]

/-- C48: the fans move the larger of the air that carries the needs and the outside air due in the occupied hours; their energy is
that volume times fan power and control factor, in kilowatt hours per floor area. -/
theorem C48_fans (x : Sim ℝ) (h : TempData x) (s : Stages Dbl) (hs : stages (x.map fin) = some s) (m : Fin 12) (qh qc Th Tc d : ℝ)
    (e1 : s.needs.v_Qneed_ht m = fin qh) (e2 : s.needs.v_Qneed_cl m = fin qc) (e3 : s.v_Th_avg m = fin Th) (e4 : s.v_Tc_avg m = fin Tc)
    (hd : d = windowHours x.pop * windowDays x.pop / 168)
    (n1 : (x.heating.temperatureSetPointOccupied + x.heating.dT_supp_ht - Th) * x.phys.rhoCpAir + dblMin ≠ 0)
    (n2 : (Tc - (x.cooling.temperatureSetPointOccupied - x.cooling.dT_supp_cl)) * x.phys.rhoCpAir + dblMin ≠ 0) :
    s.needs.v_Qfan_tot m = fin (
      max (airVolume x qh (x.heating.temperatureSetPointOccupied + x.heating.dT_supp_ht - Th)
          + airVolume x qc (Tc - (x.cooling.temperatureSetPointOccupied - x.cooling.dT_supp_cl)))
        (86400 * days m * d * x.ventilation.supplyRate / 1000)
      * (x.ventilation.fanPower * x.ventilation.fanControlFactor / 1000) / x.bldg.floorArea / 3.6) := by
  obtain ⟨b, a, t, hb, ha, ht, rfl⟩ := stages_parts h hs
  obtain ⟨eo, -, -, -, -, -, -, -, -, -⟩ := fin_stages h b a t
  have hd' : (stagesWith x b a t).o.frac_hrs_wk_day = d := by
    obtain ⟨d', n, e, h1, -, -, h2, -⟩ := C29_fractions x.pop h.week
    rw [fin_schedule] at h1
    have := fin_inj.mp h1
    show (scheduleAndOccupancy x.pop).frac_hrs_wk_day = d
    rw [this, hd]; linarith
  have n3 : ∀ s : Sim Dbl, ∀ b a t, (stagesWith s b a t).needs.v_Qfan_tot m
      = fanUse s (stagesWith s b a t).o.frac_hrs_wk_day ((stagesWith s b a t).needs.v_Qneed_ht m) ((stagesWith s b a t).needs.v_Qneed_cl m)
        ((stagesWith s b a t).v_Th_avg m) ((stagesWith s b a t).v_Tc_avg m) m := fun _ _ _ _ => rfl
  rw [n3, e1, e2, e3, e4, eo]
  show fanUse (x.map fin) (fin (stagesWith x b a t).o.frac_hrs_wk_day) _ _ _ _ m = _
  rw [hd', fin_fanUse, fin_inj]
  have k1 : (1000.0 : ℝ) = 1000 := by norm_num
  have k1' : (1000 : ℝ) ≠ 0 := by norm_num
  have k2 : (3.6 : ℝ) ≠ 0 := by norm_num
  have k3 : (1000000.0 : ℝ) = 1000000 := by norm_num
  simp only [fanUse, airVolume, vdiv_ne _ n1, vdiv_ne _ n2, k1, k3, vdiv_ne _ k1', vdiv_ne _ k2, vdiv_ne _ h.floorArea, mega_eq,
    megaseconds, realnum]
  congr 4
  ring

/-- C48: so the fan energy is at least that of the outside air, and exactly proportional to the fan power. -/
theorem C48_least (x : Sim ℝ) (f qh qc Th Tc : ℝ) (m : Fin 12) (hA : 0 < x.bldg.floorArea)
    (hp : 0 ≤ x.ventilation.fanPower * x.ventilation.fanControlFactor) :
    ∃ e, fanUse (x.map fin) (fin f) (fin qh) (fin qc) (fin Th) (fin Tc) m = fin e ∧
      86400 * days m * f * x.ventilation.supplyRate / 1000 * (x.ventilation.fanPower * x.ventilation.fanControlFactor / 1000)
        / x.bldg.floorArea / 3.6 ≤ e ∧
      ∀ k : ℝ, fanUse ({ x with ventilation := { x.ventilation with fanPower := k * x.ventilation.fanPower } }.map fin)
        (fin f) (fin qh) (fin qc) (fin Th) (fin Tc) m = fin (k * e) := by
  refine ⟨_, fin_fanUse x f qh qc Th Tc m, ?_, ?_⟩
  · have k1 : (1000.0 : ℝ) = 1000 := by norm_num
    have k1' : (1000 : ℝ) ≠ 0 := by norm_num
    have k2 : (3.6 : ℝ) ≠ 0 := by norm_num
    have k3 : (1000000.0 : ℝ) = 1000000 := by norm_num
    simp only [fanUse, k1, k3, vdiv_ne _ k1', vdiv_ne _ k2, vdiv_ne _ hA.ne', mega_eq, megaseconds, realnum]
    rw [show (86400 * (days m : ℝ) * f * x.ventilation.supplyRate / 1000)
      = days m * 86400 / 1000000 * (x.ventilation.supplyRate * f * 1000000) / 1000 by ring]
    refine div_le_div_of_nonneg_right (div_le_div_of_nonneg_right ?_ hA.le) (by norm_num)
    exact mul_le_mul_of_nonneg_right (le_max_right _ _) (div_nonneg hp (by norm_num))
  · intro k
    rw [fin_fanUse, fin_inj]
    have k2 : (3.6 : ℝ) ≠ 0 := by norm_num
    simp only [fanUse, vdiv_ne _ k2, vdiv_ne _ hA.ne']
    generalize (1000.0 : ℝ) = c
    generalize (3.6 : ℝ) = c'
    ring

/-! ## C49: finite results -/

/-- C49: with the data in range, all results are numbers (neither infinite nor undefined) as soon as the needs of the months are
numbers and their total is not zero. -/
theorem C49_finite (x : Sim ℝ) (h : TempData x) (hsys : SystemData x) (s : Stages Dbl) (hs : stages (x.map fin) = some s)
    (qh qc : Fin 12 → ℝ) (e1 : ∀ m, s.needs.v_Qneed_ht m = fin (qh m)) (e2 : ∀ m, s.needs.v_Qneed_cl m = fin (qc m))
    (hT : ∑ m, qh m + ∑ m, qc m ≠ 0) :
    ∃ r : Fin 12 → Fin 13 → ℝ, simulate (x.map fin) = some (List.ofFn fun m k => fin (r m k)) := by
  obtain ⟨b, a, t, hb, ha, ht, rfl⟩ := stages_parts h hs
  obtain ⟨eo, -, el, -, -, -, -, -, eh, ec⟩ := fin_stages h b a t
  have hn : ∃ n : Needs ℝ, (stagesWith (x.map fin) (b.map fin) (a.map fin) (fin t)).needs = n.map fin ∧
      n.Qneed_ht_yr + n.Qneed_cl_yr ≠ 0 := by
    refine ⟨{ v_Qfan_tot := fun m => fanUse x (stagesWith x b a t).o.frac_hrs_wk_day (qh m) (qc m) ((stagesWith x b a t).v_Th_avg m)
                ((stagesWith x b a t).v_Tc_avg m) m
              v_Qneed_ht := qh, v_Qneed_cl := qc, Qneed_ht_yr := vsum qh, Qneed_cl_yr := vsum qc }, ?_, ?_⟩
    · have n3 : ∀ s : Sim Dbl, ∀ b a t, (stagesWith s b a t).needs
        = { v_Qfan_tot := fun m => fanUse s (stagesWith s b a t).o.frac_hrs_wk_day ((stagesWith s b a t).needs.v_Qneed_ht m)
              ((stagesWith s b a t).needs.v_Qneed_cl m) ((stagesWith s b a t).v_Th_avg m) ((stagesWith s b a t).v_Tc_avg m) m
            v_Qneed_ht := (stagesWith s b a t).needs.v_Qneed_ht
            v_Qneed_cl := (stagesWith s b a t).needs.v_Qneed_cl
            Qneed_ht_yr := vsum (stagesWith s b a t).needs.v_Qneed_ht
            Qneed_cl_yr := vsum (stagesWith s b a t).needs.v_Qneed_cl } := fun _ _ _ _ => rfl
      rw [n3, funext e1, funext e2, eo, eh, ec]
      simp only [Needs.map, fin_vsum, ← fin_fanUse]
      rfl
    · show vsum qh + vsum qc ≠ 0
      rw [vsum_real, vsum_real]; exact hT
  obtain ⟨n, en, hT'⟩ := hn
  have c1 : ∀ m, ∃ r, (hvac (x.map fin) (n.map fin)).v_Qelec_ht m = fin r := by
    intro m
    obtain ⟨h1, h2, h3⟩ := C38_heating x hsys n hT' m _ rfl
    by_cases hd : x.heating.DH_YesNo = 1
    · exact ⟨_, (h3 hd).1⟩
    · by_cases he : x.heating.energyType = 1
      · exact ⟨_, (h1 hd he).1⟩
      · exact ⟨_, (h2 hd he).1⟩
  have c2 : ∀ m, ∃ r, (hvac (x.map fin) (n.map fin)).v_Qgas_ht m = fin r := by
    intro m
    obtain ⟨h1, h2, h3⟩ := C38_heating x hsys n hT' m _ rfl
    by_cases hd : x.heating.DH_YesNo = 1
    · exact ⟨_, (h3 hd).2⟩
    · by_cases he : x.heating.energyType = 1
      · exact ⟨_, (h1 hd he).2⟩
      · exact ⟨_, (h2 hd he).2⟩
  have c3 : ∀ m, ∃ r, (hvac (x.map fin) (n.map fin)).v_Qcl_elec_tot m = fin r := by
    intro m
    obtain ⟨h1, h2⟩ := C38_cooling x hsys n hT' m _ rfl
    by_cases hd : x.cooling.DC_YesNo = 1
    · exact ⟨_, (h2 hd).1⟩
    · exact ⟨_, (h1 hd).1⟩
  have c4 : ∀ m, ∃ r, (hvac (x.map fin) (n.map fin)).v_Qcl_gas_tot m = fin r := by
    intro m
    obtain ⟨h1, h2⟩ := C38_cooling x hsys n hT' m _ rfl
    by_cases hd : x.cooling.DC_YesNo = 1
    · exact ⟨_, (h2 hd).2⟩
    · exact ⟨_, (h1 hd).2⟩
  have c5 : ∀ m, ∃ r, (heatedWater (x.map fin)).1 m = fin r := by
    intro m
    obtain ⟨h1, h2⟩ := C40_fuel x
    by_cases hd : x.heating.hotWaterEnergyType = 1
    · obtain ⟨e, -, he, -⟩ := h1 hd m; exact ⟨e, he⟩
    · obtain ⟨e, -, -, he⟩ := h2 hd m; exact ⟨0, he⟩
  have c6 : ∀ m, ∃ r, (heatedWater (x.map fin)).2 m = fin r := by
    intro m
    obtain ⟨h1, h2⟩ := C40_fuel x
    by_cases hd : x.heating.hotWaterEnergyType = 1
    · obtain ⟨e, -, -, he⟩ := h1 hd m; exact ⟨0, he⟩
    · obtain ⟨e, -, he, -⟩ := h2 hd m; exact ⟨e, he⟩
  choose f1 g1 using c1
  choose f2 g2 using c2
  choose f3 g3 using c3
  choose f4 g4 using c4
  choose f5 g5 using c5
  choose f6 g6 using c6
  have hf : figures (x.map fin) (stagesWith (x.map fin) (b.map fin) (a.map fin) (fin t)) = Figures.map fin
      { v_Qelec_ht := f1, v_Qcl_elec_tot := f3, v_Q_illum_tot := (stagesWith x b a t).l.v_Q_illum_tot
        v_Q_illum_ext_tot := (stagesWith x b a t).l.v_Q_illum_ext_tot, v_Qfan_tot := n.v_Qfan_tot, v_Q_pump_tot := pump x n
        v_Q_dhw_elec := f5, v_Qgas_ht := f2, v_Qcl_gas_tot := f4, v_Q_dhw_gas := f6
        frac_hrs_wk_day := (stagesWith x b a t).o.frac_hrs_wk_day } := by
    simp only [figures, en, eo, el, funext g1, funext g2, funext g3, funext g4, funext g5, funext g6, Figures.map, LightingUse.map,
      funext (fin_pump x n)]
    rfl
  have hsim : simulate (x.map fin) = some (outputGeneration (x.map fin) (figures (x.map fin) (stagesWith (x.map fin) (b.map fin) (a.map fin) (fin t)))) := by
    unfold simulate; rw [hs]; rfl
  generalize figures (x.map fin) (stagesWith (x.map fin) (b.map fin) (a.map fin) (fin t)) = F at hf hsim
  obtain ⟨G, rfl⟩ : ∃ G, F = Figures.map fin G := ⟨_, hf⟩
  refine ⟨fun m k => monthEndUses x G m k, hsim.trans ?_⟩
  unfold outputGeneration
  rw [List.ofFn_eq_map]
  congr 2
  funext m k
  exact fin_monthEndUses x _ m k

/-! ## the hypotheses are met -/

/-- a windowless, tight office whose walls neither absorb nor emit radiation, at zero degrees all year, without night set-back -/
noncomputable def plainOffice : Sim ℝ :=
  { sunnyOffice with
    weather := { sunnyOffice.weather with mdbt := fun _ => 0 }
    bldg := { sunnyOffice.bldg with windowArea := fun _ => 0, wallSolarAbsorption := fun _ => 0, wallThermalEmissivity := fun _ => 0 }
    heating := { sunnyOffice.heating with T_ht_ctrl_flag := 0 }
    cooling := { sunnyOffice.cooling with T_cl_ctrl_flag := 0 } }

theorem plain_temp : TempData plainOffice := by
  constructor
  case week => constructor <;> norm_num [plainOffice, sunnyOffice, monthlyOffice, smallOffice, windowHours, windowDays]
  case heatLoss =>
    rw [sum9]
    norm_num [plainOffice, sunnyOffice, monthlyOffice, smallOffice, nineOf]
  case capacity =>
    rw [sum9]
    norm_num [plainOffice, sunnyOffice, monthlyOffice, smallOffice, nineOf]
  all_goals norm_num [plainOffice, sunnyOffice, monthlyOffice, smallOffice, windowHours, windowDays]

theorem plain_systems : SystemData plainOffice := by
  constructor <;> norm_num [plainOffice, sunnyOffice, monthlyOffice, smallOffice]

theorem plain_lighting : LightingData plainOffice := by
  constructor <;> norm_num [plainOffice, sunnyOffice, monthlyOffice, smallOffice, litByDay, litDays, windowDays]

theorem plain_ventilation : VentilationData plainOffice := by
  constructor <;> norm_num [plainOffice, sunnyOffice, monthlyOffice, smallOffice]

theorem plain_stages : ∃ s, stages (plainOffice.map fin) = some s := by
  have h : ¬simulate (plainOffice.map fin) = none := by
    rw [C41_defined plainOffice plain_temp.someHour]
    rintro (⟨m, hm⟩ | ⟨i, hi⟩ | h)
    · have := hm 8
      norm_num [plainOffice, sunnyOffice] at this
    · norm_num [plainOffice, sunnyOffice, monthlyOffice] at hi
    · norm_num [plainOffice, sunnyOffice, monthlyOffice, smallOffice] at h
  unfold simulate at h
  cases hs : stages (plainOffice.map fin) with
  | none => rw [hs] at h; exact absurd rfl h
  | some s => exact ⟨s, rfl⟩

theorem plain_loss : ∑ i, (plainOffice.bldg.wallArea i * plainOffice.bldg.wallUniform i
    + plainOffice.bldg.windowArea i * plainOffice.bldg.windowUniform i) > 1000 := by
  rw [sum9]
  norm_num [plainOffice, sunnyOffice, monthlyOffice, smallOffice, nineOf]

/-- the gains of the plain office are between 1 W and 20 kW -/
theorem plain_gain {s : Stages Dbl} (hs : stages (plainOffice.map fin) = some s) :
    ∃ Φ, s.phi_I_tot = fin Φ ∧ 1 < Φ ∧ Φ < 20000 := by
  obtain ⟨Φ, lights, d, e1, e2, hd, e3⟩ := C47_gains plainOffice plain_temp s hs
  refine ⟨Φ, e1, ?_⟩
  obtain ⟨b, a, t, hb, ha, ht, rfl⟩ := stages_parts plain_temp hs
  obtain ⟨-, -, el, -, -, -, -, -, -, -⟩ := fin_stages plain_temp b a t
  obtain ⟨occ, unocc, -, -, h3, h4, h5, h6, -⟩ := C31_year plainOffice plain_lighting b.v_hrs_sun_down_mo
  have e4 : lights = occ + unocc := fin_inj.mp (e2.symm.trans h3)
  have hd' : d = 45 / 168 := by
    rw [hd]; norm_num [plainOffice, sunnyOffice, monthlyOffice, smallOffice, windowHours, windowDays]
  have o1 : occ = 511.16 * 6.339 * (250 * 9) / 1000 := by
    have : 1000 * occ = 511.16 * 6.339 * (250 * 9) := by
      rw [h5]
      norm_num [plainOffice, sunnyOffice, monthlyOffice, smallOffice, litDays, litByDay, litByNight, windowDays]
    linarith
  have o2 : unocc = 511.16 * 2.586 * (8760 - 250 * 9) / 1000 := by
    have : 1000 * unocc = 511.16 * 2.586 * (8760 - 250 * 9) := by
      rw [h6]
      norm_num [plainOffice, sunnyOffice, monthlyOffice, smallOffice, litDays, litByDay, litByNight, windowDays]
    linarith
  rw [e3, e4, o1, o2, hd']
  norm_num [plainOffice, sunnyOffice, monthlyOffice, smallOffice]

theorem plain_solar {s : Stages Dbl} (hs : stages (plainOffice.map fin) = some s) (m : Fin 12) : s.v_E_sol m = fin 0 := by
  obtain ⟨b, a, t, hb, ha, ht, rfl⟩ := stages_parts plain_temp hs
  show solarHeatGain (plainOffice.bldg.map fin) (plainOffice.weather.map fin) (a.map fin) m = _
  rw [C33_gain plainOffice.bldg plainOffice.weather (a.map fin) (by rw [fin_windowSolarGain, ha]; rfl)]
  congr 1
  simp [windowHeat, opaqueHeat, skyLoss, plainOffice]

/-- the needs of the plain office are numbers, and there is a heating need every month -/
theorem plain_needs {s : Stages Dbl} (hs : stages (plainOffice.map fin) = some s) (m : Fin 12) :
    ∃ qh qc, s.needs.v_Qneed_ht m = fin qh ∧ s.needs.v_Qneed_cl m = fin qc ∧ 1 < qh ∧ -dblMin < qc := by
  have htau : 0 < buildingTau plainOffice := by
    unfold buildingTau
    rw [sum9, sum9]
    norm_num [plainOffice, sunnyOffice, monthlyOffice, smallOffice, nineOf]
  have h15 : plainOffice.heating.tau_H0 = 15 := by norm_num [plainOffice, sunnyOffice, monthlyOffice, smallOffice]
  have h1 : plainOffice.heating.a_H0 = 1 := by norm_num [plainOffice, sunnyOffice, monthlyOffice, smallOffice]
  obtain ⟨Φ, E, Th, Tc, H, H', eΦ, eE, eTh, eTc, eH, eH', hN⟩ := C36_simulation plainOffice plain_temp plain_ventilation
    (by rw [h15]; norm_num) (by rw [h15, h1]; positivity) s hs m
  obtain ⟨Φ', eΦ', p1, p2⟩ := plain_gain hs
  have hΦ : Φ = Φ' := fin_inj.mp (eΦ.symm.trans eΦ')
  have hE : E = 0 := fin_inj.mp (eE.symm.trans (plain_solar hs m))
  have hlev : plainOffice.building.buildingEnergyManagement = 1 := by norm_num [plainOffice, sunnyOffice, monthlyOffice, smallOffice]
  have hTh : Th = 24 := by
    obtain ⟨_, _, _, _, _, _, _, _, t, T, hM, hT, -, h2⟩ := C34_heating plainOffice plain_temp s hs m
    have e := h2 (by norm_num [plainOffice])
    rw [hM.shift, hlev] at e
    rw [fin_inj.mp (eTh.symm.trans hT), e]
    norm_num [levelShift, plainOffice, sunnyOffice, monthlyOffice, smallOffice]
  have hTc : Tc = 28 := by
    obtain ⟨_, _, _, _, _, _, _, _, t, T, hM, hT, -, h2⟩ := C34_cooling plainOffice plain_temp s hs m
    have e := h2 (by norm_num [plainOffice])
    rw [hM.shift, hlev] at e
    rw [fin_inj.mp (eTc.symm.trans hT), e]
    norm_num [levelShift, plainOffice, sunnyOffice, monthlyOffice, smallOffice]
  obtain ⟨_, _, _, G, G', -, -, -, g1, g2, -, -, -, -, -, g3, g4⟩ := C35_flows plainOffice plain_temp plain_ventilation s hs m
  have hG : 0 < H := by rw [fin_inj.mp (eH.symm.trans g1)]; exact g3
  have hG' : 0 < H' := by rw [fin_inj.mp (eH'.symm.trans g2)]; exact g4
  have hA : plainOffice.bldg.floorArea = 511.16 := by norm_num [plainOffice, sunnyOffice, monthlyOffice, smallOffice]
  have hmd : plainOffice.weather.mdbt m = 0 := rfl
  have hM : 2 < megaseconds m := by fin_cases m <;> norm_num [megaseconds, days, monthDays]
  have hL := plain_loss
  obtain ⟨n1, n2, -⟩ := hN _ _ _ rfl rfl rfl
  rw [hE, hTh, hmd, hΦ, hA] at n1
  rw [hE, hTc, hmd, hΦ, hA] at n2
  generalize ∑ i, (plainOffice.bldg.wallArea i * plainOffice.bldg.wallUniform i
    + plainOffice.bldg.windowArea i * plainOffice.bldg.windowUniform i) = L at n1 n2 hL
  have hδ : (dblMin : ℝ) < 0.0000000001 := dblMin_lt
  have hδ0 : 0 < (dblMin : ℝ) := dblMin_pos
  have gpos : 0 < megaseconds m * Φ' + 0 := by nlinarith
  have k1 : 1000 < L + H * 511.16 := by nlinarith
  have k2 : 1000 < L + H' * 511.16 := by nlinarith
  have b1 : megaseconds m * Φ' + 0 + 1 < megaseconds m * (24 - 0) * (L + H * 511.16) := by nlinarith
  have b2 : megaseconds m * Φ' + 0 + 1 < megaseconds m * (28 - 0) * (L + H' * 511.16) := by nlinarith
  obtain ⟨qh, f1, -, f2, -⟩ := n1 gpos (by linarith) (by linarith)
  obtain ⟨qc, f3, f4, -, -⟩ := n2 gpos (by linarith) (by intro h; norm_num at hδ; linarith)
  exact ⟨qh, qc, f1, f3, by linarith, f4⟩

/-- so all its results are numbers -/
example : ∃ r : Fin 12 → Fin 13 → ℝ, simulate (plainOffice.map fin) = some (List.ofFn fun m k => fin (r m k)) := by
  obtain ⟨s, hs⟩ := plain_stages
  have h := plain_needs hs
  choose qh qc h1 h2 h3 h4 using h
  refine C49_finite plainOffice plain_temp plain_systems s hs qh qc h1 h2 ?_
  have a1 : ∑ m : Fin 12, (1:ℝ) ≤ ∑ m, qh m := Finset.sum_le_sum fun m _ => (h3 m).le
  have a2 : ∑ m : Fin 12, (-dblMin : ℝ) ≤ ∑ m, qc m := Finset.sum_le_sum fun m _ => (h4 m).le
  simp at a1 a2
  have hδ : (dblMin : ℝ) < 0.0000000001 := dblMin_lt
  norm_num at hδ
  have : (0:ℝ) < ∑ m, qh m + ∑ m, qc m := by linarith
  exact this.ne'

/-- and C48 applies to it -/
example : ∃ s : Stages Dbl, stages (plainOffice.map fin) = some s ∧ ∃ qh qc, s.needs.v_Qneed_ht 0 = fin qh ∧ s.needs.v_Qneed_cl 0 = fin qc := by
  obtain ⟨s, hs⟩ := plain_stages
  obtain ⟨qh, qc, h1, h2, -⟩ := plain_needs hs 0
  exact ⟨s, hs, qh, qc, h1, h2⟩

end ISO.Props
