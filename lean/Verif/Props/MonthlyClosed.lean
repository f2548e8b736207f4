import Verif.Props.MonthlyFinite
import Verif.Spec.MonthlyBalance

/-!
# C68: the monthly simulation as a formula of the parameters

The chain of fourteen functions of the monthly simulation is one formula.
-/

namespace ISO.Props
open ISO ISO.Monthly ISO.Spec Dbl CNum

theorem occupied_part {x : Sim ℝ} (h : TempData x) {s : Stages Dbl} (hs : stages (x.map fin) = some s) :
    s.o.frac_hrs_wk_day = fin (occupiedShare x) := by
  obtain ⟨b, a, t, -, -, -, rfl⟩ := stages_parts h hs
  obtain ⟨eo, -⟩ := fin_stages h b a t
  obtain ⟨d, n, e, h1, -, -, h2, -⟩ := C29_fractions x.pop h.week
  rw [eo]
  rw [fin_schedule] at h1
  have hd := fin_inj.mp h1
  show fin (scheduleAndOccupancy x.pop).frac_hrs_wk_day = _
  rw [hd, fin_inj]
  unfold occupiedShare; linarith

/-- without set-back, or with set-points that change nothing, the building is at its set-points -/
theorem heatedTo_steady {x : Sim ℝ} (h : TempData x) (hc : SteadyTemperatures x) (m : Fin 12) : heatedTo x m = heatTo x := by
  obtain ⟨d, n, e, -, -, -, h1, h2, p1, -, p2, -, p3, -, p4⟩ := C29_fractions x.pop h.week
  have hd : occupiedShare x = d := by unfold occupiedShare; linarith
  have hn : nightShare x = n := by unfold nightShare; linarith
  have he : 1 - occupiedShare x - nightShare x = e := by rw [hd, hn]; linarith
  unfold heatedTo
  split_ifs with hf
  · rcases hc.heating with h' | h'
    · exact absurd hf h'
    · apply min_eq_right
      rw [he, hd, hn]
      exact weekMean_ge ⟨p1, p2, p3, p4⟩ le_rfl fun k => h'.ge.trans (le_max_left _ _)
  · rfl

/-- without set-back, or with set-points that change nothing, the building is at its set-points -/
theorem cooledTo_steady {x : Sim ℝ} (h : TempData x) (hc : SteadyTemperatures x) (m : Fin 12) : cooledTo x m = coolTo x := by
  obtain ⟨d, n, e, -, -, -, h1, h2, p1, -, p2, -, p3, -, p4⟩ := C29_fractions x.pop h.week
  have hd : occupiedShare x = d := by unfold occupiedShare; linarith
  have hn : nightShare x = n := by unfold nightShare; linarith
  have he : 1 - occupiedShare x - nightShare x = e := by rw [hd, hn]; linarith
  unfold cooledTo
  split_ifs with hf
  · rcases hc.cooling with h' | h'
    · exact absurd hf h'
    · apply min_eq_right
      rw [he, hd, hn]
      exact weekMean_ge ⟨p1, p2, p3, p4⟩ le_rfl fun k => h'.trans (le_max_left _ _)
  · rfl

/-- heat from inside in unoccupied hours, and the solar gain -/
theorem unoccupied_heat {x : Sim ℝ} (h : TempData x) (hl : LightingData x) {s : Stages Dbl} (hs : stages (x.map fin) = some s) :
    ∃ P, s.g.phi_int_wk_nt = fin P ∧ P * x.bldg.floorArea = insideUnoccupied x := by
  obtain ⟨P, lights, d, u1, -, -, u2, u3, u4, u5⟩ := C47_unoccupied x h s hs
  refine ⟨P, u1, ?_⟩
  obtain ⟨b, a, t, hb, ha, ht, rfl⟩ := stages_parts h hs
  obtain ⟨occ, unocc, l1, l2, l3, l4, l5, l6, -⟩ := C31_year x hl b.v_hrs_sun_down_mo
  have e : lights = unocc := fin_inj.mp (u2.symm.trans l2)
  subst e
  have hd : (8760 * (1 - d)) ≠ 0 := by
    have : 0 < 1 - d := by linarith
    positivity
  unfold insideUnoccupied occupiedShare
  rw [← u3, ← l6, ← u5]
  have key : ∀ A g e K : ℝ, K ≠ 0 → P * A = A * (g + e) + 1000 * ((P - g - e) * A * K / 1000) / K := by
    intro A g e K hK
    have : 1000 * ((P - g - e) * A * K / 1000) / K = (P - g - e) * A := by
      rw [mul_div_cancel₀ _ (by norm_num : (1000:ℝ) ≠ 0), mul_div_cancel_right₀ _ hK]
    rw [this]; ring
  exact key _ _ _ _ hd

theorem gain_of {P A E w L W q r M : ℝ} (hM : M ≠ 0) (hr : r ≠ 0) (hL0 : L ≠ 0) {L' : ℝ} (eL : L = M * L') (eE : E = M * W)
    (ew : w * (M * r) = M * q * L') {g : ℝ} (hg : g * L = P * A * L + E * w) : g = P * A + W * (q / r) := by
  have hL' : L' ≠ 0 := fun h0 => hL0 (by rw [eL, h0, mul_zero])
  have hw : w = q * L' / r := by
    rw [eq_div_iff hr]
    have : M * (w * r) = M * (q * L') := by linarith
    exact mul_left_cancel₀ hM this
  have : g * L = (P * A + W * (q / r)) * L := by
    rw [hg, eE, hw, eL]
    field_simp
  exact mul_right_cancel₀ hL0 this

/-- the gains of the unoccupied periods -/
theorem unoccupied_gains {x : Sim ℝ} (h : TempData x) (hl : LightingData x) (hsun : ∀ m j, 0 ≤ x.weather.mhEgh m j) {s : Stages Dbl}
    (hs : stages (x.map fin) = some s) (m : Fin 12) :
    s.unocc.v_P_tot_wk_nt m = fin (unoccupiedGain x m (dayHours x.pop)ᶜ (windowDays x.pop - 1)) ∧
    s.unocc.v_P_tot_wke_day m = fin (unoccupiedGain x m (dayHours x.pop) (7 - windowDays x.pop)) ∧
    s.unocc.v_P_tot_wke_nt m = fin (unoccupiedGain x m (dayHours x.pop)ᶜ (8 - windowDays x.pop)) := by
  obtain ⟨P', hP', hPA⟩ := unoccupied_heat h hl hs
  obtain ⟨P, E, wn, wd, wt, Pn, Pd, Pt, Ln, Ld, Lt, q1, q2, q3, q4, q5, q6, q7, q8, q9, q10, q11, q12, q13, q14, q15, q16, q17⟩ :=
    C47_periods x h s hs m
  have eP : P = P' := fin_inj.mp (q1.symm.trans hP')
  subst eP
  obtain ⟨b, a, t, hb, ha, ht, rfl⟩ := stages_parts h hs
  obtain ⟨-, eb, el, -, es, -⟩ := fin_stages h b a t
  have hE : (stagesWith (x.map fin) (b.map fin) (a.map fin) (fin t)).v_E_sol m
      = fin (megaseconds m * (windowHeat x.bldg x.weather m + opaqueHeat x.bldg x.weather m - skyLoss x.bldg)) :=
    C33_gain x.bldg x.weather (a.map fin) (by rw [fin_windowSolarGain, ha]; rfl) m
  have eE := fin_inj.mp (q2.symm.trans hE)
  have hbd : solarRadiationBreakdown ((x.map fin).weather) (scheduleAndOccupancy (x.map fin).pop) = some (b.map fin) := by
    show solarRadiationBreakdown (x.weather.map fin) (scheduleAndOccupancy (x.pop.map fin)) = _
    rw [fin_schedule, fin_breakdown (guards h.someHour).1 (guards h.someHour).2, hb]; rfl
  obtain ⟨u, v, z, total, r1, r2, r3, r4, r5, r6, r7, r8, -⟩ :=
    C30_radiation x.weather x.pop h.week h.someHour h.notAllDay hsun (b.map fin) hbd m
  have e1 : wn = u := fin_inj.mp (q3.symm.trans r1)
  have e2 : wd = v := fin_inj.mp (q4.symm.trans r2)
  have e3 : wt = z := fin_inj.mp (q5.symm.trans r3)
  subst e1 e2 e3
  have hM : megaseconds m ≠ 0 := by
    intro h0; rw [h0] at r4; simp at r4; linarith
  have hT : total = megaseconds m * meanSun x m := by rw [r4]; unfold meanSun; ring
  have hr : meanSun x m ≠ 0 := by
    intro h0; rw [h0, mul_zero] at hT; linarith
  have hH : windowHours x.pop ≠ 0 := h.someHour.ne'
  have hN : 24 - windowHours x.pop ≠ 0 := by have := h.notAllDay; intro h0; linarith
  rw [hT] at r6 r7 r8
  refine ⟨?_, ?_, ?_⟩
  · rw [q6, fin_inj]
    unfold unoccupiedGain
    split_ifs with h0
    · exact q13 (by rw [q9, h0]; ring)
    · have hL : Ln ≠ 0 := by
        rw [q9]
        exact mul_ne_zero hM (div_ne_zero (mul_ne_zero h0 hN) (by norm_num))
      rw [← hPA]
      exact gain_of hM hr hL q9 eE r6 (q12 hL)
  · rw [q7, fin_inj]
    unfold unoccupiedGain
    split_ifs with h0
    · exact q15 (by rw [q10, h0]; ring)
    · have hL : Ld ≠ 0 := by
        rw [q10]
        exact mul_ne_zero hM (div_ne_zero (mul_ne_zero h0 hH) (by norm_num))
      rw [← hPA]
      exact gain_of hM hr hL q10 eE (by rw [r7]; ring) (q14 hL)
  · rw [q8, fin_inj]
    unfold unoccupiedGain
    rw [if_neg (by have := h.week.days_le; intro h0; linarith), ← hPA]
    exact gain_of hM hr q16.ne' q11 eE r8 q17

/-- the indoor temperatures of the simulation -/
theorem indoor_temperatures {x : Sim ℝ} (h : TempData x) (hl : LightingData x) (hsun : ∀ m j, 0 ≤ x.weather.mhEgh m j) {s : Stages Dbl}
    (hs : stages (x.map fin) = some s) (m : Fin 12) : s.v_Th_avg m = fin (heatedTo x m) ∧ s.v_Tc_avg m = fin (cooledTo x m) := by
  obtain ⟨g1, g2, g3⟩ := unoccupied_gains h hl hsun hs m
  obtain ⟨night, day, Pwn, Pd, Pn, d, n, e, t, ⟨m1, m2, m3, m4, m5, m6, m7, m8, m9, m10⟩, hT, hT'⟩ := month_temps h hs m
  have e3 := fin_inj.mp (m3.symm.trans g1)
  have e4 := fin_inj.mp (m4.symm.trans g2)
  have e5 := fin_inj.mp (m5.symm.trans g3)
  have e6 : d = occupiedShare x := fin_inj.mp (m6.symm.trans (occupied_part h hs))
  obtain ⟨b, a, t', hb, ha, ht, rfl⟩ := stages_parts h hs
  obtain ⟨eo, eb, -⟩ := fin_stages h b a t'
  obtain ⟨d', n', e', -, hn, -, -, h2, -⟩ := C29_fractions x.pop h.week
  have e7 : n = nightShare x := by
    rw [fin_schedule] at hn
    rw [eo] at m7
    have : n = n' := fin_inj.mp (m7.symm.trans hn)
    rw [this]; unfold nightShare; linarith
  have e8 : e = 1 - occupiedShare x - nightShare x := by
    rw [← e6, ← e7]; linarith [m9.2.2.2]
  have hbd : solarRadiationBreakdown ((x.map fin).weather) (scheduleAndOccupancy (x.map fin).pop) = some (b.map fin) := by
    show solarRadiationBreakdown (x.weather.map fin) (scheduleAndOccupancy (x.pop.map fin)) = _
    rw [fin_schedule, fin_breakdown (guards h.someHour).1 (guards h.someHour).2, hb]; rfl
  obtain ⟨t1, t2, -⟩ := C30_temperature x.weather x.pop h.someHour (b.map fin) hbd m
  have e1 := fin_inj.mp (m1.symm.trans t2)
  have e2 := fin_inj.mp (m2.symm.trans t1)
  subst e1 e2 e3 e4 e5
  rw [e6, e7, e8, m10] at hT hT'
  exact ⟨hT, hT'⟩

/-- gain and losses of a month -/
theorem figures_of {x : Sim ℝ} (h : TempData x) (hv : VentilationData x) (hl : LightingData x) (hsun : ∀ m j, 0 ≤ x.weather.mhEgh m j)
    {s : Stages Dbl} (hs : stages (x.map fin) = some s) (m : Fin 12) :
    MonthFigures x s m (monthGain x m) (monthLoss x (heatedTo x m) m) (monthLoss x (cooledTo x m) m) := by
  obtain ⟨e3, e4⟩ := indoor_temperatures h hl hsun hs m
  obtain ⟨d, Th, Tc, H, H', f0, f1, f2, f3, f4, f5, f6, -⟩ := C35_flows x h hv s hs m
  have hd : d = occupiedShare x := fin_inj.mp (f0.symm.trans (occupied_part h hs))
  have hTh : Th = heatedTo x m := fin_inj.mp (f1.symm.trans e3)
  have hTc : Tc = cooledTo x m := fin_inj.mp (f2.symm.trans e4)
  subst hd hTh hTc
  obtain ⟨Φ, lights, d, g1, g2, g3, g4⟩ := C47_gains x h s hs
  obtain ⟨b, a, t, hb, ha, ht, rfl⟩ := stages_parts h hs
  obtain ⟨-, -, el, -, es, -⟩ := fin_stages h b a t
  obtain ⟨occ, unocc, l1, l2, l3, l4, l5, l6, -⟩ := C31_year x hl b.v_hrs_sun_down_mo
  have hlights : lights = lightsYear x := by
    have : lights = occ + unocc := fin_inj.mp (g2.symm.trans l3)
    rw [this]; unfold lightsYear; linarith
  have hE : (stagesWith (x.map fin) (b.map fin) (a.map fin) (fin t)).v_E_sol m
      = fin (megaseconds m * (windowHeat x.bldg x.weather m + opaqueHeat x.bldg x.weather m - skyLoss x.bldg)) :=
    C33_gain x.bldg x.weather (a.map fin) (by rw [fin_windowSolarGain, ha]; rfl) m
  refine ⟨⟨Φ, _, _, _, H, H', g1, hE, e3, e4, f3, f4, ?_, ?_, ?_⟩⟩
  · rw [g4, g3, hlights]; unfold monthGain insideHeat occupiedShare; ring
  · unfold monthLoss; rw [← f5]; ring
  · unfold monthLoss; rw [← f6]; ring

/-- the need for heat as the program computes it -/
theorem heatDemand_eq {a gain loss : ℝ} (ha : 0 < a) (hg : 0 < gain) (hl : 0 < loss ∨ loss < -dblMin)
    (hd : loss < -dblMin → gain / (loss + dblMin) + dblMin ≠ 0) (hne : gain ≠ loss + dblMin) :
    heatingNeed (fin a) (fin gain) (fin loss) = fin (heatDemand a gain loss) := by
  have hp := dblMin_pos
  rcases hl with hl | hl
  · have hL : 0 < loss + dblMin := by linarith
    have hγ : 0 < gain / (loss + dblMin) := div_pos hg hL
    have h1 : gain / (loss + dblMin) ≠ 1 := by rw [Ne, div_eq_one_iff_eq hL.ne']; exact hne
    unfold heatingNeed heatDemand
    rw [if_pos hl, fin_dblMin, fin_add, fin_vdiv, vdiv_ne _ hL.ne', (fin_eta ha hγ h1).1, fin_mul, fin_sub]
  · have hL : loss + dblMin < 0 := by linarith
    have hγ : gain / (loss + dblMin) < 0 := div_neg_of_pos_of_neg hg hL
    unfold heatingNeed heatDemand etaHeating
    rw [if_neg (by linarith), fin_dblMin, fin_add, fin_vdiv, vdiv_ne _ hL.ne, fin_lit, fin_clt]
    have hc : clt (0.0 : ℝ) (gain / (loss + dblMin)) = false := by
      rw [clt_real_false, zero_lit_real]; exact hγ.le
    have e1 : ((1.0 : Dbl)) = fin 1 := by rw [fin_lit]; norm_num
    simp only [OfScientific.ofScientific] at hc e1 ⊢
    rw [hc, cond_false, e1, fin_add, fin_div _ (hd hl), fin_mul, fin_sub]

/-- the need for cold as the program computes it -/
theorem coolDemand_eq {a gain loss : ℝ} (ha : 0 < a) (hg : 0 < gain) (hne : loss ≠ gain + dblMin) :
    coolingNeed (fin a) (fin gain) (fin loss) = fin (coolDemand a gain loss) := by
  have hp := dblMin_pos
  unfold coolDemand
  by_cases hl : 0 < loss
  · have hG : 0 < gain + dblMin := by linarith
    have hγ : 0 < loss / (gain + dblMin) := div_pos hl hG
    have h1 : loss / (gain + dblMin) ≠ 1 := by rw [Ne, div_eq_one_iff_eq hG.ne']; exact hne
    unfold coolingNeed
    rw [if_pos hl, fin_dblMin, fin_add, fin_vdiv, vdiv_ne _ hG.ne', (fin_eta ha hγ h1).2, fin_mul, fin_sub]
  · rw [if_neg hl]; exact C36_warm a gain loss hg (not_lt.mp hl)

/-- the needs of the simulation -/
theorem month_needs {x : Sim ℝ} (h : TempData x) (hv : VentilationData x) (hl : LightingData x) (hsun : ∀ m j, 0 ≤ x.weather.mhEgh m j)
    (h0 : x.heating.tau_H0 ≠ 0) (ha : 0 < inertia x) (hu : Unambiguous x)
    {s : Stages Dbl} (hs : stages (x.map fin) = some s) (m : Fin 12) :
    s.needs.v_Qneed_ht m = fin (monthHeat x m) ∧ s.needs.v_Qneed_cl m = fin (monthCold x m) := by
  obtain ⟨e1, e2⟩ := (month_figures x h hv h0 s hs m).2 _ _ _ (figures_of h hv hl hsun hs m)
  exact ⟨e1.trans (heatDemand_eq ha (hu.gain m) (hu.loss m) (hu.denominator m) (hu.heating m)),
    e2.trans (coolDemand_eq ha (hu.gain m) (hu.cooling m))⟩

/-- the needs of the simulation, with their totals -/
theorem needs_of {x : Sim ℝ} (ho : Ordinary x) {s : Stages Dbl} (hs : stages (x.map fin) = some s) :
    ∃ n : Needs ℝ, hvac (x.map fin) s.needs = hvac (x.map fin) (n.map fin) ∧ pump (x.map fin) s.needs = pump (x.map fin) (n.map fin) ∧
      n.v_Qneed_ht = monthHeat x ∧ n.v_Qneed_cl = monthCold x ∧ n.Qneed_ht_yr = ∑ k, monthHeat x k ∧
      n.Qneed_cl_yr = ∑ k, monthCold x k := by
  obtain ⟨h, hv, hl, hsys, hc, h0, ha, hu⟩ := ho
  have hN := month_needs h hv hl hc h0 ha hu hs
  refine ⟨{ v_Qfan_tot := fun _ => 0, v_Qneed_ht := monthHeat x, v_Qneed_cl := monthCold x,
              Qneed_ht_yr := vsum (monthHeat x), Qneed_cl_yr := vsum (monthCold x) }, ?_⟩
  have q : ∀ y : Sim Dbl, ∀ n n' : Needs Dbl, n.v_Qneed_ht = n'.v_Qneed_ht → n.v_Qneed_cl = n'.v_Qneed_cl →
      n.Qneed_ht_yr = n'.Qneed_ht_yr → n.Qneed_cl_yr = n'.Qneed_cl_yr → hvac y n = hvac y n' ∧ pump y n = pump y n' := by
    rintro y ⟨_, _, _, _, _⟩ ⟨_, _, _, _, _⟩ rfl rfl rfl rfl; exact ⟨rfl, rfl⟩
  rw [← and_assoc]
  refine ⟨?_, rfl, rfl, vsum_real _, vsum_real _⟩
  obtain ⟨b, a, t, -, -, -, rfl⟩ := stages_parts h hs
  have k1 : (stagesWith (x.map fin) (b.map fin) (a.map fin) (fin t)).needs.v_Qneed_ht = fun m => fin (monthHeat x m) :=
    funext fun m => (hN m).1
  have k2 : (stagesWith (x.map fin) (b.map fin) (a.map fin) (fin t)).needs.v_Qneed_cl = fun m => fin (monthCold x m) :=
    funext fun m => (hN m).2
  refine q _ _ _ k1 k2 ?_ ?_
  · refine Eq.trans (?_ : _ = vsum (stagesWith (x.map fin) (b.map fin) (a.map fin) (fin t)).needs.v_Qneed_ht) ?_
    · rfl
    · rw [k1, fin_vsum]; rfl
  · refine Eq.trans (?_ : _ = vsum (stagesWith (x.map fin) (b.map fin) (a.map fin) (fin t)).needs.v_Qneed_cl) ?_
    · rfl
    · rw [k2, fin_vsum]; rfl

/-- C68: the electricity and gas for heating and for cooling of each month are these
formulas of the parameters and the averages of the weather. -/
theorem C68_energy (x : Sim ℝ) (ho : Ordinary x) (r : List (Hourly.EndUses Dbl)) (hr : simulate (x.map fin) = some r) :
    ∃ hl : r.length = 12, ∀ m : Fin 12,
      r[m.val] 0 = fin (perArea x (heatElectricity x m)) ∧ r[m.val] 9 = fin (perArea x (heatGas x m)) ∧
      r[m.val] 1 = fin (perArea x (coldElectricity x m)) ∧ r[m.val] 10 = fin (perArea x (coldGas x m)) := by
  obtain ⟨h, hv, hl, hsys, hc, h0, ha, hu⟩ := ho
  have hA := h.floorArea
  have hkn : singleMJ ≠ 0 := by unfold singleMJ; norm_num
  obtain ⟨s, hs, hlen, hL⟩ := C41_layout (x.map fin) x.bldg.floorArea rfl hA r hr
  refine ⟨hlen, fun m => ?_⟩
  obtain ⟨n, en, -, e1, e2, e3, e4⟩ := needs_of ⟨h, hv, hl, hsys, hc, h0, ha, hu⟩ hs
  have hT : n.Qneed_ht_yr + n.Qneed_cl_yr ≠ 0 := by rw [e3, e4]; exact hu.some
  have eh : n.v_Qneed_ht m + n.v_Qneed_ht m * heatLossRate x n.Qneed_ht_yr n.Qneed_cl_yr = heatDelivered x m := by
    rw [e1, e3, e4]; unfold heatDelivered; ring
  have ec : n.v_Qneed_cl m + n.v_Qneed_cl m * coolLossRate x n.Qneed_ht_yr n.Qneed_cl_yr = coldDelivered x m := by
    rw [e2, e3, e4]; unfold coldDelivered; ring
  obtain ⟨a1, a2, a3⟩ := C38_heating x hsys n hT m _ eh.symm
  obtain ⟨b1, b2⟩ := C38_cooling x hsys n hT m _ ec.symm
  have per : ∀ q : ℝ, (fin q / fin x.bldg.floorArea / fin singleMJ : Dbl) = fin (perArea x q) := by
    intro q; rw [fin_div _ hA, fin_div _ hkn]; rfl
  have hm := hL m
  rw [en] at hm
  refine ⟨?_, ?_, ?_, ?_⟩
  · rw [hm.1, ← per]
    unfold heatElectricity
    by_cases hD : x.heating.DH_YesNo = 1
    · rw [if_neg (by tauto), (a3 hD).1]
    · by_cases hE : x.heating.energyType = 1
      · rw [if_pos ⟨hD, hE⟩, (a1 hD hE).1]
      · rw [if_neg (by tauto), (a2 hD hE).1]
  · rw [hm.2.2.2.2.2.2.2.2.1, ← per]
    unfold heatGas
    by_cases hD : x.heating.DH_YesNo = 1
    · rw [if_pos hD, (a3 hD).2]
    · by_cases hE : x.heating.energyType = 1
      · rw [if_neg hD, if_pos hE, (a1 hD hE).2]
      · rw [if_neg hD, if_neg hE, (a2 hD hE).2]
  · rw [hm.2.1, ← per]
    unfold coldElectricity
    by_cases hD : x.cooling.DC_YesNo = 1
    · rw [if_pos hD, (b2 hD).1]
    · rw [if_neg hD, (b1 hD).1]
  · rw [hm.2.2.2.2.2.2.2.2.2.1, ← per]
    unfold coldGas
    by_cases hD : x.cooling.DC_YesNo = 1
    · rw [if_pos hD, (b2 hD).2]
    · rw [if_neg hD, (b1 hD).2]

theorem dblMin_add {a b : ℝ} (ha : 0 ≤ a) (hb : 0 < b) : a * b + dblMin ≠ 0 := by
  have := dblMin_pos
  have := mul_nonneg ha hb.le
  intro h; linarith

/-- hot water of a month -/
theorem water_eq {x : Sim ℝ} (he : Equipped x) (m : Fin 12) : hotWaterNeed x m = waterMonth x m := by
  have hd := he.distribution
  have hs := he.system
  have hk : (0:ℝ) < singleMJ := by unfold singleMJ; norm_num
  have hQ : 0 ≤ x.heating.hotWaterDemand * (x.heating.dhw_tset - x.heating.dhw_tsupply) * x.phys.rhoCpWater :=
    mul_nonneg (mul_nonneg he.demand (sub_nonneg.mpr he.warmer)) he.water
  have dm : (daysInMonth m : ℝ) = days m := by fin_cases m <;> norm_num [daysInMonth, days, monthDays]
  have h365 : (365 : ℝ) ≠ 0 := by norm_num
  have e365 : (365.0 : ℝ) = 365 := by norm_num
  have z : (0.0 : ℝ) = 0 := by norm_num
  simp only [hotWaterNeed, kWh2MJ_eq, e365, vdiv_ne _ h365, vdiv_ne _ hk.ne', vdiv_ne _ hd.ne', vdiv_ne _ hs.ne', z, sub_zero]
  simp only [realnum]
  rw [max_eq_left, dm]
  · unfold waterMonth
    field_simp
  · rw [dm]
    exact div_nonneg (div_nonneg (div_nonneg (div_nonneg (mul_nonneg (Nat.cast_nonneg _) hQ) (by norm_num)) hd.le) hk.le) hs.le

/-- C68: the other end uses.  Interior lights get the share of the month in the days of the year (up to one part in 10^15, by the
rounded table of the program); exterior lights burn outside the span from the first to the last hour with radiation. -/
theorem C68_others (x : Sim ℝ) (ho : Ordinary x) (he : Equipped x) (r : List (Hourly.EndUses Dbl)) (hr : simulate (x.map fin) = some r) :
    ∃ hl : r.length = 12, ∀ m : Fin 12,
      (∃ lights, r[m.val] 2 = fin lights ∧
        |lights - lightsYear x / x.bldg.floorArea * (days m / 365)| ≤ |lightsYear x / x.bldg.floorArea| / 10 ^ 15) ∧
      (∃ j k : Fin 24, Daylight (x.weather.mhEgh m) j k ∧
        r[m.val] 3 = fin (days m * (24 - ((k.val : ℝ) - j.val + 1)) * x.lights.exteriorEnergy / 1000 / x.bldg.floorArea)) ∧
      r[m.val] 4 = fin (fansMonth x m) ∧
      r[m.val] 5 = fin (perArea x (pumpsMonth x m)) ∧
      r[m.val] 6 = fin (appliancesMonth x m x.building.electricApplianceHeatGainOccupied x.building.electricApplianceHeatGainUnoccupied) ∧
      r[m.val] 7 = fin 0 ∧
      r[m.val] 8 = fin (open Classical in if x.heating.hotWaterEnergyType = 1 then waterMonth x m / x.bldg.floorArea else 0) ∧
      r[m.val] 11 = fin (appliancesMonth x m x.building.gasApplianceHeatGainOccupied x.building.gasApplianceHeatGainUnoccupied) ∧
      r[m.val] 12 = fin (open Classical in if x.heating.hotWaterEnergyType = 1 then 0 else waterMonth x m / x.bldg.floorArea) := by
  have h := ho.temperatures
  have hA := h.floorArea
  have hkn : singleMJ ≠ 0 := by unfold singleMJ; norm_num
  have hT : heatTo x ≤ x.heating.temperatureSetPointOccupied := by
    have : 0 ≤ levelShift x.building.buildingEnergyManagement := by
      unfold levelShift; split_ifs <;> norm_num
    unfold heatTo; linarith
  obtain ⟨s, hs, hlen, hL⟩ := C41_layout (x.map fin) x.bldg.floorArea rfl hA r hr
  refine ⟨hlen, fun m => ?_⟩
  obtain ⟨n, -, ep, e1, e2, e3, e4⟩ := needs_of ho hs
  obtain ⟨t1, t2⟩ := indoor_temperatures h ho.lights ho.sun hs m
  obtain ⟨q1, q2⟩ := month_needs h ho.flows ho.lights ho.sun ho.reference ho.inertia ho.months hs m
  have hTh : heatedTo x m ≤ heatTo x := by
    unfold heatedTo; split_ifs
    · exact min_le_right _ _
    · exact le_rfl
  have hfan := C48_fans x h s hs m _ _ _ _ _ q1 q2 t1 t2 rfl
    (dblMin_add (by linarith [he.supplyHeating]) ho.flows.air) (dblMin_add (by linarith [he.supplyCooling m]) ho.flows.air)
  obtain ⟨e, p1, p2, -⟩ := C39_shared x n (by rw [e3, e1]) (by rw [e4, e2]) _ _ rfl rfl he.pumpsHeating he.pumpsCooling
    (by rw [e3, e4]; exact ho.months.some)
  obtain ⟨hl', a1, a2⟩ := C41_equipment x h.week r hr m
  obtain ⟨l0, l1, l2, l3, l4, l5, l6, l7, l8, l9, l10⟩ := hL m
  have cw : ceq (x.map fin).heating.hotWaterEnergyType (1.0 : Dbl) = decide (x.heating.hotWaterEnergyType = 1) := ceq_one _
  have e0 : (0.0 : Dbl) = fin 0 := by rw [fin_lit]; norm_num
  obtain ⟨b, a, t, hb, ha, ht, rfl⟩ := stages_parts h hs
  have hbd : solarRadiationBreakdown ((x.map fin).weather) (scheduleAndOccupancy (x.map fin).pop) = some (b.map fin) := by
    show solarRadiationBreakdown (x.weather.map fin) (scheduleAndOccupancy (x.pop.map fin)) = _
    rw [fin_schedule, fin_breakdown (guards h.someHour).1 (guards h.someHour).2, hb]; rfl
  obtain ⟨year, month, y1, y2, y3, -, y4⟩ := C31_months x b.v_hrs_sun_down_mo
  obtain ⟨occ, unocc, -, -, g3, -, g5, g6, -⟩ := C31_year x ho.lights b.v_hrs_sun_down_mo
  obtain ⟨j, k, hjk, dark, d1, d2, -⟩ := C30_sun x.weather x.pop h.someHour (b.map fin) hbd m
  refine ⟨?_, ⟨j, k, hjk, ?_⟩, ?_, ?_, ?_, l6, ?_, ?_, ?_⟩
  · have : year = lightsYear x := by
      have : year = occ + unocc := fin_inj.mp (y1.symm.trans g3)
      rw [this]; unfold lightsYear; linarith
    have e : (stagesWith (x.map fin) (b.map fin) (a.map fin) (fin t)).l.v_Q_illum_tot m = fin (month m) := y2 m
    refine ⟨month m / x.bldg.floorArea, by rw [l2, e, fin_div _ hA], ?_⟩
    have := y3 m
    rw [‹year = _›] at this
    have hA' : 0 < |x.bldg.floorArea| := abs_pos.mpr hA
    have k1 : month m / x.bldg.floorArea - lightsYear x / x.bldg.floorArea * (days m / 365)
        = (month m - lightsYear x * (days m / 365)) / x.bldg.floorArea := by ring
    have k2 : |lightsYear x / x.bldg.floorArea| / 10 ^ 15 = |lightsYear x| / 10 ^ 15 / |x.bldg.floorArea| := by
      rw [abs_div]; ring
    rw [k1, k2, abs_div]
    exact div_le_div_of_nonneg_right this hA'.le
  · have e : (stagesWith (x.map fin) (b.map fin) (a.map fin) (fin t)).l.v_Q_illum_ext_tot m
        = fin (b.v_hrs_sun_down_mo m * x.lights.exteriorEnergy / 1000) := y4 m
    have hdark : b.v_hrs_sun_down_mo m = dark := fin_inj.mp d1
    rw [l3, e, hdark, d2, fin_div _ hA]
  · rw [l4, hfan]; rfl
  · rw [l5, ep, p1, p2, fin_div _ hA, fin_div _ hkn, e1, e2, e3, e4]; rfl
  · exact a1
  · rw [l7]
    by_cases hw : x.heating.hotWaterEnergyType = 1
    · simp only [heatedWater, cw, decide_eq_true hw, cond_true, fin_hotWater, if_pos hw]
      rw [water_eq he, fin_div _ hA]
    · simp only [heatedWater, cw, decide_eq_false hw, cond_false, if_neg hw, e0]
      rw [fin_div _ hA, zero_div]
  · exact a2
  · rw [l10]
    by_cases hw : x.heating.hotWaterEnergyType = 1
    · simp only [heatedWater, cw, decide_eq_true hw, cond_true, if_pos hw, e0]
      rw [fin_div _ hA, zero_div]
    · simp only [heatedWater, cw, decide_eq_false hw, cond_false, fin_hotWater, if_neg hw]
      rw [water_eq he, fin_div _ hA]

end ISO.Props
