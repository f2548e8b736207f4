import Verif.Model.Monthly
import Verif.Num.Sum

/-! Helper lemmas for the monthly model: on finite input every stage computes the real formula. -/

namespace ISO.Monthly
open ISO CNum Dbl

/-- apply a function to every number of the record (no counterpart in the code) -/
def Occupancy.map {α β : Type} (f : α → β) (x : Occupancy α) : Occupancy β where
  weekdayOccupiedMegaseconds := fun i => f (x.weekdayOccupiedMegaseconds i)
  weekdayUnoccupiedMegaseconds := fun i => f (x.weekdayUnoccupiedMegaseconds i)
  weekendOccupiedMegaseconds := fun i => f (x.weekendOccupiedMegaseconds i)
  weekendUnoccupiedMegaseconds := fun i => f (x.weekendUnoccupiedMegaseconds i)
  clockHourOccupied := fun i => f (x.clockHourOccupied i)
  clockHourUnoccupied := fun i => f (x.clockHourUnoccupied i)
  frac_hrs_wk_day := f x.frac_hrs_wk_day
  hoursUnoccupiedPerDay := f x.hoursUnoccupiedPerDay
  hoursOccupiedPerDay := f x.hoursOccupiedPerDay
  frac_hrs_wk_nt := f x.frac_hrs_wk_nt
  frac_hrs_wke_tot := f x.frac_hrs_wke_tot

/-- apply a function to every number of the record (no counterpart in the code) -/
def Breakdown.map {α β : Type} (f : α → β) (x : Breakdown α) : Breakdown β where
  v_hrs_sun_down_mo := fun i => f (x.v_hrs_sun_down_mo i)
  frac_Pgh_wk_nt := fun i => f (x.frac_Pgh_wk_nt i)
  frac_Pgh_wke_day := fun i => f (x.frac_Pgh_wke_day i)
  frac_Pgh_wke_nt := fun i => f (x.frac_Pgh_wke_nt i)
  v_Tdbt_nt := fun i => f (x.v_Tdbt_nt i)
  v_Tdbt_day := fun i => f (x.v_Tdbt_day i)

/-- apply a function to every number of the record (no counterpart in the code) -/
def LightingUse.map {α β : Type} (f : α → β) (x : LightingUse α) : LightingUse β where
  Q_illum_occ := f x.Q_illum_occ
  Q_illum_unocc := f x.Q_illum_unocc
  Q_illum_tot_yr := f x.Q_illum_tot_yr
  v_Q_illum_tot := fun i => f (x.v_Q_illum_tot i)
  v_Q_illum_ext_tot := fun i => f (x.v_Q_illum_ext_tot i)

/-- apply a function to every number of the record (no counterpart in the code) -/
def SolarAreas.map {α β : Type} (f : α → β) (x : SolarAreas α) : SolarAreas β where
  v_wall_A_sol := fun i => f (x.v_wall_A_sol i)
  v_win_hr := fun i => f (x.v_win_hr i)
  v_wall_R_sc := fun i => f (x.v_wall_R_sc i)
  v_win_A_sol := fun i => f (x.v_win_A_sol i)

/-- apply a function to every number of the record (no counterpart in the code) -/
def InternalGains.map {α β : Type} (f : α → β) (x : InternalGains α) : InternalGains β where
  phi_int_avg := f x.phi_int_avg
  phi_plug_avg := f x.phi_plug_avg
  phi_illum_avg := f x.phi_illum_avg
  phi_int_wke_nt := f x.phi_int_wke_nt
  phi_int_wke_day := f x.phi_int_wke_day
  phi_int_wk_nt := f x.phi_int_wk_nt

/-- apply a function to every number of the record (no counterpart in the code) -/
def UnoccupiedGains.map {α β : Type} (f : α → β) (x : UnoccupiedGains α) : UnoccupiedGains β where
  v_P_tot_wke_day := fun i => f (x.v_P_tot_wke_day i)
  v_P_tot_wk_nt := fun i => f (x.v_P_tot_wk_nt i)
  v_P_tot_wke_nt := fun i => f (x.v_P_tot_wke_nt i)

/-- apply a function to every number of the record (no counterpart in the code) -/
def Periods.map {α β : Type} (f : α → β) (x : Periods α) : Periods β where
  Te := fun i => f (x.Te i)
  dT := fun i => f (x.dT i)
  ti := fun i => f (x.ti i)
  tau := f x.tau

/-- apply a function to every number of the record (no counterpart in the code) -/
def Needs.map {α β : Type} (f : α → β) (x : Needs α) : Needs β where
  v_Qfan_tot := fun i => f (x.v_Qfan_tot i)
  v_Qneed_ht := fun i => f (x.v_Qneed_ht i)
  v_Qneed_cl := fun i => f (x.v_Qneed_cl i)
  Qneed_ht_yr := f x.Qneed_ht_yr
  Qneed_cl_yr := f x.Qneed_cl_yr

/-- apply a function to every number of the record (no counterpart in the code) -/
def Carriers.map {α β : Type} (f : α → β) (x : Carriers α) : Carriers β where
  v_Qelec_ht := fun i => f (x.v_Qelec_ht i)
  v_Qgas_ht := fun i => f (x.v_Qgas_ht i)
  v_Qcl_elec_tot := fun i => f (x.v_Qcl_elec_tot i)
  v_Qcl_gas_tot := fun i => f (x.v_Qcl_gas_tot i)

/-- apply a function to every number of the record (no counterpart in the code) -/
def Figures.map {α β : Type} (f : α → β) (x : Figures α) : Figures β where
  v_Qelec_ht := fun i => f (x.v_Qelec_ht i)
  v_Qcl_elec_tot := fun i => f (x.v_Qcl_elec_tot i)
  v_Q_illum_tot := fun i => f (x.v_Q_illum_tot i)
  v_Q_illum_ext_tot := fun i => f (x.v_Q_illum_ext_tot i)
  v_Qfan_tot := fun i => f (x.v_Qfan_tot i)
  v_Q_pump_tot := fun i => f (x.v_Q_pump_tot i)
  v_Q_dhw_elec := fun i => f (x.v_Q_dhw_elec i)
  v_Qgas_ht := fun i => f (x.v_Qgas_ht i)
  v_Qcl_gas_tot := fun i => f (x.v_Qcl_gas_tot i)
  v_Q_dhw_gas := fun i => f (x.v_Q_dhw_gas i)
  frac_hrs_wk_day := f x.frac_hrs_wk_day

/-- apply a function to every number of the record (no counterpart in the code) -/
def Stages.map {α β : Type} (f : α → β) (x : Stages α) : Stages β where
  o := x.o.map f
  b := x.b.map f
  l := x.l.map f
  H_tr := f x.H_tr
  areas := x.areas.map f
  v_E_sol := fun i => f (x.v_E_sol i)
  g := x.g.map f
  phi_I_tot := f x.phi_I_tot
  unocc := x.unocc.map f
  T_adj := f x.T_adj
  v_Th_avg := fun i => f (x.v_Th_avg i)
  v_Tc_avg := fun i => f (x.v_Tc_avg i)
  v_Hve_ht := fun i => f (x.v_Hve_ht i)
  v_Hve_cl := fun i => f (x.v_Hve_cl i)
  needs := x.needs.map f

/-! ### vector functions -/

@[dblfin] theorem fin_vdiv (a b : ℝ) : vdiv (fin a) (fin b) = fin (vdiv a b) := by
  unfold vdiv
  rw [fin_lit, fin_ceq]
  cases h : ceq b (OfScientific.ofScientific 0 true 1) with
  | true => rfl
  | false =>
    have hb : b ≠ 0 := by
      intro h0
      rw [show (OfScientific.ofScientific 0 true 1 : ℝ) = 0 from zero_lit_real, h0] at h
      have := (ceq_real (0:ℝ) 0).mpr rfl
      rw [this] at h; cases h
    simp only [cond_false, fin_div _ hb]

@[realnum] theorem vdiv_real (a b : ℝ) : vdiv a b = if b = 0 then dblMax else a / b := by
  unfold vdiv
  rw [cond_ceq, show (OfScientific.ofScientific 0 true 1 : ℝ) = 0 from zero_lit_real]

theorem vdiv_ne (a : ℝ) {b : ℝ} (h : b ≠ 0) : vdiv a b = a / b := by rw [vdiv_real, if_neg h]
theorem vdiv_zero (a : ℝ) : vdiv a 0 = dblMax := by rw [vdiv_real, if_pos rfl]

theorem vdiv_nonneg {a b : ℝ} (ha : 0 ≤ a) (hb : 0 ≤ b) : 0 ≤ vdiv a b := by
  rw [vdiv_real]; split_ifs
  · exact dblMax_pos.le
  · exact div_nonneg ha hb

@[dblfin] theorem fin_vsum {n : Nat} (v : Fin n → ℝ) : vsum (fun i => fin (v i)) = fin (vsum v) := by
  unfold vsum
  rw [← fin_csum, List.map_ofFn]; rfl

@[realnum] theorem vsum_real {n : Nat} (v : Fin n → ℝ) : vsum v = ∑ i, v i := by
  unfold vsum; rw [csum_real, List.sum_ofFn]

theorem vsum_nonneg {n : Nat} {v : Fin n → ℝ} (h : ∀ i, 0 ≤ v i) : 0 ≤ vsum v := by
  rw [vsum_real]; exact Finset.sum_nonneg fun i _ => h i

/-! ### tables -/

@[dblfin] theorem fin_days (m : Fin 12) : (daysInMonth m : Dbl) = fin (daysInMonth m) := by fin_cases m <;> rfl
@[dblfin] theorem fin_hours (m : Fin 12) : (hoursInMonth m : Dbl) = fin (hoursInMonth m) := by fin_cases m <;> rfl
@[dblfin] theorem fin_mega (m : Fin 12) : (megasecondsInMonth m : Dbl) = fin (megasecondsInMonth m) := by fin_cases m <;> rfl
@[dblfin] theorem fin_frac (m : Fin 12) : (monthFractionOfYear m : Dbl) = fin (monthFractionOfYear m) := by fin_cases m <;> rfl
@[dblfin] theorem fin_form (m : Fin 9) : (formFactors m : Dbl) = fin (formFactors m) := by fin_cases m <;> rfl
@[dblfin] theorem fin_kWh2MJ : (kWh2MJ : Dbl) = fin kWh2MJ := by
  unfold kWh2MJ
  rw [fin_lit, fin_lit, fin_div]
  norm_num
theorem kWh2MJ_pos : (0:ℝ) < kWh2MJ := by unfold kWh2MJ; norm_num

theorem days_pos (m : Fin 12) : (0:ℝ) < daysInMonth m := by fin_cases m <;> norm_num [daysInMonth]
theorem hours_pos (m : Fin 12) : (0:ℝ) < hoursInMonth m := by fin_cases m <;> norm_num [hoursInMonth]
theorem mega_pos (m : Fin 12) : (0:ℝ) < megasecondsInMonth m := by fin_cases m <;> norm_num [megasecondsInMonth]
theorem frac_pos (m : Fin 12) : (0:ℝ) < monthFractionOfYear m := by fin_cases m <;> norm_num [monthFractionOfYear]

end ISO.Monthly
