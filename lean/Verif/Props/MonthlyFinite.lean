import Verif.Props.MonthlyTotals

/-! # C49: when the results of the monthly model are numbers -/

namespace ISO.Props
open ISO ISO.Monthly ISO.Spec Dbl CNum

theorem dblMin_tiny : (dblMin : ℝ) < 1 / 10 ^ 30 := by
  have e : (dblMin : ℝ) = 22250738585072014 / 10 ^ 324 := by
    show (OfScientific.ofScientific 22250738585072014 true 324 : ℝ) = _
    rw [NNRatCast.ofScientific_eq_ite, if_pos rfl, NNRat.divNat_eq_div]
    push_cast; rfl
  rw [e, div_lt_iff₀ (by positivity)]
  have : (10:ℝ) ^ 324 = 10 ^ 100 * 10 ^ 224 := by rw [← pow_add]
  have h1 : (1:ℝ) ≤ 10 ^ 224 := one_le_pow₀ (by norm_num)
  have h2 : (22250738585072014 : ℝ) < 1 / 10 ^ 30 * 10 ^ 100 := by norm_num
  rw [this]; nlinarith

theorem dblMax_huge : (10 ^ 15 : ℝ) < dblMax := by
  have e : (dblMax : ℝ) = 17976931348623157 * 10 ^ 292 := by
    show (OfScientific.ofScientific 17976931348623157 false 292 : ℝ) = _
    rw [NNRatCast.ofScientific_eq_ite, if_neg (by decide)]
    push_cast; rfl
  have h1 : (1:ℝ) ≤ 10 ^ 292 := one_le_pow₀ (by norm_num)
  rw [e]
  calc (10 ^ 15 : ℝ) < 17976931348623157 := by norm_num
    _ ≤ _ := le_mul_of_one_le_right (by norm_num) h1

/-- the heating need is a number unless gain and loss are equal, and not below minus a hundredth of a megajoule -/
theorem heating_number {a gain loss : ℝ} (ha : 0 < a) (hg : 1 ≤ gain) (hg' : gain ≤ 10 ^ 9) (hl : -10 ^ 9 ≤ loss)
    (hne : gain ≠ loss + dblMin) :
    ∃ q, heatingNeed (fin a) (fin gain) (fin loss) = fin q ∧ -(1 / 100) < q ∧ (0 < loss → loss - gain < q) := by
  have hp := dblMin_pos
  have ht := dblMin_tiny
  norm_num at hl hg' ht
  rcases lt_trichotomy (loss + dblMin) 0 with h | h | h
  · obtain ⟨q, e, hq⟩ := C36_warmHeating a gain loss hg (by linarith) (by linarith)
    refine ⟨q, e, ?_, fun h' => by linarith⟩
    have hb : (dblMin : ℝ) * (2 * loss ^ 2 + 1) < 1 / 100 := by
      have h2 : 2 * loss ^ 2 + 1 ≤ 3 * 10 ^ 18 := by nlinarith
      calc (dblMin : ℝ) * (2 * loss ^ 2 + 1) ≤ dblMin * (3 * 10 ^ 18) := mul_le_mul_of_nonneg_left h2 hp.le
        _ < 1 / 100 := by norm_num; linarith
    have := (abs_le.mp hq).1
    linarith
  · have hM := dblMax_huge
    norm_num at hM
    have h1 : (dblMax : ℝ) ≠ 1 := by intro h; linarith
    obtain ⟨u1, u2, u3⟩ := util_bounds ha dblMax_pos h1
    have e : heatingNeed (fin a) (fin gain) (fin loss) = fin (loss - utilisation a dblMax * gain) := by
      unfold heatingNeed
      rw [fin_dblMin, fin_add, fin_vdiv, h, vdiv_zero, (fin_eta ha dblMax_pos h1).1, fin_mul, fin_sub]
    refine ⟨_, e, ?_, fun h' => by linarith⟩
    generalize utilisation a dblMax = u at *
    generalize (dblMax : ℝ) = M at *
    have hu : u * gain ≤ 1 / 1000 := by
      have k1 : 1000000000000000 * u ≤ 1 := by nlinarith
      nlinarith
    linarith
  · refine ⟨_, fin_heatingNeed ha (by linarith) h hne, ?_⟩
    obtain ⟨h1, h2, h3⟩ := need_bounds ha (by linarith) h hne
    exact ⟨by linarith, fun _ => by linarith⟩

/-- the cooling need is a number unless loss and gain are equal, and not below minus a hundredth of a megajoule -/
theorem cooling_number {a gain loss : ℝ} (ha : 0 < a) (hg : 1 ≤ gain) (hne : loss ≠ gain + dblMin) :
    ∃ q, coolingNeed (fin a) (fin gain) (fin loss) = fin q ∧ -(1 / 100) < q ∧ gain - loss ≤ q := by
  have hp := dblMin_pos
  have ht := dblMin_tiny
  norm_num at ht
  rcases le_or_gt loss 0 with h | h
  · exact ⟨_, C36_warm a gain loss (by linarith) h, by linarith, le_rfl⟩
  · obtain ⟨q, e, h1, h2, -⟩ := C36_cooling a gain loss ha (by linarith) h hne
    exact ⟨q, e, by linarith, h2.le⟩

/-- gain and losses of a month, in megajoules, with the internal gains, solar gains, temperatures and air flows of the simulation -/
structure MonthFigures (x : Sim ℝ) (s : Stages Dbl) (m : Fin 12) (gain lossHeating lossCooling : ℝ) : Prop where
  figures : ∃ Φ E Th Tc H H' : ℝ, s.phi_I_tot = fin Φ ∧ s.v_E_sol m = fin E ∧ s.v_Th_avg m = fin Th ∧ s.v_Tc_avg m = fin Tc ∧
      s.v_Hve_ht m = fin H ∧ s.v_Hve_cl m = fin H' ∧
      gain = megaseconds m * Φ + E ∧
      lossHeating = megaseconds m * (Th - x.weather.mdbt m)
        * (∑ i, (x.bldg.wallArea i * x.bldg.wallUniform i + x.bldg.windowArea i * x.bldg.windowUniform i)
          + H * x.bldg.floorArea) ∧
      lossCooling = megaseconds m * (Tc - x.weather.mdbt m)
        * (∑ i, (x.bldg.wallArea i * x.bldg.wallUniform i + x.bldg.windowArea i * x.bldg.windowUniform i)
          + H' * x.bldg.floorArea)

/-- every month has such figures, and they determine the needs -/
theorem month_figures (x : Sim ℝ) (h : TempData x) (hv : VentilationData x) (h0 : x.heating.tau_H0 ≠ 0)
    (s : Stages Dbl) (hs : stages (x.map fin) = some s) (m : Fin 12) :
    (∃ gain lh lc, MonthFigures x s m gain lh lc) ∧ ∀ gain lh lc, MonthFigures x s m gain lh lc →
      s.needs.v_Qneed_ht m = heatingNeed (fin (x.heating.a_H0 + buildingTau x / x.heating.tau_H0)) (fin gain) (fin lh) ∧
      s.needs.v_Qneed_cl m = coolingNeed (fin (x.heating.a_H0 + buildingTau x / x.heating.tau_H0)) (fin gain) (fin lc) := by
  obtain ⟨Φ, E, Th, Tc, H, H', e1, e2, e3, e4, e5, e6, hN⟩ := simulation_needs x h hv h0 s hs m
  refine ⟨⟨_, _, _, ⟨Φ, E, Th, Tc, H, H', e1, e2, e3, e4, e5, e6, rfl, rfl, rfl⟩⟩, ?_⟩
  rintro gain lh lc ⟨Φ', E', Th', Tc', G, G', f1, f2, f3, f4, f5, f6, f7, f8, f9⟩
  rw [fin_inj.mp (f1.symm.trans e1), fin_inj.mp (f2.symm.trans e2)] at f7
  rw [fin_inj.mp (f3.symm.trans e3), fin_inj.mp (f5.symm.trans e5)] at f8
  rw [fin_inj.mp (f4.symm.trans e4), fin_inj.mp (f6.symm.trans e6)] at f9
  exact hN gain lh lc f7 f8 f9

/-- C49: with the data in range, all results of the monthly simulation are numbers if in no month the gain equals the loss exactly
(for heating or for cooling), gains are between one and a thousand million megajoules and losses not below minus a thousand
million, and at least one month has a clear deficit or surplus (one megajoule). -/
theorem C49_numbers (x : Sim ℝ) (h : TempData x) (hv : VentilationData x) (hsys : SystemData x) (h0 : x.heating.tau_H0 ≠ 0)
    (ha : 0 < x.heating.a_H0 + buildingTau x / x.heating.tau_H0) (s : Stages Dbl) (hs : stages (x.map fin) = some s)
    (gain lossHeating lossCooling : Fin 12 → ℝ)
    (hfig : ∀ m, MonthFigures x s m (gain m) (lossHeating m) (lossCooling m))
    (hg : ∀ m, 1 ≤ gain m ∧ gain m ≤ 10 ^ 9) (hl : ∀ m, -10 ^ 9 ≤ lossHeating m)
    (hne : ∀ m, gain m ≠ lossHeating m + dblMin ∧ lossCooling m ≠ gain m + dblMin)
    (hclear : ∃ m, gain m + 1 ≤ lossHeating m ∨ lossCooling m + 1 ≤ gain m) :
    ∃ r : Fin 12 → Fin 13 → ℝ, simulate (x.map fin) = some (List.ofFn fun m k => fin (r m k)) := by
  have hN := fun m => (month_figures x h hv h0 s hs m).2 _ _ _ (hfig m)
  have c1 := fun m => heating_number ha (hg m).1 (hg m).2 (hl m) (hne m).1
  have c2 := fun m => cooling_number ha (hg m).1 (hne m).2
  choose qh e1 b1 d1 using c1
  choose qc e2 b2 d2 using c2
  refine C49_finite x h hsys s hs qh qc (fun m => (hN m).1.trans (e1 m)) (fun m => (hN m).2.trans (e2 m)) ?_
  obtain ⟨k, hk⟩ := hclear
  have hk' : 1 ≤ qh k + qc k + 1 / 100 := by
    rcases hk with hk | hk
    · have := d1 k (by linarith [(hg k).1]); linarith [b2 k]
    · linarith [d2 k, b1 k]
  have hrest : ∑ m ∈ Finset.univ.erase k, (-(2 / 100) : ℝ) ≤ ∑ m ∈ Finset.univ.erase k, (qh m + qc m) :=
    Finset.sum_le_sum fun m _ => by linarith [b1 m, b2 m]
  have hsum := Finset.add_sum_erase Finset.univ (fun m => qh m + qc m) (Finset.mem_univ k)
  rw [Finset.sum_const, Finset.card_erase_of_mem (Finset.mem_univ k), Finset.card_univ, Fintype.card_fin] at hrest
  rw [← Finset.sum_add_distrib, ← hsum]
  norm_num at hrest
  have : 0 < qh k + qc k + ∑ m ∈ Finset.univ.erase k, (qh m + qc m) := by linarith
  exact this.ne'

theorem csum_nan {l : List Dbl} (h : nan ∈ l) : csum l = nan := by
  have k1 : ∀ l : List Dbl, l.foldl (· + ·) (nan : Dbl) = nan := by
    intro l; induction l with
    | nil => rfl
    | cons b l ih => simp only [List.foldl_cons, nan_add, ih]
  have k2 : ∀ (l : List Dbl) (a : Dbl), nan ∈ l → l.foldl (· + ·) a = nan := by
    intro l; induction l with
    | nil => intro a h; cases h
    | cons b l ih =>
      intro a h
      rcases List.mem_cons.mp h with h | h
      · rw [List.foldl_cons, ← h, add_nan, k1]
      · rw [List.foldl_cons]; exact ih _ h
  exact k2 l _ h

/-- C49, a disagreement: if in a single month the gain equals the loss exactly, for heating or for cooling, then in every month of
the year the electricity for cooling and the energy for heating (electricity or gas) are not numbers. -/
theorem C49_tie (x : Sim ℝ) (h : TempData x) (hv : VentilationData x) (hsys : SystemData x) (h0 : x.heating.tau_H0 ≠ 0)
    (s : Stages Dbl) (hs : stages (x.map fin) = some s) {k : Fin 12} {gain lossHeating lossCooling : ℝ}
    (hfig : MonthFigures x s k gain lossHeating lossCooling)
    (htie : gain = lossHeating + dblMin ∧ gain ≠ 0 ∨ lossCooling = gain + dblMin ∧ lossCooling ≠ 0) :
    ∃ r : List (Hourly.EndUses Dbl), simulate (x.map fin) = some r ∧ ∃ hr : r.length = 12, ∀ m : Fin 12,
      r[m.1] 1 = nan ∧ (r[m.1] 0 = nan ∨ r[m.1] 9 = nan) := by
  obtain ⟨n1, n2⟩ := (month_figures x h hv h0 s hs k).2 _ _ _ hfig
  have hone := C36_one (x.heating.a_H0 + buildingTau x / x.heating.tau_H0)
  have hyr : s.needs.Qneed_ht_yr = nan ∨ s.needs.Qneed_cl_yr = nan := by
    obtain ⟨b, a, t, hb, ha', ht, rfl⟩ := stages_parts h hs
    rcases htie with ⟨e, hne⟩ | ⟨e, hne⟩
    · left
      have hn := hone.2.2.1 gain lossHeating (by rw [← e]; exact hne) e
      refine csum_nan ?_
      rw [List.mem_ofFn]
      exact ⟨k, n1.trans hn⟩
    · right
      have hn := hone.2.2.2 gain lossCooling (by rw [← e]; exact hne) e
      refine csum_nan ?_
      rw [List.mem_ofFn]
      exact ⟨k, n2.trans hn⟩
  obtain ⟨r, hr⟩ : ∃ r, simulate (x.map fin) = some r := by unfold simulate; rw [hs]; exact ⟨_, rfl⟩
  refine ⟨r, hr, ?_⟩
  obtain ⟨s', hs', hl, hL⟩ := C41_layout (x.map fin) x.bldg.floorArea rfl h.floorArea r hr
  have hss : s' = s := Option.some.inj (hs'.symm.trans hs)
  subst hss
  have hd : distribution (x.map fin) s'.needs.Qneed_ht_yr s'.needs.Qneed_cl_yr = (nan, nan) := by
    have c : ∀ d : Dbl, cmax nan d = nan := by intro d; unfold cmax; rw [nan_clt]; rfl
    have e : s'.needs.Qneed_ht_yr / (s'.needs.Qneed_cl_yr + s'.needs.Qneed_ht_yr) = nan := by
      rcases hyr with e | e <;> rw [e] <;> simp
    unfold distribution
    simp only [e, c, sub_nan, div_nan, add_nan]
  generalize s'.needs = n at hd hL
  have hv0 : ∀ a : Dbl, vdiv a nan = nan := by
    intro a; unfold vdiv
    have : ceq (nan : Dbl) 0.0 = false := rfl
    rw [this, cond_false, div_nan]
  have hvn : ∀ r : ℝ, r ≠ 0 → vdiv nan (fin r) = nan := by
    intro r hr; rw [vdiv_dbl _ hr, nan_div]
  have p0 := dblMin_pos
  have q1 : (x.map fin).heating.efficiency + dblMin = fin (x.heating.efficiency + dblMin) := by
    simp only [Sim.map, Heating.map, fin_dblMin, fin_add]
  have q2 : (x.map fin).cooling.cop * (x.map fin).cooling.partialLoadValue + dblMin
      = fin (x.cooling.cop * x.cooling.partialLoadValue + dblMin) := by
    simp only [Sim.map, Cooling.map, fin_mul, fin_dblMin, fin_add]
  have q3 : (x.map fin).cooling.eta_DC_COP * (x.map fin).cooling.eta_DC_network
      = fin (x.cooling.eta_DC_COP * x.cooling.eta_DC_network) := by
    simp only [Sim.map, Cooling.map, fin_mul]
  have q4 : (x.map fin).heating.eta_DH_sys * (x.map fin).heating.eta_DH_network
      = fin (x.heating.eta_DH_sys * x.heating.eta_DH_network) := by
    simp only [Sim.map, Heating.map, fin_mul]
  have r1 : x.heating.efficiency + dblMin ≠ 0 := by have := hsys.efficiency; positivity
  have r2 : x.cooling.cop * x.cooling.partialLoadValue + dblMin ≠ 0 := by have := hsys.cop; positivity
  have r3 := hsys.districtCold.ne'
  have r4 := hsys.districtHeat.ne'
  have ec : ∀ m, (hvac (x.map fin) n).v_Qcl_elec_tot m = nan := by
    intro m
    simp only [hvac, coolingSplit, hd, distributionLoss, sub_nan, mul_nan, hv0, q2, q3, nan_add, add_nan, hvn _ r2]
    cases ceq (x.map fin).cooling.DC_YesNo (1.0 : Dbl)
    · simp only [cond_false, nan_add]
    · simp only [cond_true, nan_mul, hvn _ r3, add_nan]
  have eh : ∀ m, (hvac (x.map fin) n).v_Qelec_ht m = nan ∨ (hvac (x.map fin) n).v_Qgas_ht m = nan := by
    intro m
    simp only [hvac, heatingSplit, hd, distributionLoss, sub_nan, mul_nan, hv0, q1, q4, nan_add, add_nan, hvn _ r1]
    cases ceq (x.map fin).heating.DH_YesNo (1.0 : Dbl) <;> cases ceq (x.map fin).heating.energyType (1.0 : Dbl) <;>
      simp only [cond_true, cond_false, nan_add, add_nan, nan_mul, hvn _ r4, true_or, or_true]
  refine ⟨hl, fun m => ?_⟩
  obtain ⟨l0, l1, -, -, -, -, -, -, l9, -⟩ := hL m
  rw [l0, l1, l9, ec m]
  refine ⟨by rw [nan_div, nan_div], ?_⟩
  rcases eh m with e | e
  · left; rw [e, nan_div, nan_div]
  · right; rw [e, nan_div, nan_div]

/-! ## the hypotheses are met -/

/-- `C49_numbers` applies to the plain office -/
example : ∃ (s : Stages Dbl) (gain lossHeating lossCooling : Fin 12 → ℝ), stages (plainOffice.map fin) = some s ∧
    (∀ m, MonthFigures plainOffice s m (gain m) (lossHeating m) (lossCooling m)) ∧
    (∀ m, 1 ≤ gain m ∧ gain m ≤ 10 ^ 9) ∧ (∀ m, -10 ^ 9 ≤ lossHeating m) ∧
    (∀ m, gain m ≠ lossHeating m + dblMin ∧ lossCooling m ≠ gain m + dblMin) ∧
    ∃ m, gain m + 1 ≤ lossHeating m ∨ lossCooling m + 1 ≤ gain m := by
  obtain ⟨s, hs⟩ := plain_stages
  have h15 : plainOffice.heating.tau_H0 = 15 := by norm_num [plainOffice, sunnyOffice, monthlyOffice, smallOffice]
  have hF := fun m => (month_figures plainOffice plain_temp plain_ventilation (by rw [h15]; norm_num) s hs m).1
  choose gain lh lc hF using hF
  have key : ∀ m, 1 ≤ gain m ∧ gain m ≤ 10 ^ 9 ∧ gain m + 1 ≤ lh m ∧ gain m + 1 ≤ lc m := by
    intro m
    obtain ⟨Φ, E, Th, Tc, H, H', eΦ, eE, eTh, eTc, eH, eH', e1, e2, e3⟩ := (hF m).figures
    obtain ⟨Φ', eΦ', p1, p2⟩ := plain_gain hs
    have hΦ : Φ = Φ' := fin_inj.mp (eΦ.symm.trans eΦ')
    have hE : E = 0 := fin_inj.mp (eE.symm.trans (plain_solar hs m))
    have hlev : plainOffice.building.buildingEnergyManagement = 1 := by
      norm_num [plainOffice, sunnyOffice, monthlyOffice, smallOffice]
    have hTh : Th = 24 := by
      obtain ⟨_, _, _, _, _, _, _, _, t, T, hM, hT, -, h2⟩ := C34_heating plainOffice plain_temp s hs m
      have e := h2 (by norm_num [plainOffice])
      rw [hM.shift, hlev] at e
      rw [fin_inj.mp (eTh.symm.trans hT), e]
      norm_num [levelShift, plainOffice, sunnyOffice, monthlyOffice, smallOffice]
    have hTc : Tc = 28 := by
      obtain ⟨_, _, _, _, _, _, _, _, t, T, hM, hT, -, h2⟩ := C34_cooling plainOffice plain_temp s hs m
      have e := h2 (by norm_num [plainOffice])
      rw [hM.shift, hlev] at e
      rw [fin_inj.mp (eTc.symm.trans hT), e]
      norm_num [levelShift, plainOffice, sunnyOffice, monthlyOffice, smallOffice]
    obtain ⟨_, _, _, G, G', -, -, -, g1, g2, -, -, -, -, -, g3, g4⟩ := C35_flows plainOffice plain_temp plain_ventilation s hs m
    have hG : 0 < H := by rw [fin_inj.mp (eH.symm.trans g1)]; exact g3
    have hG' : 0 < H' := by rw [fin_inj.mp (eH'.symm.trans g2)]; exact g4
    have hA : plainOffice.bldg.floorArea = 511.16 := by norm_num [plainOffice, sunnyOffice, monthlyOffice, smallOffice]
    have hmd : plainOffice.weather.mdbt m = 0 := rfl
    have hM : 2 < megaseconds m ∧ megaseconds m < 3 := by fin_cases m <;> norm_num [megaseconds, days, monthDays]
    have hL := plain_loss
    rw [hE, hΦ] at e1
    rw [hTh, hmd, hA] at e2
    rw [hTc, hmd, hA] at e3
    generalize ∑ i, (plainOffice.bldg.wallArea i * plainOffice.bldg.wallUniform i
      + plainOffice.bldg.windowArea i * plainOffice.bldg.windowUniform i) = L at e2 e3 hL
    obtain ⟨M1, M2⟩ := hM
    have k1 : 1000 < L + H * 511.16 := by nlinarith
    have k2 : 1000 < L + H' * 511.16 := by nlinarith
    rw [e1, e2, e3]
    refine ⟨by nlinarith, ?_, by nlinarith, by nlinarith⟩
    norm_num
    nlinarith
  refine ⟨s, gain, lh, lc, hs, hF, fun m => ⟨(key m).1, (key m).2.1⟩, fun m => ?_, fun m => ⟨?_, ?_⟩, 0, .inl (key 0).2.2.1⟩
  · obtain ⟨k1, k2, k3, k4⟩ := key m; norm_num at *; linarith
  · obtain ⟨k1, k2, k3, k4⟩ := key m; have := dblMin_pos; intro h; linarith
  · obtain ⟨k1, k2, k3, k4⟩ := key m
    have := dblMin_lt; norm_num at this; intro h; linarith

/-- the plain office at `T` degrees all year, with air flows that do not depend on the weather -/
noncomputable def steadyOffice (T : ℝ) : Sim ℝ :=
  { plainOffice with
    weather := { plainOffice.weather with mdbt := fun _ => T }
    ventilation := { plainOffice.ventilation with stack_coeff := 0, wind_coeff := 0 } }

theorem steady_temp (T : ℝ) : TempData (steadyOffice T) := by
  have h := plain_temp
  exact ⟨h.week, h.someHour, h.notAllDay, h.occupied, h.unoccupied, h.floorArea, h.heatLoss, h.capacity⟩

theorem steady_ventilation (T : ℝ) : VentilationData (steadyOffice T) := by
  have h := plain_ventilation
  exact ⟨h.floorArea, h.leaky, h.zone, h.stackExp, le_rfl, h.windBase, h.windExp, le_rfl, h.occupied, h.unoccupied, h.supply,
    h.recirculated, h.recovered, h.air⟩

theorem steady_systems (T : ℝ) : SystemData (steadyOffice T) := by
  have h := plain_systems
  exact ⟨h.heatLoss, h.coolLoss, h.waste, h.efficiency, h.cop, h.districtHeat, h.districtCold, h.absorption⟩

theorem steady_lighting (T : ℝ) : LightingData (steadyOffice T) := by
  have h := plain_lighting
  exact ⟨h.overlap, h.notJustBefore, h.days, h.year, h.floorArea, h.occupied, h.unoccupied, h.dimming, h.sensor, h.constant⟩

theorem steady_stages (T : ℝ) : ∃ s, stages ((steadyOffice T).map fin) = some s := by
  have h : ¬simulate ((steadyOffice T).map fin) = none := by
    rw [C41_defined (steadyOffice T) (steady_temp T).someHour]
    rintro (⟨m, hm⟩ | ⟨i, hi⟩ | h)
    · have := hm 8
      norm_num [steadyOffice, plainOffice, sunnyOffice] at this
    · norm_num [steadyOffice, plainOffice, sunnyOffice, monthlyOffice] at hi
    · norm_num [steadyOffice, plainOffice, sunnyOffice, monthlyOffice, smallOffice] at h
  unfold simulate at h
  cases hs : stages ((steadyOffice T).map fin) with
  | none => rw [hs] at h; exact absurd rfl h
  | some s => exact ⟨s, rfl⟩

/-- gains and losses of the steady office in January: the gain does not depend on the temperature, the loss is linear in it -/
theorem steady_figures : ∃ G K : ℝ, 1 < G ∧ 0 < K ∧ ∀ (T : ℝ) (s : Stages Dbl), stages ((steadyOffice T).map fin) = some s →
    ∃ lc, MonthFigures (steadyOffice T) s 0 G (K * (24 - T)) lc := by
  have hL := plain_loss
  generalize hLe : ∑ i, (plainOffice.bldg.wallArea i * plainOffice.bldg.wallUniform i
    + plainOffice.bldg.windowArea i * plainOffice.bldg.windowUniform i) = L at hL
  have hM : 2 < megaseconds 0 := by norm_num [megaseconds, days, monthDays]
  have hgain : ∃ Φ₀ : ℝ, 1 < Φ₀ ∧ ∀ T s, stages ((steadyOffice T).map fin) = some s → s.phi_I_tot = fin Φ₀ := by
    have key : ∀ T s, stages ((steadyOffice T).map fin) = some s → s.phi_I_tot = fin
        (511.16 * 120 * (45 / 168 / 25.47 + (1 - 45 / 168) / 150.5)
          + 511.16 * (45 / 168 * 4.831 + (1 - 45 / 168) * 2.248)
          + 1000 * (511.16 * 6.339 * (250 * 9) / 1000 + 511.16 * 2.586 * (8760 - 250 * 9) / 1000) / 8760) := by
      intro T s hs
      obtain ⟨Φ, lights, d, e1, e2, hd, e3⟩ := C47_gains (steadyOffice T) (steady_temp T) s hs
      obtain ⟨b, a, t, hb, ha, ht, rfl⟩ := stages_parts (steady_temp T) hs
      obtain ⟨-, -, el, -, -, -, -, -, -, -⟩ := fin_stages (steady_temp T) b a t
      obtain ⟨occ, unocc, -, -, h3, h4, h5, h6, -⟩ := C31_year (steadyOffice T) (steady_lighting T) b.v_hrs_sun_down_mo
      have e4 : lights = occ + unocc := fin_inj.mp (e2.symm.trans h3)
      have hd' : d = 45 / 168 := by
        rw [hd]; norm_num [steadyOffice, plainOffice, sunnyOffice, monthlyOffice, smallOffice, windowHours, windowDays]
      have o1 : occ = 511.16 * 6.339 * (250 * 9) / 1000 := by
        have : 1000 * occ = 511.16 * 6.339 * (250 * 9) := by
          rw [h5]
          norm_num [steadyOffice, plainOffice, sunnyOffice, monthlyOffice, smallOffice, litDays, litByDay, litByNight, windowDays]
        linarith
      have o2 : unocc = 511.16 * 2.586 * (8760 - 250 * 9) / 1000 := by
        have : 1000 * unocc = 511.16 * 2.586 * (8760 - 250 * 9) := by
          rw [h6]
          norm_num [steadyOffice, plainOffice, sunnyOffice, monthlyOffice, smallOffice, litDays, litByDay, litByNight, windowDays]
        linarith
      rw [e1, e3, e4, o1, o2, hd']
      congr 1
      norm_num [steadyOffice, plainOffice, sunnyOffice, monthlyOffice, smallOffice]
    exact ⟨_, by norm_num, key⟩
  have hflow : ∃ H₀ : ℝ, 0 < H₀ ∧ ∀ T s, stages ((steadyOffice T).map fin) = some s → s.v_Hve_ht 0 = fin H₀ := by
    refine ⟨(0.001 + fanFlow plainOffice (45 / 168)) * (plainOffice.phys.rhoCpAir * 1000000) / 3600, ?_, ?_⟩
    · have h1 : 0 ≤ fanFlow plainOffice (45 / 168) := by
        unfold fanFlow running
        norm_num [plainOffice, sunnyOffice, monthlyOffice, smallOffice]
      have h2 := plain_ventilation.air
      positivity
    intro T s hs
    obtain ⟨d, Th, Tc, G, G', hd, -, -, g1, g2, g3, -⟩ :=
      C35_flows (steadyOffice T) (steady_temp T) (steady_ventilation T) s hs 0
    have hd' : d = 45 / 168 := by
      obtain ⟨b, a, t, hb, ha, ht, rfl⟩ := stages_parts (steady_temp T) hs
      obtain ⟨d', n, e, h1, -, -, h2, -⟩ := C29_fractions (steadyOffice T).pop (steady_temp T).week
      have e : d = d' := fin_inj.mp (hd.symm.trans h1)
      have h3 : 168 * d' = 45 := by
        rw [h2]; norm_num [steadyOffice, plainOffice, sunnyOffice, monthlyOffice, smallOffice, windowHours, windowDays]
      linarith
    have hl : leakage (steadyOffice T) 0 Th = 0.001 := by
      unfold leakage stack windDriven
      have e1 : (steadyOffice T).ventilation.stack_coeff = 0 := rfl
      have e2 : (steadyOffice T).ventilation.wind_coeff = 0 := rfl
      have e3 : 0 ≤ (steadyOffice T).ventilation.supplyDifference / (steadyOffice T).bldg.floorArea / 3.6 := by
        norm_num [steadyOffice, plainOffice, sunnyOffice, monthlyOffice, smallOffice]
      rw [e1, e2, max_eq_left (neg_nonpos.mpr e3)]
      norm_num
    have hf : fanFlow (steadyOffice T) d = fanFlow plainOffice (45 / 168) := by rw [hd']; rfl
    rw [hl, hf] at g3
    rw [g1]
    congr 1
    have e4 : (steadyOffice T).phys.rhoCpAir = plainOffice.phys.rhoCpAir := rfl
    rw [e4] at g3
    linarith
  obtain ⟨Φ₀, hΦ₀, hgain⟩ := hgain
  obtain ⟨H₀, hH₀, hflow⟩ := hflow
  refine ⟨megaseconds 0 * Φ₀ + 0, megaseconds 0 * (L + H₀ * 511.16), by nlinarith, ?_, fun T s hs => ?_⟩
  · have : 0 < L := by linarith
    positivity
  have h15 : (steadyOffice T).heating.tau_H0 = 15 := by
    norm_num [steadyOffice, plainOffice, sunnyOffice, monthlyOffice, smallOffice]
  obtain ⟨gain, lh, lc, Φ, E, Th, Tc, H, H', eΦ, eE, eTh, eTc, eH, eH', e1, e2, e3⟩ :=
    (month_figures (steadyOffice T) (steady_temp T) (steady_ventilation T) (by rw [h15]; norm_num) s hs 0).1
  have hΦ : Φ = Φ₀ := fin_inj.mp (eΦ.symm.trans (hgain T s hs))
  have hH : H = H₀ := fin_inj.mp (eH.symm.trans (hflow T s hs))
  have hE : E = 0 := by
    refine fin_inj.mp (eE.symm.trans ?_)
    obtain ⟨b, a, t, hb, ha, ht, rfl⟩ := stages_parts (steady_temp T) hs
    show solarHeatGain ((steadyOffice T).bldg.map fin) ((steadyOffice T).weather.map fin) (a.map fin) 0 = _
    rw [C33_gain (steadyOffice T).bldg (steadyOffice T).weather (a.map fin) (by rw [fin_windowSolarGain, ha]; rfl)]
    congr 1
    simp [windowHeat, opaqueHeat, skyLoss, steadyOffice, plainOffice]
  have hTh : Th = 24 := by
    obtain ⟨_, _, _, _, _, _, _, _, t, T', hM, hT, -, h2⟩ := C34_heating (steadyOffice T) (steady_temp T) s hs 0
    have e := h2 (by norm_num [steadyOffice, plainOffice])
    have hlev : (steadyOffice T).building.buildingEnergyManagement = 1 := by
      norm_num [steadyOffice, plainOffice, sunnyOffice, monthlyOffice, smallOffice]
    rw [hM.shift, hlev] at e
    rw [fin_inj.mp (eTh.symm.trans hT), e]
    norm_num [levelShift, steadyOffice, plainOffice, sunnyOffice, monthlyOffice, smallOffice]
  have hA : (steadyOffice T).bldg.floorArea = 511.16 := by
    norm_num [steadyOffice, plainOffice, sunnyOffice, monthlyOffice, smallOffice]
  have hmd : (steadyOffice T).weather.mdbt 0 = T := rfl
  have hL' : ∑ i, ((steadyOffice T).bldg.wallArea i * (steadyOffice T).bldg.wallUniform i
    + (steadyOffice T).bldg.windowArea i * (steadyOffice T).bldg.windowUniform i) = L := hLe
  refine ⟨lc, Φ, E, Th, Tc, H, H', eΦ, eE, eTh, eTc, eH, eH', by rw [hΦ, hE], ?_, e3⟩
  rw [hTh, hmd, hA, hL', hH]
  ring

/-- at one outside temperature the gain of the steady office equals its loss in January, and then `C49_tie` applies -/
example : ∃ (T : ℝ) (s : Stages Dbl) (gain lossHeating lossCooling : ℝ), stages ((steadyOffice T).map fin) = some s ∧
    MonthFigures (steadyOffice T) s 0 gain lossHeating lossCooling ∧ gain = lossHeating + dblMin ∧ gain ≠ 0 ∧
    TempData (steadyOffice T) ∧ VentilationData (steadyOffice T) ∧ SystemData (steadyOffice T) := by
  obtain ⟨G, K, hG, hK, hF⟩ := steady_figures
  obtain ⟨s, hs⟩ := steady_stages (24 - (G - dblMin) / K)
  obtain ⟨lc, h⟩ := hF _ s hs
  refine ⟨_, s, _, _, lc, hs, h, ?_, by linarith, steady_temp _, steady_ventilation _, steady_systems _⟩
  field_simp
  ring

end ISO.Props
