import Verif.Lemmas.MonthlySystems
import Verif.Props.MonthlyNeeds

/-! # C38, C39, C40: systems, pumps and hot water of the monthly model -/

namespace ISO.Props
open ISO ISO.Monthly ISO.Spec Dbl CNum

/-- C38: distribution losses in proportion to the needs; they are not negative. -/
theorem C38_loss (x : Sim ℝ) (h : SystemData x) (Qh Qc need : ℝ) (hT : Qh + Qc ≠ 0) :
    distributionLoss (fin need) (distribution (x.map fin) (fin Qh) (fin Qc)).1 = fin (need * heatLossRate x Qh Qc) ∧
    distributionLoss (fin need) (distribution (x.map fin) (fin Qh) (fin Qc)).2 = fin (need * coolLossRate x Qh Qc) ∧
    (0 ≤ need → 0 ≤ need * heatLossRate x Qh Qc ∧ 0 ≤ need * coolLossRate x Qh Qc) := by
  obtain ⟨r1, r2⟩ := lossRates_nonneg h Qh Qc
  rw [fin_distribution h hT]
  exact ⟨fin_distributionLoss r1, fin_distributionLoss r2, fun hn => ⟨mul_nonneg hn r1, mul_nonneg hn r2⟩⟩

theorem ceq_one (r : ℝ) : ceq (fin r) (1.0 : Dbl) = decide (r = 1) := by
  rw [fin_lit, fin_ceq]
  by_cases h : r = 1
  · rw [decide_eq_true h, ceq_real, h]; norm_num
  · rw [decide_eq_false h, ← Bool.not_eq_true, ceq_real]; norm_num; exact h

/-- C38, heating: need plus distribution loss is delivered either by the own system, which takes electricity (type 1) or gas, or
by district heating, which counts as gas.  Nothing is booked twice. -/
theorem C38_heating (x : Sim ℝ) (h : SystemData x) (n : Needs ℝ) (hT : n.Qneed_ht_yr + n.Qneed_cl_yr ≠ 0) (m : Fin 12)
    (delivered : ℝ) (hD : delivered = n.v_Qneed_ht m + n.v_Qneed_ht m * heatLossRate x n.Qneed_ht_yr n.Qneed_cl_yr) :
    (x.heating.DH_YesNo ≠ 1 → x.heating.energyType = 1 →
      (hvac (x.map fin) (n.map fin)).v_Qelec_ht m = fin (delivered / (x.heating.efficiency + dblMin)) ∧
      (hvac (x.map fin) (n.map fin)).v_Qgas_ht m = fin 0) ∧
    (x.heating.DH_YesNo ≠ 1 → x.heating.energyType ≠ 1 →
      (hvac (x.map fin) (n.map fin)).v_Qelec_ht m = fin 0 ∧
      (hvac (x.map fin) (n.map fin)).v_Qgas_ht m = fin (delivered / (x.heating.efficiency + dblMin))) ∧
    (x.heating.DH_YesNo = 1 →
      (hvac (x.map fin) (n.map fin)).v_Qelec_ht m = fin 0 ∧
      (hvac (x.map fin) (n.map fin)).v_Qgas_ht m
        = fin (delivered * (1 - x.heating.frac_DH_free) / (x.heating.eta_DH_sys * x.heating.eta_DH_network))) := by
  obtain ⟨r1, -⟩ := lossRates_nonneg h n.Qneed_ht_yr n.Qneed_cl_yr
  have e0 : (0.0 : Dbl) = fin 0 := by rw [fin_lit]; norm_num
  have he : x.heating.efficiency + dblMin ≠ 0 := by have := h.efficiency; have := dblMin_pos; positivity
  have hs := h.districtHeat.ne'
  have eL : distributionLoss ((n.map fin).v_Qneed_ht m)
      (distribution (x.map fin) (n.map fin).Qneed_ht_yr (n.map fin).Qneed_cl_yr).1
      = fin (n.v_Qneed_ht m * heatLossRate x n.Qneed_ht_yr n.Qneed_cl_yr) := (C38_loss x h _ _ _ hT).1
  have e1 : (1.0 : Dbl) = fin 1 := by rw [fin_lit]; norm_num
  have c1 : ceq (x.map fin).heating.DH_YesNo (1.0 : Dbl) = decide (x.heating.DH_YesNo = 1) := ceq_one _
  have c2 : ceq (x.map fin).heating.energyType (1.0 : Dbl) = decide (x.heating.energyType = 1) := ceq_one _
  have g : ∀ v : ℝ, vdiv (fin v * (1.0 - (x.map fin).heating.frac_DH_free))
      ((x.map fin).heating.eta_DH_sys * (x.map fin).heating.eta_DH_network)
      = fin (v * (1 - x.heating.frac_DH_free) / (x.heating.eta_DH_sys * x.heating.eta_DH_network)) := by
    intro v
    simp only [Sim.map, Heating.map, e1, fin_sub, fin_mul, fin_vdiv, vdiv_ne _ hs]
  have own : vdiv (fin (n.v_Qneed_ht m * heatLossRate x n.Qneed_ht_yr n.Qneed_cl_yr) + (n.map fin).v_Qneed_ht m)
      ((x.map fin).heating.efficiency + dblMin) = fin (delivered / (x.heating.efficiency + dblMin)) := by
    simp only [Sim.map, Heating.map, Needs.map, fin_dblMin, fin_add, fin_vdiv, vdiv_ne _ he]
    rw [hD, add_comm (n.v_Qneed_ht m)]
  have dist : (n.map fin).v_Qneed_ht m + fin (n.v_Qneed_ht m * heatLossRate x n.Qneed_ht_yr n.Qneed_cl_yr) = fin delivered := by
    simp only [Needs.map, fin_add, hD]
  refine ⟨?_, ?_, ?_⟩
  · intro hd ht
    simp only [hvac, heatingSplit, eL, c1, c2, decide_eq_false hd, decide_eq_true ht, cond_true, cond_false, own]
    simp only [e0, g, zero_mul, zero_div, and_self]
  · intro hd ht
    simp only [hvac, heatingSplit, eL, c1, c2, decide_eq_false hd, decide_eq_false ht, cond_false, own]
    simp only [e0, g, zero_mul, zero_div, fin_add, add_zero, and_self]
  · intro hd
    by_cases ht : x.heating.energyType = 1
    · simp only [hvac, heatingSplit, eL, c1, c2, decide_eq_true hd, decide_eq_true ht, cond_true, dist]
      simp only [e0, g, and_self]
    · simp only [hvac, heatingSplit, eL, c1, c2, decide_eq_true hd, decide_eq_false ht, cond_true, cond_false, dist]
      simp only [e0, g, fin_add, zero_add, and_self]

/-- C38, cooling: need plus distribution loss is delivered by the own chillers (electricity) or by district cooling, whose electric
and absorption chillers take electricity and gas. -/
theorem C38_cooling (x : Sim ℝ) (h : SystemData x) (n : Needs ℝ) (hT : n.Qneed_ht_yr + n.Qneed_cl_yr ≠ 0) (m : Fin 12)
    (delivered : ℝ) (hD : delivered = n.v_Qneed_cl m + n.v_Qneed_cl m * coolLossRate x n.Qneed_ht_yr n.Qneed_cl_yr) :
    (x.cooling.DC_YesNo ≠ 1 →
      (hvac (x.map fin) (n.map fin)).v_Qcl_elec_tot m = fin (delivered / (x.cooling.cop * x.cooling.partialLoadValue + dblMin)) ∧
      (hvac (x.map fin) (n.map fin)).v_Qcl_gas_tot m = fin 0) ∧
    (x.cooling.DC_YesNo = 1 →
      (hvac (x.map fin) (n.map fin)).v_Qcl_elec_tot m
        = fin (delivered * (1 - x.cooling.eta_DC_frac_abs) / (x.cooling.eta_DC_COP * x.cooling.eta_DC_network)) ∧
      (hvac (x.map fin) (n.map fin)).v_Qcl_gas_tot m
        = fin (delivered * (1 - x.cooling.frac_DC_free) / x.cooling.eta_DC_COP_abs)) := by
  obtain ⟨-, r2⟩ := lossRates_nonneg h n.Qneed_ht_yr n.Qneed_cl_yr
  have e0 : (0.0 : Dbl) = fin 0 := by rw [fin_lit]; norm_num
  have e1 : (1.0 : Dbl) = fin 1 := by rw [fin_lit]; norm_num
  have he : x.cooling.cop * x.cooling.partialLoadValue + dblMin ≠ 0 := by
    have := h.cop; have := dblMin_pos; positivity
  have hs := h.districtCold.ne'
  have ha := h.absorption.ne'
  have eL : distributionLoss ((n.map fin).v_Qneed_cl m)
      (distribution (x.map fin) (n.map fin).Qneed_ht_yr (n.map fin).Qneed_cl_yr).2
      = fin (n.v_Qneed_cl m * coolLossRate x n.Qneed_ht_yr n.Qneed_cl_yr) := (C38_loss x h _ _ _ hT).2.1
  have c1 : ceq (x.map fin).cooling.DC_YesNo (1.0 : Dbl) = decide (x.cooling.DC_YesNo = 1) := ceq_one _
  have g1 : ∀ v : ℝ, vdiv (fin v * (1.0 - (x.map fin).cooling.eta_DC_frac_abs))
      ((x.map fin).cooling.eta_DC_COP * (x.map fin).cooling.eta_DC_network)
      = fin (v * (1 - x.cooling.eta_DC_frac_abs) / (x.cooling.eta_DC_COP * x.cooling.eta_DC_network)) := by
    intro v
    simp only [Sim.map, Cooling.map, e1, fin_sub, fin_mul, fin_vdiv, vdiv_ne _ hs]
  have g2 : ∀ v : ℝ, vdiv (fin v * (1.0 - (x.map fin).cooling.frac_DC_free)) (x.map fin).cooling.eta_DC_COP_abs
      = fin (v * (1 - x.cooling.frac_DC_free) / x.cooling.eta_DC_COP_abs) := by
    intro v
    simp only [Sim.map, Cooling.map, e1, fin_sub, fin_mul, fin_vdiv, vdiv_ne _ ha]
  have own : vdiv (fin (n.v_Qneed_cl m * coolLossRate x n.Qneed_ht_yr n.Qneed_cl_yr) + (n.map fin).v_Qneed_cl m)
      ((x.map fin).cooling.cop * (x.map fin).cooling.partialLoadValue + dblMin)
      = fin (delivered / (x.cooling.cop * x.cooling.partialLoadValue + dblMin)) := by
    simp only [Sim.map, Cooling.map, Needs.map, fin_dblMin, fin_add, fin_mul, fin_vdiv, vdiv_ne _ he]
    rw [hD, add_comm (n.v_Qneed_cl m)]
  have dist : (n.map fin).v_Qneed_cl m + fin (n.v_Qneed_cl m * coolLossRate x n.Qneed_ht_yr n.Qneed_cl_yr) = fin delivered := by
    simp only [Needs.map, fin_add, hD]
  refine ⟨?_, ?_⟩
  · intro hd
    simp only [hvac, coolingSplit, eL, c1, decide_eq_false hd, cond_false, own]
    simp only [e0, g1, g2, zero_mul, zero_div, fin_add, add_zero, and_self]
  · intro hd
    simp only [hvac, coolingSplit, eL, c1, decide_eq_true hd, cond_true, dist]
    simp only [e0, g1, g2, fin_add, zero_add, and_self]

/-- C38, a disagreement: with district cooling by electric chillers only (no absorption chillers) the whole delivered cold is paid
twice, in electricity and again in gas. -/
theorem C38_twice (x : Sim ℝ) (h : SystemData x) (n : Needs ℝ) (hT : n.Qneed_ht_yr + n.Qneed_cl_yr ≠ 0) (m : Fin 12)
    (hd : x.cooling.DC_YesNo = 1) (h0 : x.cooling.eta_DC_frac_abs = 0) (hfree : x.cooling.frac_DC_free = 0)
    (hneed : 0 < n.v_Qneed_cl m) :
    ∃ delivered electricity gas : ℝ, n.v_Qneed_cl m ≤ delivered ∧
      (hvac (x.map fin) (n.map fin)).v_Qcl_elec_tot m = fin electricity ∧ (hvac (x.map fin) (n.map fin)).v_Qcl_gas_tot m = fin gas ∧
      electricity * (x.cooling.eta_DC_COP * x.cooling.eta_DC_network) = delivered ∧
      gas * x.cooling.eta_DC_COP_abs = delivered ∧ 0 < electricity ∧ 0 < gas := by
  obtain ⟨-, r2⟩ := lossRates_nonneg h n.Qneed_ht_yr n.Qneed_cl_yr
  obtain ⟨e1, e2⟩ := (C38_cooling x h n hT m _ rfl).2 hd
  have p1 := h.districtCold
  have p2 := h.absorption
  have hp : 0 < n.v_Qneed_cl m + n.v_Qneed_cl m * coolLossRate x n.Qneed_ht_yr n.Qneed_cl_yr := by positivity
  refine ⟨n.v_Qneed_cl m + n.v_Qneed_cl m * coolLossRate x n.Qneed_ht_yr n.Qneed_cl_yr, _, _, ?_, e1, e2, ?_, ?_, ?_, ?_⟩
  · exact le_add_of_nonneg_right (mul_nonneg hneed.le r2)
  · rw [h0, sub_zero, mul_one, div_mul_cancel₀ _ p1.ne']
  · rw [hfree, sub_zero, mul_one, div_mul_cancel₀ _ p2.ne']
  · rw [h0, sub_zero, mul_one]; positivity
  · rw [hfree, sub_zero, mul_one]; positivity

/-- C38, a disagreement: with neither heating nor cooling need in the year the energies are not numbers. -/
theorem C38_noDemand (x : Sim ℝ) (h : SystemData x) (n : Needs ℝ) (h1 : n.Qneed_ht_yr = 0) (h2 : n.Qneed_cl_yr = 0)
    (m : Fin 12) (hd : x.cooling.DC_YesNo ≠ 1) : (hvac (x.map fin) (n.map fin)).v_Qcl_elec_tot m = nan := by
  have e : distribution (x.map fin) (n.map fin).Qneed_ht_yr (n.map fin).Qneed_cl_yr = (nan, nan) := by
    have z : (n.map fin).Qneed_ht_yr = fin 0 ∧ (n.map fin).Qneed_cl_yr = fin 0 := by
      simp only [Needs.map, h1, h2, and_self]
    have c : ∀ d : Dbl, cmax nan d = nan := by intro d; unfold cmax; rw [nan_clt]; rfl
    unfold distribution
    rw [z.1, z.2]
    simp only [fin_add, add_zero, zero_div_zero, c, sub_nan, div_nan, add_nan]
  have c1 : ceq (x.map fin).cooling.DC_YesNo (1.0 : Dbl) = decide (x.cooling.DC_YesNo = 1) := ceq_one _
  have hv : ∀ a : Dbl, vdiv a nan = nan := by
    intro a; unfold vdiv
    have : ceq (nan : Dbl) 0.0 = false := rfl
    rw [this, cond_false, div_nan]
  have hv' : vdiv nan ((x.map fin).cooling.cop * (x.map fin).cooling.partialLoadValue + dblMin) = nan := by
    have he : x.cooling.cop * x.cooling.partialLoadValue + dblMin ≠ 0 := by
      have := h.cop; have := dblMin_pos; positivity
    have hz : (x.map fin).cooling.cop * (x.map fin).cooling.partialLoadValue + dblMin
        = fin (x.cooling.cop * x.cooling.partialLoadValue + dblMin) := by
      simp only [Sim.map, Cooling.map, fin_mul, fin_dblMin, fin_add]
    rw [hz]
    unfold vdiv
    rw [fin_lit, fin_ceq, show ceq (x.cooling.cop * x.cooling.partialLoadValue + dblMin) (0.0 : ℝ) = false by
      rw [← Bool.not_eq_true, ceq_real]; norm_num; exact he, cond_false, nan_div]
  simp only [hvac, coolingSplit, e, distributionLoss, sub_nan, mul_nan, hv, c1, decide_eq_false hd, cond_false, nan_add, hv']

/-! ## C39: pumps -/

/-- C39: when the building has both pump systems, the energy of both is spread over the months in proportion to their needs: the
year's total is the energy of both systems and no month is negative. -/
theorem C39_shared (x : Sim ℝ) (n : Needs ℝ)
    (hyh : n.Qneed_ht_yr = ∑ m, n.v_Qneed_ht m) (hyc : n.Qneed_cl_yr = ∑ m, n.v_Qneed_cl m)
    (Ph Pc : ℝ) (hPh : Ph = pumpEnergy x.heating.E_pumps x.heating.pumpControlReduction x.bldg.floorArea)
    (hPc : Pc = pumpEnergy x.cooling.E_pumps x.cooling.pumpControlReduction x.bldg.floorArea)
    (h0 : Ph ≠ 0) (h1 : Pc ≠ 0) (hT : n.Qneed_ht_yr + n.Qneed_cl_yr ≠ 0) :
    ∃ e : Fin 12 → ℝ, (∀ m, pump (x.map fin) (n.map fin) m = fin (e m)) ∧
      (∀ m, e m = (Ph + Pc) * ((n.v_Qneed_ht m + n.v_Qneed_cl m) / (n.Qneed_ht_yr + n.Qneed_cl_yr))) ∧
      ∑ m, e m = Ph + Pc ∧
      (0 ≤ Ph → 0 ≤ Pc → (∀ m, 0 ≤ n.v_Qneed_ht m ∧ 0 ≤ n.v_Qneed_cl m) → ∀ m, 0 ≤ e m) := by
  have yh : ∀ E r A : ℝ, pumpYear E r A = pumpEnergy E r A := by
    intro E r A
    have := fin_pumpYear E r A
    have e2 : pumpYear (fin E) (fin r) (fin A) = fin (pumpYear E r A) := by simp only [pumpYear, dblfin]
    exact fin_inj.mp (e2.symm.trans this)
  have hs : ∑ m, (n.v_Qneed_ht m + n.v_Qneed_cl m) / (n.Qneed_ht_yr + n.Qneed_cl_yr) = 1 := by
    rw [← Finset.sum_div, Finset.sum_add_distrib, ← hyh, ← hyc, div_self hT]
  have key : ∀ m, pump x n m = (Ph + Pc) * ((n.v_Qneed_ht m + n.v_Qneed_cl m) / (n.Qneed_ht_yr + n.Qneed_cl_yr)) := by
    intro m
    have b : (ceq Ph (0.0 : ℝ) || ceq Pc (0.0 : ℝ)) = false := by
      rw [Bool.or_eq_false_iff]
      constructor
      · rw [← Bool.not_eq_true, ceq_real]; norm_num; exact h0
      · rw [← Bool.not_eq_true, ceq_real]; norm_num; exact h1
    simp only [pump, yh, ← hPh, ← hPc, b, cond_false]
    simp only [spread, vsum_real, vdiv_ne _ hT, hs]
    rw [vdiv_ne _ one_ne_zero, div_one, mul_comm]
  refine ⟨pump x n, fin_pump x n, key, ?_, ?_⟩
  · rw [Finset.sum_congr rfl (fun m _ => key m), ← Finset.mul_sum, hs, mul_one]
  · intro p1 p2 hn m
    rw [key m, hyh, hyc]
    have a1 : 0 ≤ ∑ m, n.v_Qneed_ht m := Finset.sum_nonneg fun i _ => (hn i).1
    have a2 : 0 ≤ ∑ m, n.v_Qneed_cl m := Finset.sum_nonneg fun i _ => (hn i).2
    have := (hn m).1; have := (hn m).2
    positivity

/-- C39, with one system only: its energy is spread over the months in proportion to the share of its need in the needs of the
month, and nothing is lost, provided each month has a need and the share of each kind is not zero in the year. -/
theorem C39_single (x : Sim ℝ) (n : Needs ℝ)
    (Ph Pc : ℝ) (hPh : Ph = pumpEnergy x.heating.E_pumps x.heating.pumpControlReduction x.bldg.floorArea)
    (hPc : Pc = pumpEnergy x.cooling.E_pumps x.cooling.pumpControlReduction x.bldg.floorArea)
    (h01 : Ph = 0 ∨ Pc = 0) (hn : ∀ m, n.v_Qneed_ht m + n.v_Qneed_cl m ≠ 0)
    (hsh : ∑ m, n.v_Qneed_ht m / (n.v_Qneed_ht m + n.v_Qneed_cl m) ≠ 0)
    (hsc : ∑ m, n.v_Qneed_cl m / (n.v_Qneed_ht m + n.v_Qneed_cl m) ≠ 0) :
    ∃ e : Fin 12 → ℝ, (∀ m, pump (x.map fin) (n.map fin) m = fin (e m)) ∧
      (∀ m, e m = Ph * (n.v_Qneed_ht m / (n.v_Qneed_ht m + n.v_Qneed_cl m)) / (∑ k, n.v_Qneed_ht k / (n.v_Qneed_ht k + n.v_Qneed_cl k))
        + Pc * (n.v_Qneed_cl m / (n.v_Qneed_ht m + n.v_Qneed_cl m)) / (∑ k, n.v_Qneed_cl k / (n.v_Qneed_ht k + n.v_Qneed_cl k))) ∧
      ∑ m, e m = Ph + Pc := by
  have yh : ∀ E r A : ℝ, pumpYear E r A = pumpEnergy E r A := by
    intro E r A
    have := fin_pumpYear E r A
    have e2 : pumpYear (fin E) (fin r) (fin A) = fin (pumpYear E r A) := by simp only [pumpYear, dblfin]
    exact fin_inj.mp (e2.symm.trans this)
  have b : (ceq Ph (0.0 : ℝ) || ceq Pc (0.0 : ℝ)) = true := by
    rw [Bool.or_eq_true]
    rcases h01 with h | h
    · left; rw [ceq_real, h]; norm_num
    · right; rw [ceq_real, h]; norm_num
  have key : ∀ m, pump x n m = spread (fun m => n.v_Qneed_ht m / (n.v_Qneed_ht m + n.v_Qneed_cl m)) Ph m
      + spread (fun m => n.v_Qneed_cl m / (n.v_Qneed_ht m + n.v_Qneed_cl m)) Pc m := by
    intro m
    simp only [pump, yh, ← hPh, ← hPc, b, cond_true, vdiv_ne _ (hn _)]
  refine ⟨pump x n, fin_pump x n, ?_, ?_⟩
  · intro m
    rw [key m]
    simp only [spread, vsum_real, vdiv_ne _ hsh, vdiv_ne _ hsc]
    rw [mul_comm Ph, mul_comm Pc]
  · rw [Finset.sum_congr rfl (fun m _ => key m), Finset.sum_add_distrib, spread_sum _ hsh, spread_sum _ hsc]

/-- C39, a disagreement: a building without cooling pumps and without any cooling need is charged the largest double, in every
month, for the pumps it does not have. -/
theorem C39_largest (x : Sim ℝ) (n : Needs ℝ)
    (hPc : pumpEnergy x.cooling.E_pumps x.cooling.pumpControlReduction x.bldg.floorArea = 0)
    (hn : ∀ m, 0 < n.v_Qneed_ht m) (hc : ∀ m, n.v_Qneed_cl m = 0)
    (hPh : 0 ≤ pumpEnergy x.heating.E_pumps x.heating.pumpControlReduction x.bldg.floorArea) (m : Fin 12) :
    ∃ e : ℝ, pump (x.map fin) (n.map fin) m = fin e ∧ dblMax ≤ e := by
  have yh : ∀ E r A : ℝ, pumpYear E r A = pumpEnergy E r A := by
    intro E r A
    have := fin_pumpYear E r A
    have e2 : pumpYear (fin E) (fin r) (fin A) = fin (pumpYear E r A) := by simp only [pumpYear, dblfin]
    exact fin_inj.mp (e2.symm.trans this)
  refine ⟨_, fin_pump x n m, ?_⟩
  have c0 : ceq (0:ℝ) (0.0 : ℝ) = true := by rw [ceq_real]; norm_num
  simp only [pump, yh, hPc, c0, Bool.or_true, cond_true, hc]
  have e2 : spread (fun m => vdiv (0:ℝ) (n.v_Qneed_ht m + 0)) 0 m = dblMax := by
    have hz : ∀ m, vdiv (0:ℝ) (n.v_Qneed_ht m + 0) = 0 := by
      intro m
      rw [vdiv_ne _ (by rw [add_zero]; exact (hn m).ne'), zero_div]
    simp only [spread, hz, vsum_real, Finset.sum_const_zero]
    exact vdiv_zero _
  rw [e2]
  refine le_add_of_nonneg_left (spread_nonneg hPh ?_ m)
  intro k
  exact vdiv_nonneg (hn k).le (by rw [add_zero]; exact (hn k).le)

/-! ## C40: hot water -/

/-- C40: hot water is booked to exactly one fuel. -/
theorem C40_fuel (x : Sim ℝ) :
    (x.heating.hotWaterEnergyType = 1 → ∀ m, ∃ e : ℝ, 0 ≤ e ∧ (heatedWater (x.map fin)).1 m = fin e ∧ (heatedWater (x.map fin)).2 m = fin 0) ∧
    (x.heating.hotWaterEnergyType ≠ 1 → ∀ m, ∃ e : ℝ, 0 ≤ e ∧ (heatedWater (x.map fin)).2 m = fin e ∧ (heatedWater (x.map fin)).1 m = fin 0) := by
  have c : ceq (x.map fin).heating.hotWaterEnergyType (1.0 : Dbl) = decide (x.heating.hotWaterEnergyType = 1) := ceq_one _
  have e0 : (0.0 : Dbl) = fin 0 := by rw [fin_lit]; norm_num
  have p : ∀ m, 0 ≤ hotWaterNeed x m := by
    intro m
    simp only [hotWaterNeed, realnum]
    refine le_trans ?_ (le_max_right _ _)
    norm_num
  constructor
  · intro h m
    refine ⟨hotWaterNeed x m, p m, ?_, ?_⟩ <;> simp only [heatedWater, c, decide_eq_true h, cond_true, fin_hotWater, e0]
  · intro h m
    refine ⟨hotWaterNeed x m, p m, ?_, ?_⟩ <;> simp only [heatedWater, c, decide_eq_false h, cond_false, fin_hotWater, e0]

/-- C40: the energy of the year is the heat that warms the demand, over the efficiencies, in kilowatt hours. -/
theorem C40_year (x : Sim ℝ) (hd : 0 < x.heating.hotWaterDistributionEfficiency) (hs : 0 < x.heating.hotWaterSystemEfficiency)
    (hdem : 0 ≤ x.heating.hotWaterDemand) (ht : x.heating.dhw_tsupply ≤ x.heating.dhw_tset) (hp : 0 ≤ x.phys.rhoCpWater) :
    ∃ e g : Fin 12 → ℝ, (∀ m, (heatedWater (x.map fin)).1 m = fin (e m) ∧ (heatedWater (x.map fin)).2 m = fin (g m)) ∧
      ∑ m, (e m + g m) = x.heating.hotWaterDemand * (x.heating.dhw_tset - x.heating.dhw_tsupply) * x.phys.rhoCpWater
        / (x.heating.hotWaterDistributionEfficiency * x.heating.hotWaterSystemEfficiency * singleMJ) := by
  have c : ceq (x.map fin).heating.hotWaterEnergyType (1.0 : Dbl) = decide (x.heating.hotWaterEnergyType = 1) := ceq_one _
  have e0 : (0.0 : Dbl) = fin 0 := by rw [fin_lit]; norm_num
  have hk : (0:ℝ) < singleMJ := by unfold singleMJ; norm_num
  have key : ∑ m, hotWaterNeed x m = x.heating.hotWaterDemand * (x.heating.dhw_tset - x.heating.dhw_tsupply) * x.phys.rhoCpWater
        / (x.heating.hotWaterDistributionEfficiency * x.heating.hotWaterSystemEfficiency * singleMJ) := by
    have hQ : 0 ≤ x.heating.hotWaterDemand * (x.heating.dhw_tset - x.heating.dhw_tsupply) * x.phys.rhoCpWater :=
      mul_nonneg (mul_nonneg hdem (sub_nonneg.mpr ht)) hp
    have one : ∀ m, hotWaterNeed x m = daysInMonth m * (x.heating.hotWaterDemand * (x.heating.dhw_tset - x.heating.dhw_tsupply) * x.phys.rhoCpWater
        / (365 * x.heating.hotWaterDistributionEfficiency * x.heating.hotWaterSystemEfficiency * singleMJ)) := by
      intro m
      have dm : (0:ℝ) ≤ daysInMonth m := by fin_cases m <;> simp [daysInMonth] <;> norm_num
      have h365 : (365 : ℝ) ≠ 0 := by norm_num
      have h365' : (0:ℝ) < 365 := by norm_num
      have e365 : (365.0 : ℝ) = 365 := by norm_num
      have z : (0.0 : ℝ) = 0 := by norm_num
      simp only [hotWaterNeed, kWh2MJ_eq, e365, vdiv_ne _ h365, vdiv_ne _ hk.ne', vdiv_ne _ hd.ne', vdiv_ne _ hs.ne', z, sub_zero]
      simp only [realnum]
      rw [max_eq_left]
      · field_simp
      · exact div_nonneg (div_nonneg (div_nonneg (div_nonneg (mul_nonneg dm hQ) h365'.le) hd.le) hk.le) hs.le
    have ds : ∑ m : Fin 12, (daysInMonth m : ℝ) = 365 := by
      have e12 : ∀ f : Fin 12 → ℝ, ∑ m, f m
          = f 0 + f 1 + f 2 + f 3 + f 4 + f 5 + f 6 + f 7 + f 8 + f 9 + f 10 + f 11 := by
        intro f
        repeat rw [Fin.sum_univ_castSucc]
        rw [Fin.sum_univ_zero, zero_add]; rfl
      rw [e12]
      show (31.0:ℝ) + 28.0 + 31.0 + 30.0 + 31.0 + 30.0 + 31.0 + 31.0 + 30.0 + 31.0 + 30.0 + 31.0 = 365
      norm_num
    rw [Finset.sum_congr rfl (fun m _ => one m), ← Finset.sum_mul, ds]
    field_simp
  by_cases h : x.heating.hotWaterEnergyType = 1
  · refine ⟨hotWaterNeed x, fun _ => 0, ?_, ?_⟩
    · intro m
      constructor <;> simp only [heatedWater, c, decide_eq_true h, cond_true, fin_hotWater, e0]
    · simp only [add_zero]; exact key
  · refine ⟨fun _ => 0, hotWaterNeed x, ?_, ?_⟩
    · intro m
      constructor <;> simp only [heatedWater, c, decide_eq_false h, cond_false, fin_hotWater, e0]
    · simp only [zero_add]; exact key

/-- the factor of the program differs from 3.6 by less than a ten millionth -/
theorem C40_factor : |singleMJ - 3.6| < 1e-7 := by
  unfold singleMJ
  rw [abs_lt]
  norm_num

/-! ## C41: results of the monthly simulation -/

theorem vdiv_dbl (v : Dbl) {r : ℝ} (h : r ≠ 0) : vdiv v (fin r) = v / fin r := by
  unfold vdiv
  rw [fin_lit, fin_ceq, show ceq r (0.0 : ℝ) = false by rw [← Bool.not_eq_true, ceq_real]; norm_num; exact h, cond_false]

/-- C41: for every input the simulation of which is defined, even with infinite or undefined numbers in it, there is one result for
each month, and the thirteen end uses are, in this order: electricity for heating, cooling, interior lights, exterior lights,
fans, pumps, equipment, exterior equipment (never any), hot water; gas for heating, cooling, equipment, hot water.  Figures in
megajoules become kilowatt hours, and all are divided by the floor area; the fan energy is computed per floor area. -/
theorem C41_layout (x : Sim Dbl) (A : ℝ) (hA : x.bldg.floorArea = fin A) (h0 : A ≠ 0) (r : List (Hourly.EndUses Dbl))
    (h : simulate x = some r) :
    ∃ s, stages x = some s ∧ ∃ hl : r.length = 12, ∀ m : Fin 12,
      (r[m.val]'(by omega)) 0 = (hvac x s.needs).v_Qelec_ht m / fin A / fin singleMJ ∧
      (r[m.val]'(by omega)) 1 = (hvac x s.needs).v_Qcl_elec_tot m / fin A / fin singleMJ ∧
      (r[m.val]'(by omega)) 2 = s.l.v_Q_illum_tot m / fin A ∧
      (r[m.val]'(by omega)) 3 = s.l.v_Q_illum_ext_tot m / fin A ∧
      (r[m.val]'(by omega)) 4 = s.needs.v_Qfan_tot m ∧
      (r[m.val]'(by omega)) 5 = pump x s.needs m / fin A / fin singleMJ ∧
      (r[m.val]'(by omega)) 7 = fin 0 ∧
      (r[m.val]'(by omega)) 8 = (heatedWater x).1 m / fin A ∧
      (r[m.val]'(by omega)) 9 = (hvac x s.needs).v_Qgas_ht m / fin A / fin singleMJ ∧
      (r[m.val]'(by omega)) 10 = (hvac x s.needs).v_Qcl_gas_tot m / fin A / fin singleMJ ∧
      (r[m.val]'(by omega)) 12 = (heatedWater x).2 m / fin A := by
  unfold simulate at h
  rw [Option.bind_eq_bind, Option.bind_eq_some_iff] at h
  obtain ⟨s, hs, h⟩ := h
  cases h
  have hk : (kWh2MJ : Dbl) = fin singleMJ := by rw [fin_kWh2MJ, kWh2MJ_eq]
  have hkn : singleMJ ≠ 0 := by unfold singleMJ; norm_num
  have e0 : (0.0 : Dbl) = fin 0 := by rw [fin_lit]; norm_num
  refine ⟨s, hs, by simp [outputGeneration], ?_⟩
  intro m
  have e : ∀ hm, (outputGeneration x (figures x s))[m.val]'hm = monthEndUses x (figures x s) m := by
    intro hm; simp [outputGeneration]
  simp only [e]
  refine ⟨?_, ?_, ?_, ?_, ?_, ?_, ?_, ?_, ?_, ?_, ?_⟩
  · show vdiv (vdiv _ x.bldg.floorArea) kWh2MJ = _
    rw [hA, hk, vdiv_dbl _ h0, vdiv_dbl _ hkn]; rfl
  · show vdiv (vdiv _ x.bldg.floorArea) kWh2MJ = _
    rw [hA, hk, vdiv_dbl _ h0, vdiv_dbl _ hkn]; rfl
  · show vdiv _ x.bldg.floorArea = _
    rw [hA, vdiv_dbl _ h0]; rfl
  · show vdiv _ x.bldg.floorArea = _
    rw [hA, vdiv_dbl _ h0]; rfl
  · rfl
  · show vdiv (vdiv _ x.bldg.floorArea) kWh2MJ = _
    rw [hA, hk, vdiv_dbl _ h0, vdiv_dbl _ hkn]; rfl
  · exact e0
  · show vdiv _ x.bldg.floorArea = _
    rw [hA, vdiv_dbl _ h0]; rfl
  · show vdiv (vdiv _ x.bldg.floorArea) kWh2MJ = _
    rw [hA, hk, vdiv_dbl _ h0, vdiv_dbl _ hkn]; rfl
  · show vdiv (vdiv _ x.bldg.floorArea) kWh2MJ = _
    rw [hA, hk, vdiv_dbl _ h0, vdiv_dbl _ hkn]; rfl
  · show vdiv _ x.bldg.floorArea = _
    rw [hA, vdiv_dbl _ h0]; rfl

/-- C41: equipment, per floor area: the power of occupied and of unoccupied time, by their shares of the hours of the month. -/
theorem C41_equipment (x : Sim ℝ) (hw : WeekWindow x.pop) (r : List (Hourly.EndUses Dbl))
    (hr : simulate (x.map fin) = some r) (m : Fin 12) :
    ∃ hl : m.val < r.length,
      r[m.val] 6 = fin (24 * days m * (x.building.electricApplianceHeatGainOccupied * (windowHours x.pop * windowDays x.pop / 168)
        + x.building.electricApplianceHeatGainUnoccupied * (1 - windowHours x.pop * windowDays x.pop / 168)) / 1000) ∧
      r[m.val] 11 = fin (24 * days m * (x.building.gasApplianceHeatGainOccupied * (windowHours x.pop * windowDays x.pop / 168)
        + x.building.gasApplianceHeatGainUnoccupied * (1 - windowHours x.pop * windowDays x.pop / 168)) / 1000) := by
  unfold simulate at hr
  rw [Option.bind_eq_bind, Option.bind_eq_some_iff] at hr
  obtain ⟨s, hs, hr⟩ := hr
  cases hr
  have hso : s.o = (scheduleAndOccupancy x.pop).map fin := by
    unfold stages at hs
    rw [Option.bind_eq_bind, Option.bind_eq_some_iff] at hs
    obtain ⟨b, -, hs⟩ := hs
    rw [Option.bind_eq_bind, Option.bind_eq_some_iff] at hs
    obtain ⟨a, -, hs⟩ := hs
    rw [Option.bind_eq_bind, Option.bind_eq_some_iff] at hs
    obtain ⟨t, -, hs⟩ := hs
    cases hs
    exact fin_schedule x.pop
  have hl : m.val < (outputGeneration (x.map fin) (figures (x.map fin) s)).length := by simp [outputGeneration]
  have e : (outputGeneration (x.map fin) (figures (x.map fin) s))[m.val]'hl = monthEndUses (x.map fin) (figures (x.map fin) s) m := by
    simp [outputGeneration]
  have key : ∀ a b : ℝ, plugLoad (fin a) (fin b) s.o.frac_hrs_wk_day m
      = fin (24 * days m * (a * (windowHours x.pop * windowDays x.pop / 168)
        + b * (1 - windowHours x.pop * windowDays x.pop / 168)) / 1000) := by
    intro a b
    have hd : (scheduleAndOccupancy x.pop).frac_hrs_wk_day = windowHours x.pop * windowDays x.pop / 168 := by
      obtain ⟨d, n, e, h1, -, -, h2, -⟩ := C29_fractions x.pop hw
      rw [fin_schedule] at h1
      have := fin_inj.mp h1
      rw [this]; linarith
    have hm : (hoursInMonth m : ℝ) = 24 * days m := by
      fin_cases m <;> simp [hoursInMonth, days, monthDays] <;> norm_num
    rw [hso]
    show plugLoad (fin a) (fin b) (fin _) m = _
    rw [fin_plug, fin_inj, plugLoad, hd, hm, vdiv_ne _ (by norm_num)]
    norm_num
  refine ⟨hl, ?_, ?_⟩
  · rw [e]; exact key _ _
  · rw [e]; exact key _ _

/-- C41: the simulation is defined unless a month has no sunlight at all, a window has a shading device that does not exist, or
the level of energy management does not fit an integer. -/
theorem C41_defined (x : Sim ℝ) (h : 0 < windowHours x.pop) :
    simulate (x.map fin) = none ↔ (∃ m, ∀ j, x.weather.mhEgh m j = 0) ∨
      (∃ i, ¬(1 ≤ x.bldg.windowShadingDevice i ∧ x.bldg.windowShadingDevice i < 4)) ∨
      ¬(-2147483649 < x.building.buildingEnergyManagement ∧ x.building.buildingEnergyManagement < 2147483648) := by
  have h1 := C30_dark x.weather x.pop h
  have h2 := C33_codes x.bldg
  have h3 : managementShift (fin x.building.buildingEnergyManagement) = none ↔
      ¬(-2147483649 < x.building.buildingEnergyManagement ∧ x.building.buildingEnergyManagement < 2147483648) := by
    rw [C34_level]
    by_cases hc : -2147483649 < x.building.buildingEnergyManagement ∧ x.building.buildingEnergyManagement < 2147483648
    · simp only [if_pos hc]; simp [hc]
    · simp only [if_neg hc]; simp [hc]
  rw [← h1, ← h2, ← h3]
  unfold simulate stages
  rw [show (x.map fin).weather = x.weather.map fin from rfl, show (x.map fin).pop = x.pop.map fin from rfl,
    show (x.map fin).bldg = x.bldg.map fin from rfl,
    show (x.map fin).building.buildingEnergyManagement = fin x.building.buildingEnergyManagement from rfl]
  cases solarRadiationBreakdown (x.weather.map fin) (scheduleAndOccupancy (x.pop.map fin)) with
  | none => simp
  | some b =>
    cases windowSolarGain (x.bldg.map fin) with
    | none => simp
    | some a =>
      cases managementShift (fin x.building.buildingEnergyManagement) with
      | none => simp
      | some t => simp

/-! ## the hypotheses are met -/

/-- a year with 1200 MJ of heating and 600 MJ of cooling, evenly spread -/
noncomputable def evenNeeds : Needs ℝ :=
  { v_Qfan_tot := fun _ => 1, v_Qneed_ht := fun _ => 100, v_Qneed_cl := fun _ => 50, Qneed_ht_yr := 1200, Qneed_cl_yr := 600 }

theorem sunny_systems : SystemData sunnyOffice := by
  constructor <;> norm_num [sunnyOffice, monthlyOffice, smallOffice]

example : SystemData sunnyOffice ∧ evenNeeds.Qneed_ht_yr + evenNeeds.Qneed_cl_yr ≠ 0 ∧ sunnyOffice.heating.DH_YesNo ≠ 1 ∧
    sunnyOffice.heating.energyType ≠ 1 ∧ sunnyOffice.cooling.DC_YesNo ≠ 1 :=
  ⟨sunny_systems, by norm_num [evenNeeds], by norm_num [sunnyOffice, monthlyOffice, smallOffice],
    by norm_num [sunnyOffice, monthlyOffice, smallOffice], by norm_num [sunnyOffice, monthlyOffice, smallOffice]⟩

/-- the same office on a district network without absorption chillers -/
example : ∃ x : Sim ℝ, SystemData x ∧ x.heating.DH_YesNo = 1 ∧ x.cooling.DC_YesNo = 1 ∧ x.cooling.eta_DC_frac_abs = 0 ∧
    x.cooling.frac_DC_free = 0 :=
  ⟨{ sunnyOffice with heating := { sunnyOffice.heating with DH_YesNo := 1 }, cooling := { sunnyOffice.cooling with DC_YesNo := 1 } },
    by constructor <;> norm_num [sunnyOffice, monthlyOffice, smallOffice], rfl, rfl,
    by norm_num [sunnyOffice, monthlyOffice, smallOffice], by norm_num [sunnyOffice, monthlyOffice, smallOffice]⟩

/-- C39: both pump systems of the office run -/
example : evenNeeds.Qneed_ht_yr = ∑ m, evenNeeds.v_Qneed_ht m ∧ evenNeeds.Qneed_cl_yr = ∑ m, evenNeeds.v_Qneed_cl m ∧
    pumpEnergy sunnyOffice.heating.E_pumps sunnyOffice.heating.pumpControlReduction sunnyOffice.bldg.floorArea ≠ 0 ∧
    pumpEnergy sunnyOffice.cooling.E_pumps sunnyOffice.cooling.pumpControlReduction sunnyOffice.bldg.floorArea ≠ 0 := by
  refine ⟨?_, ?_, ?_, ?_⟩ <;> norm_num [evenNeeds, pumpEnergy, sunnyOffice, monthlyOffice, smallOffice]

/-- C39: heating pumps only -/
example : ∃ x : Sim ℝ, pumpEnergy x.heating.E_pumps x.heating.pumpControlReduction x.bldg.floorArea ≠ 0 ∧
    pumpEnergy x.cooling.E_pumps x.cooling.pumpControlReduction x.bldg.floorArea = 0 ∧
    (∀ m, evenNeeds.v_Qneed_ht m + evenNeeds.v_Qneed_cl m ≠ 0) ∧
    ∑ m, evenNeeds.v_Qneed_ht m / (evenNeeds.v_Qneed_ht m + evenNeeds.v_Qneed_cl m) ≠ 0 ∧
    ∑ m, evenNeeds.v_Qneed_cl m / (evenNeeds.v_Qneed_ht m + evenNeeds.v_Qneed_cl m) ≠ 0 :=
  ⟨{ sunnyOffice with cooling := { sunnyOffice.cooling with E_pumps := 0 } },
    by norm_num [pumpEnergy, sunnyOffice, monthlyOffice, smallOffice], by norm_num [pumpEnergy], by norm_num [evenNeeds],
    by norm_num [evenNeeds], by norm_num [evenNeeds]⟩

/-- C40: ten cubic metres of hot water -/
example : ∃ x : Sim ℝ, 0 < x.heating.hotWaterDistributionEfficiency ∧ 0 < x.heating.hotWaterSystemEfficiency ∧
    0 < x.heating.hotWaterDemand ∧ x.heating.dhw_tsupply ≤ x.heating.dhw_tset ∧ 0 ≤ x.phys.rhoCpWater :=
  ⟨{ sunnyOffice with heating := { sunnyOffice.heating with hotWaterDemand := 10 } }, by
    norm_num [sunnyOffice, monthlyOffice, smallOffice]⟩

/-- C41: the simulation of the sunny office is defined -/
example : ∃ r, simulate (sunnyOffice.map fin) = some r := by
  obtain ⟨s, hs⟩ := sunny_stages
  exact ⟨_, by unfold simulate; rw [hs]; rfl⟩

end ISO.Props
