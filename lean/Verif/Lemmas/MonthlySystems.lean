import Verif.Spec.MonthlySystems
import Verif.Lemmas.MonthlyStages

/-! Helper lemmas: systems, pumps, hot water and output of the monthly model on finite input. -/

namespace ISO.Monthly
open ISO CNum Dbl ISO.Spec

theorem lit_01 : ((0.1 : ℝ)) = 1 / 10 := by norm_num

theorem monthlyHeatShare_ge (Qh Qc : ℝ) : 0 < monthlyHeatShare Qh Qc := lt_of_lt_of_le (by norm_num) (le_max_left _ _)
theorem monthlyCoolShare_ge (Qh Qc : ℝ) : 0 < monthlyCoolShare Qh Qc := lt_of_lt_of_le (by norm_num) (le_max_left _ _)

theorem lossRates_nonneg {x : Sim ℝ} (h : SystemData x) (Qh Qc : ℝ) : 0 ≤ heatLossRate x Qh Qc ∧ 0 ≤ coolLossRate x Qh Qc := by
  have := h.heatLoss; have := h.coolLoss; have := h.waste; have := monthlyHeatShare_ge Qh Qc; have := monthlyCoolShare_ge Qh Qc
  unfold heatLossRate coolLossRate
  constructor <;> positivity

theorem fin_distribution {x : Sim ℝ} (h : SystemData x) {Qh Qc : ℝ} (hT : Qh + Qc ≠ 0) :
    distribution (x.map fin) (fin Qh) (fin Qc)
      = (fin (1 / (1 + heatLossRate x Qh Qc)), fin (1 / (1 + coolLossRate x Qh Qc))) := by
  obtain ⟨r1, r2⟩ := lossRates_nonneg h Qh Qc
  have hT' : Qc + Qh ≠ 0 := by rwa [add_comm]
  have e1 : max (Qh / (Qc + Qh)) 0.1 = monthlyHeatShare Qh Qc := by rw [monthlyHeatShare, max_comm, add_comm Qh]
  have e2 : max (1.0 - monthlyHeatShare Qh Qc) 0.1 = monthlyCoolShare Qh Qc := by
    rw [monthlyCoolShare, max_comm]; norm_num
  have s1 := (monthlyHeatShare_ge Qh Qc).ne'
  have s2 := (monthlyCoolShare_ge Qh Qc).ne'
  unfold distribution
  simp only [Sim.map, Heating.map, Cooling.map, fin_lit, fin_add, fin_div _ hT', fin_cmax, cmax_real, e1, fin_sub, e2, fin_div _ s1,
    fin_div _ s2]
  have n1 : (1.0 : ℝ) + x.heating.hvacLossFactor + x.heating.hotcoldWasteFactor / monthlyHeatShare Qh Qc = 1 + heatLossRate x Qh Qc := by
    unfold heatLossRate; norm_num; ring
  have n2 : (1.0 : ℝ) + x.cooling.hvacLossFactor + x.heating.hotcoldWasteFactor / monthlyCoolShare Qh Qc = 1 + coolLossRate x Qh Qc := by
    unfold coolLossRate; norm_num; ring
  rw [n1, n2, fin_div _ (by linarith), fin_div _ (by linarith)]
  norm_num

theorem fin_distributionLoss {need r : ℝ} (h : 0 ≤ r) : distributionLoss (fin need) (fin (1 / (1 + r))) = fin (need * r) := by
  have hne : (1:ℝ) + r ≠ 0 := by linarith
  have hne' : 1 / (1 + r) ≠ 0 := div_ne_zero one_ne_zero hne
  unfold distributionLoss
  rw [fin_lit, fin_sub, fin_mul, fin_vdiv, vdiv_ne _ hne', fin_inj]
  norm_num
  field_simp
  ring

theorem fin_pumpYear (E r A : ℝ) : pumpYear (fin E) (fin r) (fin A) = fin (pumpEnergy E r A) := by
  simp only [pumpYear, dblfin]
  rw [fin_inj, vsum_real, ← Finset.sum_mul, pumpEnergy]
  have : (∑ m : Fin 12, (megasecondsInMonth m : ℝ)) = 31.536 := by
    have e12 : ∀ f : Fin 12 → ℝ, ∑ m, f m
        = f 0 + f 1 + f 2 + f 3 + f 4 + f 5 + f 6 + f 7 + f 8 + f 9 + f 10 + f 11 := by
      intro f
      repeat rw [Fin.sum_univ_castSucc]
      rw [Fin.sum_univ_zero, zero_add]
      rfl
    rw [e12]
    simp only [mega_eq, megaseconds]
    norm_num [days, monthDays]
  rw [this]

theorem fin_spread (f : Fin 12 → ℝ) (t : ℝ) (m : Fin 12) :
    spread (fun m => fin (f m)) (fin t) m = fin (spread f t m) := by
  simp only [spread, dblfin]

theorem spread_sum {f : Fin 12 → ℝ} (t : ℝ) (h : ∑ m, f m ≠ 0) : ∑ m, spread f t m = t := by
  simp only [spread, vsum_real, vdiv_ne _ h]
  rw [← Finset.sum_div, ← Finset.sum_mul, mul_div_assoc, mul_comm, div_mul_cancel₀ _ h]

theorem spread_nonneg {f : Fin 12 → ℝ} {t : ℝ} (ht : 0 ≤ t) (h : ∀ m, 0 ≤ f m) (m : Fin 12) : 0 ≤ spread f t m := by
  unfold spread
  exact vdiv_nonneg (mul_nonneg (h m) ht) (vsum_nonneg h)

theorem fin_pump (x : Sim ℝ) (n : Needs ℝ) (m : Fin 12) : pump (x.map fin) (n.map fin) m = fin (pump x n m) := by
  have e1 : pumpYear (x.map fin).heating.E_pumps (x.map fin).heating.pumpControlReduction (x.map fin).bldg.floorArea
      = fin (pumpYear x.heating.E_pumps x.heating.pumpControlReduction x.bldg.floorArea) := by
    simp only [pumpYear, Sim.map, Heating.map, Structure.map, dblfin]
  have e2 : pumpYear (x.map fin).cooling.E_pumps (x.map fin).cooling.pumpControlReduction (x.map fin).bldg.floorArea
      = fin (pumpYear x.cooling.E_pumps x.cooling.pumpControlReduction x.bldg.floorArea) := by
    simp only [pumpYear, Sim.map, Cooling.map, Structure.map, dblfin]
  unfold pump
  simp only [e1, e2, Needs.map, fin_add, fin_vdiv]
  rw [fin_lit, fin_ceq, fin_ceq]
  cases ceq (pumpYear x.heating.E_pumps x.heating.pumpControlReduction x.bldg.floorArea) 0.0 ||
    ceq (pumpYear x.cooling.E_pumps x.cooling.pumpControlReduction x.bldg.floorArea) 0.0 with
  | true => simp only [cond_true, fin_spread, fin_add]
  | false => simp only [cond_false, fin_spread]

theorem fin_hotWater (x : Sim ℝ) (m : Fin 12) : hotWaterNeed (x.map fin) m = fin (hotWaterNeed x m) := by
  simp only [hotWaterNeed, Sim.map, Heating.map, PhysicalQuantities.map, dblfin]

theorem kWh2MJ_eq : (kWh2MJ : ℝ) = singleMJ := by unfold kWh2MJ singleMJ; norm_num

theorem fin_plug (a b f : ℝ) (m : Fin 12) : plugLoad (fin a) (fin b) (fin f) m = fin (plugLoad a b f m) := by
  simp only [plugLoad, dblfin]

/-- figures that are all finite -/
theorem fin_monthEndUses (x : Sim ℝ) (f : Figures ℝ) (m : Fin 12) (k : Fin 13) :
    monthEndUses (x.map fin) (f.map fin) m k = fin (monthEndUses x f m k) := by
  have h0 : (0.0 : Dbl) = fin 0.0 := fin_lit _ _ _
  fin_cases k <;>
    simp only [monthEndUses, Sim.map, Structure.map, Building.map, Figures.map, dblfin, fin_plug] <;> rfl

end ISO.Monthly
