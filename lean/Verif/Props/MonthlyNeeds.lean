import Verif.Lemmas.Utilisation
import Verif.Props.MonthlyVentilation

/-! # C36, C37: utilisation of gains, and the heating and cooling needs of the monthly model -/

namespace ISO.Props
open ISO ISO.Monthly ISO.Spec Dbl CNum

/-- C36: for a positive ratio other than one the program computes the utilisation factor of the standard; it lies strictly
between 0 and 1 and below the reciprocal of the ratio. -/
theorem C36_factor (a γ : ℝ) (ha : 0 < a) (hγ : 0 < γ) (h1 : γ ≠ 1) :
    etaHeating (fin a) (fin γ) = fin (utilisation a γ) ∧ etaCooling (fin a) (fin γ) = fin (utilisation a γ) ∧
      0 < utilisation a γ ∧ utilisation a γ < 1 ∧ utilisation a γ < 1 / γ := by
  obtain ⟨h2, h3, h4⟩ := util_bounds ha hγ h1
  refine ⟨(fin_eta ha hγ h1).1, (fin_eta ha hγ h1).2, h2, h3, ?_⟩
  rw [lt_div_iff₀ hγ, mul_comm]; exact h4

/-- C36: the heating need of a month with positive gain and loss lies between the loss minus the gain and the loss, and is not
negative (up to the smallest positive double, which the program adds to avoid dividing by zero). -/
theorem C36_heating (a gain loss : ℝ) (ha : 0 < a) (hg : 0 < gain) (hl : 0 < loss) (h : gain ≠ loss + dblMin) :
    ∃ q, heatingNeed (fin a) (fin gain) (fin loss) = fin q ∧ -dblMin < q ∧ loss - gain < q ∧ q < loss := by
  have hL : 0 < loss + dblMin := add_pos hl dblMin_pos
  refine ⟨_, fin_heatingNeed ha hg hL h, ?_⟩
  obtain ⟨h1, h2, h3⟩ := need_bounds ha hg hL h
  exact ⟨by linarith, by linarith, by linarith⟩

/-- C36: the cooling need of a month with positive gain and loss lies between the gain minus the loss and the gain, and is not
negative up to the smallest positive double. -/
theorem C36_cooling (a gain loss : ℝ) (ha : 0 < a) (hg : 0 < gain) (hl : 0 < loss) (h : loss ≠ gain + dblMin) :
    ∃ q, coolingNeed (fin a) (fin gain) (fin loss) = fin q ∧ -dblMin < q ∧ gain - loss < q ∧ q < gain := by
  have hG : 0 < gain + dblMin := add_pos hg dblMin_pos
  refine ⟨_, fin_coolingNeed ha hl hG h, ?_⟩
  obtain ⟨h1, h2, h3⟩ := need_bounds ha hl hG h
  exact ⟨by linarith, by linarith, by linarith⟩

/-- C36: in a month without heat loss (warmer outside) the cooling need is the gain plus the heat coming in. -/
theorem C36_warm (a gain loss : ℝ) (hg : 0 < gain) (hl : loss ≤ 0) :
    coolingNeed (fin a) (fin gain) (fin loss) = fin (gain - loss) := by
  have hG : 0 < gain + dblMin := add_pos hg dblMin_pos
  unfold coolingNeed etaCooling
  rw [fin_dblMin, fin_add, fin_vdiv, vdiv_ne _ hG.ne', fin_lit, fin_clt]
  have hc : clt (0.0 : ℝ) (loss / (gain + dblMin)) = false := by
    rw [clt_real_false, zero_lit_real]
    exact div_nonpos_of_nonpos_of_nonneg hl hG.le
  have e1 : ((1.0 : Dbl)) = fin 1 := by rw [fin_lit]; norm_num
  simp only [OfScientific.ofScientific] at hc e1 ⊢
  rw [hc, cond_false, e1, fin_mul, fin_sub, one_mul]

/-- C36: in a month with no gains at all the heating need is the loss. -/
theorem C36_noGain (a loss : ℝ) (hl : 0 < loss) : heatingNeed (fin a) (fin 0) (fin loss) = fin loss := by
  have hL : 0 < loss + dblMin := add_pos hl dblMin_pos
  unfold heatingNeed etaHeating
  rw [fin_dblMin, fin_add, fin_vdiv, vdiv_ne _ hL.ne', zero_div, fin_lit, fin_clt]
  have hc : clt (0.0 : ℝ) 0 = false := by rw [clt_real_false, zero_lit_real]
  have e1 : ((1.0 : Dbl)) = fin 1 := by rw [fin_lit]; norm_num
  simp only [OfScientific.ofScientific] at hc e1 ⊢
  rw [hc, cond_false, e1, fin_add, fin_div _ (by rw [zero_add]; exact dblMin_pos.ne'), fin_mul, fin_sub, mul_zero, sub_zero]

theorem opposite_algebra (gain loss δ : ℝ) (hL : loss + δ ≠ 0) (hd : gain + δ * (loss + δ) ≠ 0) :
    loss - 1 / (gain / (loss + δ) + δ) * gain = δ * ((loss + δ) ^ 2 / (gain + δ * (loss + δ)) - 1) := by
  obtain ⟨L, rfl⟩ : ∃ L, loss = L - δ := ⟨loss + δ, by ring⟩
  rw [sub_add_cancel] at *
  rw [show gain / L + δ = (gain + δ * L) / L by field_simp, one_div_div]
  obtain ⟨q, rfl⟩ : ∃ q, gain = q - δ * L := ⟨gain + δ * L, by ring⟩
  rw [sub_add_cancel] at *
  field_simp
  ring

/-- the heating need when gain and loss have opposite signs -/
theorem opposite_signs (a gain loss : ℝ) (hL : loss + dblMin ≠ 0) (hs : gain / (loss + dblMin) < 0)
    (hd : gain + dblMin * (loss + dblMin) ≠ 0) :
    heatingNeed (fin a) (fin gain) (fin loss)
      = fin (dblMin * ((loss + dblMin) ^ 2 / (gain + dblMin * (loss + dblMin)) - 1)) := by
  have hne : gain / (loss + dblMin) + dblMin ≠ 0 := by
    intro h
    apply hd
    field_simp at h
    linarith
  have hg : gain ≠ 0 := by rintro rfl; rw [zero_div] at hs; exact lt_irrefl _ hs
  unfold heatingNeed etaHeating
  rw [fin_dblMin, fin_add, fin_vdiv, vdiv_ne _ hL, fin_lit, fin_clt]
  have hc : clt (0.0 : ℝ) (gain / (loss + dblMin)) = false := by rw [clt_real_false, zero_lit_real]; exact hs.le
  have e1 : ((1.0 : Dbl)) = fin 1 := by rw [fin_lit]; norm_num
  simp only [OfScientific.ofScientific] at hc e1 ⊢
  rw [hc, cond_false, e1, fin_add, fin_div _ hne, fin_mul, fin_sub, fin_inj]
  exact opposite_algebra gain _ _ hL hd

/-- C36: in a month without heat loss there is no heating need (up to a multiple of the smallest positive double). -/
theorem C36_warmHeating (a gain loss : ℝ) (hg : 1 ≤ gain) (hl : loss < -dblMin) (hsmall : -1000000000 ≤ loss) :
    ∃ q, heatingNeed (fin a) (fin gain) (fin loss) = fin q ∧ |q| ≤ dblMin * (2 * loss ^ 2 + 1) := by
  have hp := dblMin_pos
  have hp1 : (dblMin : ℝ) < 0.0000000001 := dblMin_lt
  norm_num at hp1
  have hL : loss + dblMin < 0 := by linarith
  have hden : 1 / 2 ≤ gain + dblMin * (loss + dblMin) := by nlinarith
  refine ⟨_, opposite_signs a gain loss hL.ne (div_neg_of_pos_of_neg (by linarith) hL) (by linarith), ?_⟩
  rw [abs_mul, abs_of_pos hp]
  apply mul_le_mul_of_nonneg_left _ hp.le
  have hsq : (loss + dblMin) ^ 2 ≤ loss ^ 2 := by nlinarith
  have hq : (loss + dblMin) ^ 2 / (gain + dblMin * (loss + dblMin)) ≤ 2 * loss ^ 2 := by
    rw [div_le_iff₀ (by linarith)]
    nlinarith [sq_nonneg loss]
  have hq0 : 0 ≤ (loss + dblMin) ^ 2 / (gain + dblMin * (loss + dblMin)) := by
    apply div_nonneg (sq_nonneg _); linarith
  rw [abs_le]
  constructor <;> nlinarith [sq_nonneg loss]

/-- C36, a disagreement: in a cold month whose gains are negative (radiation to the sky exceeds all gains) the heating need
vanishes instead of being the loss plus the missing heat. -/
theorem C36_negativeGain (a gain loss : ℝ) (hg : gain ≤ -1) (hl : 0 < loss) (hsmall : loss ≤ 1000000000) :
    ∃ q, heatingNeed (fin a) (fin gain) (fin loss) = fin q ∧ q ≤ 0 := by
  have hp := dblMin_pos
  have hp1 : (dblMin : ℝ) < 0.0000000001 := dblMin_lt
  norm_num at hp1
  have hL : 0 < loss + dblMin := by linarith
  have hden : gain + dblMin * (loss + dblMin) < 0 := by nlinarith
  refine ⟨_, opposite_signs a gain loss hL.ne' (div_neg_of_neg_of_pos (by linarith) hL) hden.ne, ?_⟩
  apply mul_nonpos_of_nonneg_of_nonpos hp.le
  have : (loss + dblMin) ^ 2 / (gain + dblMin * (loss + dblMin)) ≤ 0 := div_nonpos_of_nonneg_of_nonpos (sq_nonneg _) hden.le
  linarith

/-- C36, a disagreement: at a ratio of exactly one the factors and the needs are not numbers. -/
theorem C36_one (a : ℝ) : etaHeating (fin a) (fin 1) = nan ∧ etaCooling (fin a) (fin 1) = nan ∧
    (∀ gain loss : ℝ, loss + dblMin ≠ 0 → gain = loss + dblMin → heatingNeed (fin a) (fin gain) (fin loss) = nan) ∧
    (∀ gain loss : ℝ, gain + dblMin ≠ 0 → loss = gain + dblMin → coolingNeed (fin a) (fin gain) (fin loss) = nan) := by
  have e1 : ((1.0 : Dbl)) = fin 1 := by rw [fin_lit]; norm_num
  have key : (1.0 - cpow (fin 1) (fin a)) / (1.0 - cpow (fin 1) (fin a + 1.0)) = nan := by
    rw [fin_lit, fin_add, fin_cpow _ one_pos, fin_cpow _ one_pos, fin_sub, fin_sub, cpow_real, cpow_real, Real.one_rpow,
      Real.one_rpow]
    norm_num [zero_div_zero]
  have hc : clt (0.0 : Dbl) (fin 1) = true := by
    rw [fin_lit, fin_clt, clt_real]; norm_num
  have h1 : etaHeating (fin a) (fin 1) = nan := by unfold etaHeating; rw [hc]; exact key
  have h2 : etaCooling (fin a) (fin 1) = nan := by unfold etaCooling; rw [hc]; exact key
  refine ⟨h1, h2, ?_, ?_⟩
  · intro gain loss hL hg
    unfold heatingNeed
    rw [fin_dblMin, fin_add, fin_vdiv, vdiv_ne _ hL, hg, div_self hL, h1, nan_mul, sub_nan]
  · intro gain loss hL hg
    unfold coolingNeed
    rw [fin_dblMin, fin_add, fin_vdiv, vdiv_ne _ hL, hg, div_self hL, h2, nan_mul, sub_nan]

/-- gains, losses and needs of a month of the simulation -/
theorem simulation_needs (x : Sim ℝ) (h : TempData x) (hv : VentilationData x) (h0 : x.heating.tau_H0 ≠ 0)
    (s : Stages Dbl) (hs : stages (x.map fin) = some s) (m : Fin 12) :
    ∃ Φ E Th Tc H H' : ℝ, s.phi_I_tot = fin Φ ∧ s.v_E_sol m = fin E ∧ s.v_Th_avg m = fin Th ∧ s.v_Tc_avg m = fin Tc ∧
      s.v_Hve_ht m = fin H ∧ s.v_Hve_cl m = fin H' ∧
      ∀ gain lossHeating lossCooling : ℝ,
        gain = megaseconds m * Φ + E →
        lossHeating = megaseconds m * (Th - x.weather.mdbt m)
          * (∑ i, (x.bldg.wallArea i * x.bldg.wallUniform i + x.bldg.windowArea i * x.bldg.windowUniform i)
            + H * x.bldg.floorArea) →
        lossCooling = megaseconds m * (Tc - x.weather.mdbt m)
          * (∑ i, (x.bldg.wallArea i * x.bldg.wallUniform i + x.bldg.windowArea i * x.bldg.windowUniform i)
            + H' * x.bldg.floorArea) →
        s.needs.v_Qneed_ht m = heatingNeed (fin (x.heating.a_H0 + buildingTau x / x.heating.tau_H0)) (fin gain) (fin lossHeating) ∧
        s.needs.v_Qneed_cl m = coolingNeed (fin (x.heating.a_H0 + buildingTau x / x.heating.tau_H0)) (fin gain) (fin lossCooling) := by
  have hf : FlowData x := ⟨hv.floorArea.ne', hv.zone, hv.stackExp, hv.windBase, hv.windExp, fun _ _ => hv.unoccupied.ne'⟩
  obtain ⟨b, a, t, hb, ha', ht, rfl⟩ := stages_parts h hs
  obtain ⟨eo, -, -, eH, es, -, ei, -, eh, ec⟩ := fin_stages h b a t
  obtain ⟨e1, e2⟩ := fin_flows h hf b a t
  refine ⟨(stagesWith x b a t).phi_I_tot, (stagesWith x b a t).v_E_sol m, (stagesWith x b a t).v_Th_avg m,
    (stagesWith x b a t).v_Tc_avg m, (stagesWith x b a t).v_Hve_ht m, (stagesWith x b a t).v_Hve_cl m, ei, by rw [es], by rw [eh],
    by rw [ec], by rw [e1], by rw [e2], ?_⟩
  intro gain lh lc hgain hlh hlc
  have n1 : ∀ s : Sim Dbl, ∀ b a t, (stagesWith s b a t).needs.v_Qneed_ht m
      = heatingNeed (s.heating.a_H0 + timeConstant s (stagesWith s b a t).H_tr / s.heating.tau_H0)
        (monthlyGain (stagesWith s b a t).phi_I_tot (stagesWith s b a t).v_E_sol m)
        (heatLossHeating s (stagesWith s b a t).H_tr (stagesWith s b a t).v_Th_avg (stagesWith s b a t).v_Hve_ht m) :=
    fun _ _ _ _ => rfl
  have n2 : ∀ s : Sim Dbl, ∀ b a t, (stagesWith s b a t).needs.v_Qneed_cl m
      = coolingNeed (s.heating.a_H0 + timeConstant s (stagesWith s b a t).H_tr / s.heating.tau_H0)
        (monthlyGain (stagesWith s b a t).phi_I_tot (stagesWith s b a t).v_E_sol m)
        (heatLossCooling s (stagesWith s b a t).H_tr (stagesWith s b a t).v_Tc_avg (stagesWith s b a t).v_Hve_cl m) :=
    fun _ _ _ _ => rfl
  have hH : (stagesWith x b a t).H_tr = envelopCalculations x.bldg := rfl
  have eA : (x.map fin).heating.a_H0 + timeConstant (x.map fin) (fin (stagesWith x b a t).H_tr) / (x.map fin).heating.tau_H0
      = fin (x.heating.a_H0 + buildingTau x / x.heating.tau_H0) := by
    rw [hH, fin_timeConstant (loss_ne h), tau_eq]
    show fin _ + fin _ / fin _ = _
    rw [fin_div _ h0, fin_add]
  have eG : monthlyGain (fin (stagesWith x b a t).phi_I_tot) (fun m => fin ((stagesWith x b a t).v_E_sol m)) m = fin gain := by
    rw [hgain, ← mega_eq]
    simp only [monthlyGain, dblfin]
  have eLh : heatLossHeating (x.map fin) (fin (stagesWith x b a t).H_tr) (fun m => fin ((stagesWith x b a t).v_Th_avg m))
      (fun m => fin ((stagesWith x b a t).v_Hve_ht m)) m = fin lh := by
    rw [hlh, ← mega_eq, ← envelope_real, hH]
    simp only [heatLossHeating, Sim.map, WeatherData.map, Structure.map, dblfin]
    rw [fin_inj]
    ring
  have eLc : heatLossCooling (x.map fin) (fin (stagesWith x b a t).H_tr) (fun m => fin ((stagesWith x b a t).v_Tc_avg m))
      (fun m => fin ((stagesWith x b a t).v_Hve_cl m)) m = fin lc := by
    rw [hlc, ← mega_eq, ← envelope_real, hH]
    simp only [heatLossCooling, Sim.map, WeatherData.map, Structure.map, dblfin]
    rw [fin_inj]
    ring
  rw [n1, n2, eH, ei, es, eh, ec, e1, e2, eA, eG, eLh, eLc]
  exact ⟨rfl, rfl⟩

/-- C36 in the simulation: gains, losses and needs of a month. -/
theorem C36_simulation (x : Sim ℝ) (h : TempData x) (hv : VentilationData x) (h0 : x.heating.tau_H0 ≠ 0)
    (ha : 0 < x.heating.a_H0 + buildingTau x / x.heating.tau_H0)
    (s : Stages Dbl) (hs : stages (x.map fin) = some s) (m : Fin 12) :
    ∃ Φ E Th Tc H H' : ℝ, s.phi_I_tot = fin Φ ∧ s.v_E_sol m = fin E ∧ s.v_Th_avg m = fin Th ∧ s.v_Tc_avg m = fin Tc ∧
      s.v_Hve_ht m = fin H ∧ s.v_Hve_cl m = fin H' ∧
      ∀ gain lossHeating lossCooling : ℝ,
        gain = megaseconds m * Φ + E →
        lossHeating = megaseconds m * (Th - x.weather.mdbt m)
          * (∑ i, (x.bldg.wallArea i * x.bldg.wallUniform i + x.bldg.windowArea i * x.bldg.windowUniform i)
            + H * x.bldg.floorArea) →
        lossCooling = megaseconds m * (Tc - x.weather.mdbt m)
          * (∑ i, (x.bldg.wallArea i * x.bldg.wallUniform i + x.bldg.windowArea i * x.bldg.windowUniform i)
            + H' * x.bldg.floorArea) →
        (0 < gain → 0 < lossHeating → gain ≠ lossHeating + dblMin →
          ∃ q, s.needs.v_Qneed_ht m = fin q ∧ -dblMin < q ∧ lossHeating - gain < q ∧ q < lossHeating) ∧
        (0 < gain → 0 < lossCooling → lossCooling ≠ gain + dblMin →
          ∃ q, s.needs.v_Qneed_cl m = fin q ∧ -dblMin < q ∧ gain - lossCooling < q ∧ q < gain) ∧
        (0 < gain → lossCooling ≤ 0 → s.needs.v_Qneed_cl m = fin (gain - lossCooling)) := by
  obtain ⟨Φ, E, Th, Tc, H, H', e1, e2, e3, e4, e5, e6, hN⟩ := simulation_needs x h hv h0 s hs m
  refine ⟨Φ, E, Th, Tc, H, H', e1, e2, e3, e4, e5, e6, fun gain lh lc hg hh hc => ?_⟩
  obtain ⟨n1, n2⟩ := hN gain lh lc hg hh hc
  rw [n1, n2]
  exact ⟨fun p q r => C36_heating _ _ _ ha p q r, fun p q r => C36_cooling _ _ _ ha p q r, fun p q => C36_warm _ _ _ p q⟩

/-! ## C37 -/

/-- C37: more gains, strictly less heating need and strictly more cooling need. -/
theorem C37_gains (a gain gain' loss : ℝ) (ha : 0 < a) (hg : 0 < gain) (hl : 0 < loss) (hgg : gain < gain') :
    (gain ≠ loss + dblMin → gain' ≠ loss + dblMin →
      ∃ q q', heatingNeed (fin a) (fin gain) (fin loss) = fin q ∧ heatingNeed (fin a) (fin gain') (fin loss) = fin q' ∧ q' < q) ∧
    (loss ≠ gain + dblMin → loss ≠ gain' + dblMin →
      ∃ q q', coolingNeed (fin a) (fin gain) (fin loss) = fin q ∧ coolingNeed (fin a) (fin gain') (fin loss) = fin q' ∧ q < q') := by
  have hp := dblMin_pos
  constructor
  · intro h h'
    exact ⟨_, _, fin_heatingNeed ha hg (by linarith) h, fin_heatingNeed ha (hg.trans hgg) (by linarith) h',
      by linarith [need_mono_gain ha hg (by linarith : 0 < loss + dblMin) h h' hgg]⟩
  · intro h h'
    exact ⟨_, _, fin_coolingNeed ha hl (by linarith) h, fin_coolingNeed ha hl (by linarith) h',
      by linarith [need_mono_loss ha hl (by linarith : 0 < gain + dblMin) h h' (by linarith : gain + dblMin < gain' + dblMin)]⟩

/-- C37: more losses, strictly more heating need and strictly less cooling need. -/
theorem C37_losses (a gain loss loss' : ℝ) (ha : 0 < a) (hg : 0 < gain) (hl : 0 < loss) (hll : loss < loss') :
    (gain ≠ loss + dblMin → gain ≠ loss' + dblMin →
      ∃ q q', heatingNeed (fin a) (fin gain) (fin loss) = fin q ∧ heatingNeed (fin a) (fin gain) (fin loss') = fin q' ∧ q < q') ∧
    (loss ≠ gain + dblMin → loss' ≠ gain + dblMin →
      ∃ q q', coolingNeed (fin a) (fin gain) (fin loss) = fin q ∧ coolingNeed (fin a) (fin gain) (fin loss') = fin q' ∧ q' < q) := by
  have hp := dblMin_pos
  constructor
  · intro h h'
    exact ⟨_, _, fin_heatingNeed ha hg (by linarith) h, fin_heatingNeed ha hg (by linarith) h',
      by linarith [need_mono_loss ha hg (by linarith : 0 < loss + dblMin) h h' (by linarith : loss + dblMin < loss' + dblMin)]⟩
  · intro h h'
    exact ⟨_, _, fin_coolingNeed ha hl (by linarith) h, fin_coolingNeed ha (hl.trans hll) (by linarith) h',
      by linarith [need_mono_gain ha hl (by linarith : 0 < gain + dblMin) h h' hll]⟩

/-- C37: more thermal inertia, strictly less heating and cooling need. -/
theorem C37_inertia (a b gain loss : ℝ) (ha : 0 < a) (hab : a < b) (hg : 0 < gain) (hl : 0 < loss) :
    (gain ≠ loss + dblMin →
      ∃ q q', heatingNeed (fin a) (fin gain) (fin loss) = fin q ∧ heatingNeed (fin b) (fin gain) (fin loss) = fin q' ∧ q' < q) ∧
    (loss ≠ gain + dblMin →
      ∃ q q', coolingNeed (fin a) (fin gain) (fin loss) = fin q ∧ coolingNeed (fin b) (fin gain) (fin loss) = fin q' ∧ q' < q) := by
  have hp := dblMin_pos
  constructor
  · intro h
    exact ⟨_, _, fin_heatingNeed ha hg (by linarith) h, fin_heatingNeed (ha.trans hab) hg (by linarith) h,
      by linarith [need_mono_inertia ha hab hg (by linarith : 0 < loss + dblMin) h]⟩
  · intro h
    exact ⟨_, _, fin_coolingNeed ha hl (by linarith) h, fin_coolingNeed (ha.trans hab) hl (by linarith) h,
      by linarith [need_mono_inertia ha hab hl (by linarith : 0 < gain + dblMin) h]⟩

open Filter Topology in
/-- C37: next to the ratio one, the factor the program computes tends to a/(a+1), the value of the standard there (at one
itself see `C36_one`). -/
theorem C37_limit (a : ℝ) (ha : 0 < a) :
    ∃ η : ℝ → ℝ, (∀ γ, 0 < γ → γ ≠ 1 → etaHeating (fin a) (fin γ) = fin (η γ) ∧ etaCooling (fin a) (fin γ) = fin (η γ)) ∧
      Tendsto η (𝓝[≠] 1) (𝓝 (a / (a + 1))) ∧ utilisation a 1 = a / (a + 1) := by
  refine ⟨fun γ => (1 - γ ^ a) / (1 - γ ^ (a + 1)), ?_, util_tendsto ha, if_pos rfl⟩
  intro γ hγ h1
  have := fin_eta ha hγ h1
  unfold utilisation at this
  rw [if_neg h1] at this
  exact this

/-- hypotheses of C36 and C37: a gain of 300 MJ against a loss of 500 MJ (and of 600 MJ), inertia parameters 2 and 3 -/
example : (0:ℝ) < 2 ∧ (2:ℝ) < 3 ∧ (0:ℝ) < 300 ∧ (0:ℝ) < 500 ∧ (500:ℝ) < 600 ∧ (300:ℝ) ≠ 500 + dblMin ∧ (500:ℝ) ≠ 300 + dblMin := by
  have h1 := dblMin_pos
  have h2 : (dblMin : ℝ) < 0.0000000001 := dblMin_lt
  norm_num at h2
  norm_num
  constructor
  · intro h; linarith
  · intro h; linarith
example : sunnyOffice.heating.tau_H0 ≠ 0 ∧ 0 < sunnyOffice.heating.a_H0 + buildingTau sunnyOffice / sunnyOffice.heating.tau_H0 := by
  have : 0 < buildingTau sunnyOffice := by
    unfold buildingTau
    rw [sum9, sum9]
    norm_num [sunnyOffice, monthlyOffice, smallOffice, nineOf]
  constructor
  · norm_num [sunnyOffice, monthlyOffice, smallOffice]
  · apply add_pos
    · norm_num [sunnyOffice, monthlyOffice, smallOffice]
    · apply div_pos this
      norm_num [sunnyOffice, monthlyOffice, smallOffice]

end ISO.Props
