import Verif.Spec.Site
import Verif.Model.Monthly
import Verif.Model.HourlyRun
import Verif.Num.Lemmas

/-! # Lemmas for C81: what a month and an hour take from the weather -/

namespace ISO.Lemmas.WeatherTime
open ISO ISO.Spec Dbl CNum

section monthly
open Monthly
variable {α : Type} [CNum α] [OfInt α]

/-- averages of the weather that are the same in one month -/
structure SameMonth (m : Fin 12) (w w' : WeatherData α) : Prop where
  mdbt : w'.mdbt m = w.mdbt m
  mwind : w'.mwind m = w.mwind m
  mEgh : w'.mEgh m = w.mEgh m
  mhdbt : w'.mhdbt m = w.mhdbt m
  mhEgh : w'.mhEgh m = w.mhEgh m
  msolar : w'.msolar m = w.msolar m

/-- the needs of a month follow from the weather of the month -/
theorem month_needs (x : Sim α) (w' : WeatherData α) (m : Fin 12) (e : SameMonth m x.weather w') (a : SolarAreas α) (T : α) (t t' : Fin 12 → α) :
    (stagesWith { x with weather := w' } (radiationFractions w' (scheduleAndOccupancy x.pop) t') a T).needs.v_Qneed_ht m =
      (stagesWith x (radiationFractions x.weather (scheduleAndOccupancy x.pop) t) a T).needs.v_Qneed_ht m ∧
    (stagesWith { x with weather := w' } (radiationFractions w' (scheduleAndOccupancy x.pop) t') a T).needs.v_Qneed_cl m =
      (stagesWith x (radiationFractions x.weather (scheduleAndOccupancy x.pop) t) a T).needs.v_Qneed_cl m ∧
    (stagesWith { x with weather := w' } (radiationFractions w' (scheduleAndOccupancy x.pop) t') a T).needs.v_Qfan_tot m =
      (stagesWith x (radiationFractions x.weather (scheduleAndOccupancy x.pop) t) a T).needs.v_Qfan_tot m := by
  obtain ⟨e1, e2, e3, e4, e5, e6⟩ := e
  have hi : irradiance w' m = irradiance x.weather m := by unfold irradiance; rw [e3, e6]
  have hsol : ∀ s : Structure α, solarHeatGain s w' a m = solarHeatGain s x.weather a m := by
    intro s
    unfold solarHeatGain windowGain wallGain
    rw [hi]
  have hb1 : ∀ o : Occupancy α, (radiationFractions w' o t').v_Tdbt_nt m = (radiationFractions x.weather o t).v_Tdbt_nt m := by
    intro o; simp only [radiationFractions, e4]
  have hb2 : ∀ o : Occupancy α, (radiationFractions w' o t').v_Tdbt_day m = (radiationFractions x.weather o t).v_Tdbt_day m := by
    intro o; simp only [radiationFractions, e4]
  have hb3 : ∀ o : Occupancy α, (radiationFractions w' o t').frac_Pgh_wk_nt m = (radiationFractions x.weather o t).frac_Pgh_wk_nt m := by
    intro o; simp only [radiationFractions, e5]
  have hb4 : ∀ o : Occupancy α, (radiationFractions w' o t').frac_Pgh_wke_day m = (radiationFractions x.weather o t).frac_Pgh_wke_day m := by
    intro o; simp only [radiationFractions, e5]
  have hb5 : ∀ o : Occupancy α, (radiationFractions w' o t').frac_Pgh_wke_nt m = (radiationFractions x.weather o t).frac_Pgh_wke_nt m := by
    intro o; simp only [radiationFractions, e5]
  generalize hB : radiationFractions w' (scheduleAndOccupancy x.pop) t' = b'
  generalize hB' : radiationFractions x.weather (scheduleAndOccupancy x.pop) t = b
  have c1 : b'.v_Tdbt_nt m = b.v_Tdbt_nt m := by rw [← hB, ← hB']; exact hb1 _
  have c2 : b'.v_Tdbt_day m = b.v_Tdbt_day m := by rw [← hB, ← hB']; exact hb2 _
  have c3 : b'.frac_Pgh_wk_nt m = b.frac_Pgh_wk_nt m := by rw [← hB, ← hB']; exact hb3 _
  have c4 : b'.frac_Pgh_wke_day m = b.frac_Pgh_wke_day m := by rw [← hB, ← hB']; exact hb4 _
  have c5 : b'.frac_Pgh_wke_nt m = b.frac_Pgh_wke_nt m := by rw [← hB, ← hB']; exact hb5 _
  -- gains of the unoccupied periods
  have hg : ∀ (g : InternalGains α) (o : Occupancy α),
      (unoccupiedHeatGain x.bldg g o b' (solarHeatGain x.bldg w' a)).v_P_tot_wk_nt m = (unoccupiedHeatGain x.bldg g o b (solarHeatGain x.bldg x.weather a)).v_P_tot_wk_nt m ∧
      (unoccupiedHeatGain x.bldg g o b' (solarHeatGain x.bldg w' a)).v_P_tot_wke_day m = (unoccupiedHeatGain x.bldg g o b (solarHeatGain x.bldg x.weather a)).v_P_tot_wke_day m ∧
      (unoccupiedHeatGain x.bldg g o b' (solarHeatGain x.bldg w' a)).v_P_tot_wke_nt m = (unoccupiedHeatGain x.bldg g o b (solarHeatGain x.bldg x.weather a)).v_P_tot_wke_nt m := by
    intro g o
    simp only [unoccupiedHeatGain, hsol, c3, c4, c5]
    exact ⟨trivial, trivial, trivial⟩
  have hp : ∀ (g : InternalGains α) (o : Occupancy α) (H : α),
      periods { x with weather := w' } o b' (unoccupiedHeatGain x.bldg g o b' (solarHeatGain x.bldg w' a)) H m =
        periods x o b (unoccupiedHeatGain x.bldg g o b (solarHeatGain x.bldg x.weather a)) H m := by
    intro g o H
    obtain ⟨g1, g2, g3⟩ := hg g o
    unfold periods
    rw [g1, g2, g3, c1, c2]
    rfl
  have hT1 : ∀ (g : InternalGains α) (o : Occupancy α) (H : α),
      (interiorTemp { x with weather := w' } o b' (unoccupiedHeatGain x.bldg g o b' (solarHeatGain x.bldg w' a)) H T).1 m =
        (interiorTemp x o b (unoccupiedHeatGain x.bldg g o b (solarHeatGain x.bldg x.weather a)) H T).1 m := by
    intro g o H
    simp only [interiorTemp, hp]
    rfl
  have hT2 : ∀ (g : InternalGains α) (o : Occupancy α) (H : α),
      (interiorTemp { x with weather := w' } o b' (unoccupiedHeatGain x.bldg g o b' (solarHeatGain x.bldg w' a)) H T).2 m =
        (interiorTemp x o b (unoccupiedHeatGain x.bldg g o b (solarHeatGain x.bldg x.weather a)) H T).2 m := by
    intro g o H
    simp only [interiorTemp, hp]
    rfl
  have hv : ∀ (f : α) (T T' : Fin 12 → α), T' m = T m → ventilationCalc { x with weather := w' } f T' m = ventilationCalc x f T m := by
    intro f T T' hT
    have hs : stackFlow { x with weather := w' } T' m = stackFlow x T m := by
      unfold stackFlow
      simp only [e1, hT]
    have hw : windFlow { x with weather := w' } m = windFlow x m := by
      unfold windFlow
      simp only [e2]
    unfold ventilationCalc infiltration
    rw [hs, hw]
    rfl
  have h1 : ∀ (H : α) (T T' V V' : Fin 12 → α), T' m = T m → V' m = V m →
      heatLossHeating { x with weather := w' } H T' V' m = heatLossHeating x H T V m := by
    intro H T T' V V' hT hV
    unfold heatLossHeating
    simp only [hT, hV, e1]
  have h2 : ∀ (H : α) (T T' V V' : Fin 12 → α), T' m = T m → V' m = V m →
      heatLossCooling { x with weather := w' } H T' V' m = heatLossCooling x H T V m := by
    intro H T T' V V' hT hV
    unfold heatLossCooling
    simp only [hT, hV, e1]
  have hG : ∀ p : α, monthlyGain p (solarHeatGain x.bldg w' a) m = monthlyGain p (solarHeatGain x.bldg x.weather a) m := by
    intro p
    unfold monthlyGain
    rw [hsol]
  have hl : ∀ l l' : Fin 12 → α, heatGainsAndLosses { x with weather := w' } (scheduleAndOccupancy x.pop).frac_hrs_wk_day
      (lightingEnergyUse { x with weather := w' } l') = heatGainsAndLosses x (scheduleAndOccupancy x.pop).frac_hrs_wk_day (lightingEnergyUse x l) :=
    fun _ _ => rfl
  have n1 : (stagesWith { x with weather := w' } b' a T).needs.v_Qneed_ht m = (stagesWith x b a T).needs.v_Qneed_ht m := by
    simp only [stagesWith, heatingAndCooling]
    rw [hl b.v_hrs_sun_down_mo b'.v_hrs_sun_down_mo, hG, h1 _ _ _ _ _ (hT1 _ _ _) (hv _ _ _ (hT1 _ _ _))]
    rfl
  have n2 : (stagesWith { x with weather := w' } b' a T).needs.v_Qneed_cl m = (stagesWith x b a T).needs.v_Qneed_cl m := by
    simp only [stagesWith, heatingAndCooling]
    rw [hl b.v_hrs_sun_down_mo b'.v_hrs_sun_down_mo, hG, h2 _ _ _ _ _ (hT2 _ _ _) (hv _ _ _ (hT2 _ _ _))]
    rfl
  refine ⟨n1, n2, ?_⟩
  show fanUse { x with weather := w' } _ ((stagesWith { x with weather := w' } b' a T).needs.v_Qneed_ht m)
    ((stagesWith { x with weather := w' } b' a T).needs.v_Qneed_cl m) ((stagesWith { x with weather := w' } b' a T).v_Th_avg m)
    ((stagesWith { x with weather := w' } b' a T).v_Tc_avg m) m = fanUse x _ ((stagesWith x b a T).needs.v_Qneed_ht m)
    ((stagesWith x b a T).needs.v_Qneed_cl m) ((stagesWith x b a T).v_Th_avg m) ((stagesWith x b a T).v_Tc_avg m) m
  rw [n1, n2]
  have t1 : (stagesWith { x with weather := w' } b' a T).v_Th_avg m = (stagesWith x b a T).v_Th_avg m := by
    simp only [stagesWith]
    rw [hl b.v_hrs_sun_down_mo b'.v_hrs_sun_down_mo]
    exact hT1 _ _ _
  have t2 : (stagesWith { x with weather := w' } b' a T).v_Tc_avg m = (stagesWith x b a T).v_Tc_avg m := by
    simp only [stagesWith]
    rw [hl b.v_hrs_sun_down_mo b'.v_hrs_sun_down_mo]
    exact hT2 _ _ _
  rw [t1, t2]
  rfl

/-- the hours without sun of a month follow from the weather of the month -/
theorem month_breakdown {x : Sim α} {w' : WeatherData α} {m : Fin 12} (e : SameMonth m x.weather w') {b b' : Breakdown α} {o : Occupancy α}
    (h : solarRadiationBreakdown x.weather o = some b) (h' : solarRadiationBreakdown w' o = some b') :
    ∃ t t', b = radiationFractions x.weather o t ∧ b' = radiationFractions w' o t' ∧ t' m = t m := by
  unfold solarRadiationBreakdown at h h'
  have key : ∀ {w : WeatherData α} {t : Fin 12 → α}, (allMonths fun m => hoursSunDown (w.mhEgh m) m) = some t → hoursSunDown (w.mhEgh m) m = some (t m) := by
    intro w t ht
    unfold allMonths at ht
    split_ifs at ht with hh
    cases ht
    exact (Option.some_get (hh m)).symm
  cases ha : (allMonths fun m => hoursSunDown (x.weather.mhEgh m) m) with
  | none => rw [ha] at h; cases h
  | some t =>
    cases hb : (allMonths fun m => hoursSunDown (w'.mhEgh m) m) with
    | none => rw [hb] at h'; cases h'
    | some t' =>
      rw [ha] at h
      rw [hb] at h'
      cases h
      cases h'
      refine ⟨t, t', rfl, rfl, ?_⟩
      have h1 := key ha
      have h2 := key hb
      rw [e.mhEgh, h1] at h2
      exact (Option.some.inj h2).symm

end monthly

/-! ### equal, or one of them no number -/

/-- equal, or one of them NaN -/
def Alike (a b : Dbl) : Prop := a = b ∨ a = nan ∨ b = nan

theorem Alike.refl (a : Dbl) : Alike a a := .inl rfl

theorem Alike.strict {f g : Dbl → Dbl} (hfg : f = g) (hf : f nan = nan) {a b : Dbl} (h : Alike a b) : Alike (f a) (g b) := by
  subst hfg
  rcases h with rfl | rfl | rfl
  · exact .inl rfl
  · exact .inr (.inl hf)
  · exact .inr (.inr hf)

theorem Alike.add {a b c d : Dbl} (h : Alike a b) (k : Alike c d) : Alike (a + c) (b + d) := by
  rcases h with rfl | rfl | rfl
  · exact k.strict (f := (a + ·)) (g := (a + ·)) rfl (add_nan _)
  · exact .inr (.inl (nan_add _))
  · exact .inr (.inr (nan_add _))

theorem Alike.sub (c : Dbl) {a b : Dbl} (h : Alike a b) : Alike (c - a) (c - b) := h.strict (f := (c - ·)) (g := (c - ·)) rfl (sub_nan _)

theorem Alike.mul {a b c d : Dbl} (h : Alike a b) (k : Alike c d) : Alike (a * c) (b * d) := by
  rcases h with rfl | rfl | rfl
  · exact k.strict (f := (a * ·)) (g := (a * ·)) rfl (mul_nan _)
  · exact .inr (.inl (nan_mul _))
  · exact .inr (.inr (nan_mul _))

theorem Alike.div {a b c d : Dbl} (h : Alike a b) (k : Alike c d) : Alike (a / c) (b / d) := by
  rcases h with rfl | rfl | rfl
  · exact k.strict (f := (a / ·)) (g := (a / ·)) rfl (div_nan _)
  · exact .inr (.inl (nan_div _))
  · exact .inr (.inr (nan_div _))

theorem Alike.vdiv {a b : Dbl} (h : Alike a b) (c : Dbl) : Alike (Monthly.vdiv a c) (Monthly.vdiv b c) := by
  unfold Monthly.vdiv
  cases ceq c 0.0
  · exact h.div (.refl c)
  · exact .refl _

/-- the loss of the distribution -/
theorem Alike.loss (need : Dbl) {a b : Dbl} (h : Alike a b) : Alike (Monthly.distributionLoss need a) (Monthly.distributionLoss need b) := by
  refine h.strict (f := Monthly.distributionLoss need) (g := Monthly.distributionLoss need) rfl ?_
  unfold Monthly.distributionLoss Monthly.vdiv
  rw [sub_nan, mul_nan, nan_div]
  rfl

theorem Alike.sum {l l' : List Dbl} (h : List.Forall₂ Alike l l') : ∀ {a b : Dbl}, Alike a b → Alike (l.foldl (· + ·) a) (l'.foldl (· + ·) b) := by
  induction h with
  | nil => exact fun h => h
  | cons h _ ih => exact fun k => ih (k.add h)

/-- nothing wasted: nothing divided by a share that is a number -/
theorem no_waste {q c : Dbl} (hc : c = fin 0.1) : fin 0 / cmax q c = nan ∨ fin 0 / cmax q c = fin 0 := by
  subst hc
  unfold cmax
  cases q with
  | nan => exact .inl (by simp)
  | pinf => exact .inr rfl
  | ninf =>
    right
    show fin 0 / fin 0.1 = fin 0
    rw [fin_div _ (by norm_num)]
    norm_num
  | fin r =>
    right
    have : cmax (fin r) (fin 0.1) = fin (max r 0.1) := by
      rw [fin_cmax, cmax_real]
    unfold cmax at this
    rw [this, fin_div _ (by have : (0.1 : ℝ) ≤ max r 0.1 := le_max_right _ _; intro h; rw [h] at this; norm_num at this)]
    norm_num

theorem no_waste_alike {w : Dbl} (hw : w = fin 0) (l q q' : Dbl) : Alike (1.0 / (l + w / cmax q 0.1)) (1.0 / (l + w / cmax q' 0.1)) := by
  subst hw
  have h1 : (0.1 : Dbl) = fin 0.1 := by rw [Dbl.fin_lit 1 true 1]
  rcases no_waste (q := q) h1 with h | h <;> rcases no_waste (q := q') h1 with h' | h' <;> rw [h, h']
  · exact .refl _
  · exact .inr (.inl (by rw [add_nan, div_nan]))
  · exact .inr (.inr (by rw [add_nan, div_nan]))
  · exact .refl _

/-- without waste the efficiencies of the year do not depend on the needs -/
theorem monthly_distribution {x : Sim Dbl} (hw : x.heating.hotcoldWasteFactor = fin 0) (a b a' b' : Dbl) :
    Alike (Monthly.distribution x a b).1 (Monthly.distribution x a' b').1 ∧ Alike (Monthly.distribution x a b).2 (Monthly.distribution x a' b').2 :=
  ⟨no_waste_alike hw _ _ _, no_waste_alike hw _ _ _⟩

theorem hourly_distribution {x : Sim Dbl} (hw : x.heating.hotcoldWasteFactor = fin 0) (a b a' b' : Dbl) :
    Alike (Hourly.distribution x a b).1 (Hourly.distribution x a' b').1 ∧ Alike (Hourly.distribution x a b).2 (Hourly.distribution x a' b').2 :=
  ⟨no_waste_alike hw _ _ _, no_waste_alike hw _ _ _⟩

section split
open Monthly

theorem heatingSplit_alike (h : Heating Dbl) (need : Dbl) {l l' : Dbl} (k : Alike l l') :
    Alike (heatingSplit h need l).1 (heatingSplit h need l').1 ∧ Alike (heatingSplit h need l).2 (heatingSplit h need l').2 := by
  unfold heatingSplit
  cases ceq h.DH_YesNo 1.0
  · exact ⟨(k.add (.refl _)).vdiv _, .refl _⟩
  · exact ⟨.refl _, (Alike.refl _).add k⟩

theorem coolingSplit_alike (c : Cooling Dbl) (need : Dbl) {l l' : Dbl} (k : Alike l l') :
    Alike (coolingSplit c need l).1 (coolingSplit c need l').1 ∧ Alike (coolingSplit c need l).2 (coolingSplit c need l').2 := by
  unfold coolingSplit
  cases ceq c.DC_YesNo 1.0
  · exact ⟨(k.add (.refl _)).vdiv _, .refl _⟩
  · exact ⟨.refl _, (Alike.refl _).add k⟩

/-- without waste, heating and cooling of a month follow from the needs of the month -/
theorem hvac_alike {x : Sim Dbl} (hw : x.heating.hotcoldWasteFactor = fin 0) {n n' : Needs Dbl} {m : Fin 12} (h1 : n'.v_Qneed_ht m = n.v_Qneed_ht m)
    (h2 : n'.v_Qneed_cl m = n.v_Qneed_cl m) :
    Alike ((hvac x n').v_Qelec_ht m) ((hvac x n).v_Qelec_ht m) ∧ Alike ((hvac x n').v_Qgas_ht m) ((hvac x n).v_Qgas_ht m) ∧
    Alike ((hvac x n').v_Qcl_elec_tot m) ((hvac x n).v_Qcl_elec_tot m) ∧ Alike ((hvac x n').v_Qcl_gas_tot m) ((hvac x n).v_Qcl_gas_tot m) := by
  obtain ⟨d1, d2⟩ := monthly_distribution hw n'.Qneed_ht_yr n'.Qneed_cl_yr n.Qneed_ht_yr n.Qneed_cl_yr
  obtain ⟨s1, s2⟩ := heatingSplit_alike x.heating (n.v_Qneed_ht m) (d1.loss (n.v_Qneed_ht m))
  obtain ⟨s3, s4⟩ := coolingSplit_alike x.cooling (n.v_Qneed_cl m) (d2.loss (n.v_Qneed_cl m))
  simp only [hvac, h1, h2]
  refine ⟨?_, ?_, s3.add ((s4.mul (.refl _)).vdiv _), (s4.mul (.refl _)).vdiv _⟩
  · cases ceq x.heating.energyType 1.0
    · exact .refl _
    · exact s1
  · cases ceq x.heating.energyType 1.0
    · exact s1.add ((s2.mul (.refl _)).vdiv _)
    · exact (s2.mul (.refl _)).vdiv _

end split

section columns
open Monthly
variable {α : Type} [CNum α] [OfInt α]

section cells
variable (x : Sim α) (f : Figures α) (m : Fin 12)
theorem col0 : monthEndUses x f m 0 = vdiv (vdiv (f.v_Qelec_ht m) x.bldg.floorArea) kWh2MJ := rfl
theorem col1 : monthEndUses x f m 1 = vdiv (vdiv (f.v_Qcl_elec_tot m) x.bldg.floorArea) kWh2MJ := rfl
theorem col2 : monthEndUses x f m 2 = vdiv (f.v_Q_illum_tot m) x.bldg.floorArea := rfl
theorem col3 : monthEndUses x f m 3 = vdiv (f.v_Q_illum_ext_tot m) x.bldg.floorArea := rfl
theorem col4 : monthEndUses x f m 4 = f.v_Qfan_tot m := rfl
theorem col6 : monthEndUses x f m 6 = plugLoad x.building.electricApplianceHeatGainOccupied x.building.electricApplianceHeatGainUnoccupied f.frac_hrs_wk_day m := rfl
theorem col7 : monthEndUses x f m 7 = 0.0 := rfl
theorem col8 : monthEndUses x f m 8 = vdiv (f.v_Q_dhw_elec m) x.bldg.floorArea := rfl
theorem col9 : monthEndUses x f m 9 = vdiv (vdiv (f.v_Qgas_ht m) x.bldg.floorArea) kWh2MJ := rfl
theorem col10 : monthEndUses x f m 10 = vdiv (vdiv (f.v_Qcl_gas_tot m) x.bldg.floorArea) kWh2MJ := rfl
theorem col11 : monthEndUses x f m 11 = plugLoad x.building.gasApplianceHeatGainOccupied x.building.gasApplianceHeatGainUnoccupied f.frac_hrs_wk_day m := rfl
theorem col12 : monthEndUses x f m 12 = vdiv (f.v_Q_dhw_gas m) x.bldg.floorArea := rfl
end cells

/-- the columns that depend on the stages only in the month itself -/
theorem stage_columns (x : Sim α) (w' : WeatherData α) (m : Fin 12) {s s' : Stages α} (h1 : s'.o = s.o) (h2 : s'.l.v_Q_illum_tot = s.l.v_Q_illum_tot)
    (h3 : s'.l.v_Q_illum_ext_tot m = s.l.v_Q_illum_ext_tot m) (h4 : s'.needs.v_Qfan_tot m = s.needs.v_Qfan_tot m) (k : Fin 13)
    (hk : k ∉ [0, 1, 5, 9, 10]) :
    monthEndUses { x with weather := w' } (figures { x with weather := w' } s') m k = monthEndUses x (figures x s) m k := by
  have f2 : (figures { x with weather := w' } s').v_Q_illum_tot = (figures x s).v_Q_illum_tot := h2
  have f3 : (figures { x with weather := w' } s').v_Q_illum_ext_tot m = (figures x s).v_Q_illum_ext_tot m := h3
  have f4 : (figures { x with weather := w' } s').v_Qfan_tot m = (figures x s).v_Qfan_tot m := h4
  have f6 : (figures { x with weather := w' } s').frac_hrs_wk_day = (figures x s).frac_hrs_wk_day := congrArg Occupancy.frac_hrs_wk_day h1
  have f8 : (figures { x with weather := w' } s').v_Q_dhw_elec = (figures x s).v_Q_dhw_elec := rfl
  have f12 : (figures { x with weather := w' } s').v_Q_dhw_gas = (figures x s).v_Q_dhw_gas := rfl
  revert f2 f3 f4 f6 f8 f12
  generalize figures { x with weather := w' } s' = f'
  generalize figures x s = f
  intro f2 f3 f4 f6 f8 f12
  match k, hk with
  | 0, hk => exact absurd (by decide) hk
  | 1, hk => exact absurd (by decide) hk
  | 2, _ => rw [col2, col2, f2]
  | 3, _ => rw [col3, col3, f3]
  | 4, _ => rw [col4, col4, f4]
  | 5, hk => exact absurd (by decide) hk
  | 6, _ => rw [col6, col6, f6]
  | 7, _ => rw [col7, col7]
  | 8, _ => rw [col8, col8, f8]
  | 9, hk => exact absurd (by decide) hk
  | 10, hk => exact absurd (by decide) hk
  | 11, _ => rw [col11, col11, f6]
  | 12, _ => rw [col12, col12, f12]

/-- the results of a month in which the weather is the same, in all columns but heating, cooling and pumps -/
theorem month_columns {x : Sim α} {w' : WeatherData α} {m : Fin 12} (e : SameMonth m x.weather w') {rs rs' : List (Hourly.EndUses α)}
    (h : Monthly.simulate x = some rs) (h' : Monthly.simulate { x with weather := w' } = some rs') :
    ∃ n n' : Needs α, n'.v_Qneed_ht m = n.v_Qneed_ht m ∧ n'.v_Qneed_cl m = n.v_Qneed_cl m ∧
      ∃ f f' : Figures α, rs = outputGeneration x f ∧ rs' = outputGeneration { x with weather := w' } f' ∧
        (∀ k : Fin 13, k ∉ [0, 1, 5, 9, 10] → monthEndUses { x with weather := w' } f' m k = monthEndUses x f m k) ∧
        f.v_Qelec_ht = (hvac x n).v_Qelec_ht ∧ f'.v_Qelec_ht = (hvac x n').v_Qelec_ht ∧
        f.v_Qgas_ht = (hvac x n).v_Qgas_ht ∧ f'.v_Qgas_ht = (hvac x n').v_Qgas_ht ∧
        f.v_Qcl_elec_tot = (hvac x n).v_Qcl_elec_tot ∧ f'.v_Qcl_elec_tot = (hvac x n').v_Qcl_elec_tot ∧
        f.v_Qcl_gas_tot = (hvac x n).v_Qcl_gas_tot ∧ f'.v_Qcl_gas_tot = (hvac x n').v_Qcl_gas_tot := by
  unfold Monthly.simulate stages at h h'
  simp only at h h'
  cases hb : solarRadiationBreakdown x.weather (scheduleAndOccupancy x.pop) with
  | none => rw [hb] at h; cases h
  | some b =>
    cases hb' : solarRadiationBreakdown w' (scheduleAndOccupancy x.pop) with
    | none => rw [hb'] at h'; cases h'
    | some b' =>
      rw [hb] at h
      rw [hb'] at h'
      cases ha : windowSolarGain x.bldg with
      | none => rw [ha] at h; cases h
      | some a =>
        rw [ha] at h h'
        cases hT : managementShift x.building.buildingEnergyManagement with
        | none => rw [hT] at h; cases h
        | some T =>
          rw [hT] at h h'
          have h := (Option.some.inj h).symm
          have h' := (Option.some.inj h').symm
          obtain ⟨t, t', rfl, rfl, ht⟩ := month_breakdown e hb hb'
          have n0 := month_needs x w' m e a T t t'
          have o1 : (stagesWith { x with weather := w' } (radiationFractions w' (scheduleAndOccupancy x.pop) t') a T).o =
            (stagesWith x (radiationFractions x.weather (scheduleAndOccupancy x.pop) t) a T).o := rfl
          have o2 : (stagesWith { x with weather := w' } (radiationFractions w' (scheduleAndOccupancy x.pop) t') a T).l.v_Q_illum_tot =
            (stagesWith x (radiationFractions x.weather (scheduleAndOccupancy x.pop) t) a T).l.v_Q_illum_tot := rfl
          have o3 : (stagesWith { x with weather := w' } (radiationFractions w' (scheduleAndOccupancy x.pop) t') a T).l.v_Q_illum_ext_tot m =
              (stagesWith x (radiationFractions x.weather (scheduleAndOccupancy x.pop) t) a T).l.v_Q_illum_ext_tot m := by
            show t' m * _ = t m * _
            rw [ht]
          revert n0 o1 o2 o3 h h'
          generalize stagesWith { x with weather := w' } (radiationFractions w' (scheduleAndOccupancy x.pop) t') a T = s'
          generalize stagesWith x (radiationFractions x.weather (scheduleAndOccupancy x.pop) t) a T = s
          rintro h h' ⟨n1, n2, n3⟩ o1 o2 o3
          exact ⟨s.needs, s'.needs, n1, n2, figures x s, figures { x with weather := w' } s', h, h',
            fun k hk => stage_columns x w' m o1 o2 o3 n3 k hk, rfl, rfl, rfl, rfl, rfl, rfl, rfl, rfl⟩

end columns

end ISO.Lemmas.WeatherTime
