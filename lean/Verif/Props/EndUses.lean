import Verif.Lemmas.HourlyOut
import Verif.Spec.Numbers
import Verif.Spec.Occupancy
import Verif.Props.Schedule
import Verif.Props.Solar
import Verif.Props.Thermostat

/-!
# C23, C25, C26: end uses of the hourly model
-/

namespace ISO.Props
open ISO ISO.Spec ISO.Hourly ISO.Epw CNum Dbl

/-! ## C25 -/

/-- C25, fuel split, for every model (NaN and infinities included) and every hour: heating is booked to electricity or
to gas, never to both; the last three end uses are zero.  Hot water (end use 8) is always zero too, although the model
has hot-water parameters. -/
theorem C25_split (m : Model Dbl) {m' : Model Dbl} {hourly : List (EndUses Dbl)}
    (h : simulate false m = some (m', hourly)) (i : ℕ) (hi : i < hourly.length) :
    (m.sim.heating.energyType = fin 1 → hourly[i] 9 = fin 0) ∧
    (m.sim.heating.energyType ≠ fin 1 → hourly[i] 0 = fin 0) ∧
    hourly[i] 8 = fin 0 ∧ hourly[i] 10 = fin 0 ∧ hourly[i] 11 = fin 0 ∧ hourly[i] 12 = fin 0 := by
  obtain ⟨win, eta, st, hl, -, e⟩ := simulate_hour h i hi
  have z : (0.0 : Dbl) / 1000.0 = fin 0 := by
    rw [fin_lit, fin_lit, fin_div _ (by norm_num)]; norm_num
  have o : (1.0 : Dbl) = fin 1 := by rw [fin_lit]; norm_num
  have c : ∀ d : Dbl, ceq d (fin 1) = true ↔ d = fin 1 := by
    intro d
    cases d with
    | fin a => rw [fin_ceq, ceq_real, fin_inj]
    | pinf => exact ⟨fun h => absurd h (by decide), fun h => by cases h⟩
    | ninf => exact ⟨fun h => absurd h (by decide), fun h => by cases h⟩
    | nan => exact ⟨fun h => absurd h (by decide), fun h => by cases h⟩
  rw [e]
  refine ⟨?_, ?_, ?_, z, z, z⟩
  · intro hh
    simp only [hourEndUses, o, (c _).mpr hh, cond_true, z]
  · intro hh
    have : ceq m.sim.heating.energyType (fin 1) = false := by
      rw [← Bool.not_eq_true]; exact fun h => hh ((c _).mp h)
    simp only [hourEndUses, o, this, cond_false, z]
  · exact z

/-- a fresh hourly model object with numbers as parameters and weather -/
noncomputable def fresh (x : Sim ℝ) (w : Weather ℝ) : Model Dbl := ⟨x.map fin, w.map fin, Pushed.empty⟩

/-- the sun is never exactly overhead in hour `i` -/
def NotOverhead (w : Weather ℝ) : Prop :=
  ∀ i : Fin 8760, |Spec.Sun.up (SunLemmas.place w) (i.1 / 24 : ℕ) (i.1 % 24 : ℕ)| < 1

theorem NotOverhead.cos {w : Weather ℝ} (h : NotOverhead w) (i : Fin 8760) :
    Real.cos (Solar.sun (Solar.site w) (Solar.sliceAt i).ytd (Solar.sliceAt i).hour).altitude ≠ 0 := by
  obtain ⟨e1, e2⟩ := Solar.sliceAt_eq i
  rw [e1, e2]; exact SunLemmas.cosAlt_ne w _ _ (h i)

/-- the year at `Dbl` from the year at `ℝ` -/
theorem year_fin {x : Sim ℝ} (hx : Physical x) (hs : Systems x) {w : Weather ℝ} (hz : NotOverhead w)
    {m' : Model Dbl} {hourly : List (EndUses Dbl)} (h : simulate false (fresh x w) = some (m', hourly)) :
    ∃ win rs, window (x.map fin).pop = some win ∧ rs = rawResults x (freshRatios x.bldg) win w ∧
      rawResults (x.map fin) (freshRatios (x.map fin).bldg) win (w.map fin) = rs.map (·.map fin) ∧
      hourly = endUses (x.map fin) (rs.map (·.map fin)) := by
  unfold fresh at h
  obtain ⟨win, rs, hw, he', he⟩ := simulate_false' h
  have e0 : (x.map fin).bldg = x.bldg.map fin := rfl
  have e1 := rawResults_fin_systems hx hs (freshRatios x.bldg) win w hz.cos
  rw [pushAll_empty] at he'
  have e2 : rawResults (x.map fin) (freshRatios (x.map fin).bldg) win (w.map fin) =
      (rawResults x (freshRatios x.bldg) win w).map (·.map fin) := by
    rw [e0, freshRatios_fin _ hx.floor.ne', e1]
  exact ⟨win, _, hw, rfl, e2, by rw [he, he', e2]⟩

theorem endUses_fin {x : Sim ℝ} (hs : Systems x) (rs : List (HourResults ℝ))
    (h : (rs.map (·.Qneed_cl)).sum + (rs.map (·.Qneed_ht)).sum ≠ 0) :
    endUses (x.map fin) (rs.map (·.map fin)) = (endUses x rs).map fun u k => fin (u k) := by
  have s : ∀ f : HourResults Dbl → Dbl, ∀ g : HourResults ℝ → ℝ, (∀ q, f (q.map fin) = fin (g q)) →
      csum ((rs.map (·.map fin)).map f) = fin (rs.map g).sum := by
    intro f g hfg
    have : (rs.map (·.map fin)).map f = (rs.map g).map fin := by
      rw [List.map_map, List.map_map]; exact List.map_congr_left fun q _ => hfg q
    rw [this, fin_csum, csum_real]
  have hd := distribution_ne hs (rs.map (·.Qneed_ht)).sum (rs.map (·.Qneed_cl)).sum
  have e : yearDistribution (x.map fin) (rs.map (·.map fin)) =
      (fin (yearDistribution x rs).1, fin (yearDistribution x rs).2) := by
    unfold yearDistribution
    rw [s _ (·.Qneed_ht) fun _ => rfl, s _ (·.Qneed_cl) fun _ => rfl, distribution_fin hs h, csum_real, csum_real]
  unfold endUses
  rw [e, List.map_map, List.map_map]
  apply List.map_congr_left
  intro q _
  funext k
  refine hourEndUses_fin hs ?_ ?_ q k
  · unfold yearDistribution; rw [csum_real, csum_real]; exact hd.1
  · unfold yearDistribution; rw [csum_real, csum_real]; exact hd.2

/-- some demand in one hour makes the annual demand positive -/
theorem demand_ne {rs : List (HourResults ℝ)} (hpos : ∀ q ∈ rs, 0 ≤ q.Qneed_ht ∧ 0 ≤ q.Qneed_cl)
    (hdem : ∃ q ∈ rs.map (·.map fin), q.Qneed_ht ≠ fin 0 ∨ q.Qneed_cl ≠ fin 0) :
    (rs.map (·.Qneed_cl)).sum + (rs.map (·.Qneed_ht)).sum ≠ 0 := by
  have nH : ∀ a ∈ rs.map (·.Qneed_ht), 0 ≤ a := by
    intro a ha; obtain ⟨q, hq, rfl⟩ := List.mem_map.mp ha; exact (hpos q hq).1
  have nC : ∀ a ∈ rs.map (·.Qneed_cl), 0 ≤ a := by
    intro a ha; obtain ⟨q, hq, rfl⟩ := List.mem_map.mp ha; exact (hpos q hq).2
  have hH := List.sum_nonneg nH
  have hC := List.sum_nonneg nC
  obtain ⟨q, hq, hd⟩ := hdem
  obtain ⟨q, hq', rfl⟩ := List.mem_map.mp hq
  have hp := hpos q hq'
  rcases hd with hd | hd
  · have h1 : q.Qneed_ht ≠ 0 := fun h0 => hd (by show fin _ = _; rw [h0])
    have h2 : q.Qneed_ht ≤ _ := List.single_le_sum nH _ (List.mem_map_of_mem hq')
    have := lt_of_le_of_ne hp.1 h1.symm
    linarith
  · have h1 : q.Qneed_cl ≠ 0 := fun h0 => hd (by show fin _ = _; rw [h0])
    have h2 : q.Qneed_cl ≤ _ := List.single_le_sum nC _ (List.mem_map_of_mem hq')
    have := lt_of_le_of_ne hp.2 h1.symm
    linarith

theorem needs_nonneg (x : Sim ℝ) (r : Ratios ℝ) (win : Window) (w : Weather ℝ) :
    ∀ q ∈ rawResults x r win w, 0 ≤ q.Qneed_ht ∧ 0 ≤ q.Qneed_cl := by
  refine runHours_forall x _ _ _ _ fun a _ st => ?_
  obtain ⟨-, -, s3, s4⟩ := calculateHour_state x (initConsts x) r a.1 a.2 st
  rw [s3, s4]; exact ⟨le_max_left _ _, le_max_left _ _⟩

theorem yearDistribution_eq (x : Sim ℝ) (rs : List (HourResults ℝ)) :
    yearDistribution x rs = (1 / (1 + x.heating.hvacLossFactor + x.heating.hotcoldWasteFactor /
        heatShare (rs.map (·.Qneed_ht)).sum (rs.map (·.Qneed_cl)).sum),
      1 / (1 + x.cooling.hvacLossFactor + x.heating.hotcoldWasteFactor /
        coolShare (rs.map (·.Qneed_ht)).sum (rs.map (·.Qneed_cl)).sum)) := by
  unfold yearDistribution
  rw [csum_real, csum_real, distribution_eq]

theorem heat_list (x : Sim ℝ) (rs : List (HourResults ℝ)) :
    ((endUses x rs).map fun u k => fin (u k)).map (fun u => u (if x.heating.energyType = 1 then 0 else 9)) =
        (rs.map (·.Qneed_ht)).map (fun q => fin (delivered x.heating.hvacLossFactor x.heating.hotcoldWasteFactor
          (heatShare (rs.map (·.Qneed_ht)).sum (rs.map (·.Qneed_cl)).sum) x.heating.efficiency q / 1000)) := by
  have k1 : (1.0 : ℝ) = 1 := by norm_num
  have k1000 : (1000.0 : ℝ) = 1000 := by norm_num
  have inv : ∀ a b c : ℝ, a / (1 / b) / c = a * b / c := by intro a b c; rw [div_div_eq_mul_div, div_one]
  rw [endUses, List.map_map, List.map_map, List.map_map]
  apply List.map_congr_left
  intro q _
  simp only [Function.comp, yearDistribution_eq]
  congr 1
  split_ifs with hf
  · simp only [hourEndUses, k1, hf, (ceq_real 1 1).mpr rfl, cond_true, k1000, inv, delivered]
  · have : ceq x.heating.energyType 1 = false := by
      rw [← Bool.not_eq_true, ceq_real]; exact hf
    simp only [hourEndUses, k1, this, cond_false, k1000, inv, delivered]

theorem cool_list (x : Sim ℝ) (rs : List (HourResults ℝ)) :
    ((endUses x rs).map fun u k => fin (u k)).map (fun u => u 1) =
        (rs.map (·.Qneed_cl)).map (fun q => fin (delivered x.cooling.hvacLossFactor x.heating.hotcoldWasteFactor
          (coolShare (rs.map (·.Qneed_ht)).sum (rs.map (·.Qneed_cl)).sum) x.cooling.cop q / 1000)) := by
  have k1000 : (1000.0 : ℝ) = 1000 := by norm_num
  have inv : ∀ a b c : ℝ, a / (1 / b) / c = a * b / c := by intro a b c; rw [div_div_eq_mul_div, div_one]
  rw [endUses, List.map_map, List.map_map, List.map_map]
  apply List.map_congr_left
  intro q _
  simp only [Function.comp, yearDistribution_eq, hourEndUses, k1000, inv, delivered]

theorem delivered_sum (l : List ℝ) (a b c d : ℝ) :
    (l.map (fun q => fin (delivered a b c d q / 1000))).sum = fin (delivered a b c d l.sum / 1000) := by
  induction l with
  | nil => simp [delivered, Dbl.zero_def]
  | cons q l ih =>
    rw [List.map_cons, List.sum_cons, ih, List.sum_cons, fin_add]
    congr 1; unfold delivered; ring

theorem delivered_of {x : Sim ℝ} {raw : List (HourResults Dbl)} {rs : List (HourResults ℝ)} {hourly : List (EndUses Dbl)}
    (e : raw = rs.map (·.map fin)) (he : hourly = (endUses x rs).map fun u k => fin (u k)) :
    ∃ heat cool : List ℝ,
      raw.map (·.Qneed_ht) = heat.map fin ∧
      raw.map (·.Qneed_cl) = cool.map fin ∧
      hourly.map (fun u => u (if x.heating.energyType = 1 then 0 else 9)) =
        heat.map (fun q => fin (delivered x.heating.hvacLossFactor x.heating.hotcoldWasteFactor
          (heatShare heat.sum cool.sum) x.heating.efficiency q / 1000)) ∧
      hourly.map (fun u => u 1) =
        cool.map (fun q => fin (delivered x.cooling.hvacLossFactor x.heating.hotcoldWasteFactor
          (coolShare heat.sum cool.sum) x.cooling.cop q / 1000)) ∧
      (hourly.map (fun u => u (if x.heating.energyType = 1 then 0 else 9))).sum =
        fin (delivered x.heating.hvacLossFactor x.heating.hotcoldWasteFactor
          (heatShare heat.sum cool.sum) x.heating.efficiency heat.sum / 1000) ∧
      (hourly.map (fun u => u 1)).sum =
        fin (delivered x.cooling.hvacLossFactor x.heating.hotcoldWasteFactor
          (coolShare heat.sum cool.sum) x.cooling.cop cool.sum / 1000) := by
  have f1 := heat_list x rs
  have f2 := cool_list x rs
  rw [← he] at f1 f2
  generalize hh : rs.map (·.Qneed_ht) = heat at f1 f2
  generalize hc : rs.map (·.Qneed_cl) = cool at f1 f2
  refine ⟨heat, cool, ?_, ?_, f1, f2, ?_, ?_⟩
  · rw [e, ← hh, List.map_map, List.map_map]; rfl
  · rw [e, ← hc, List.map_map, List.map_map]; rfl
  · rw [f1, delivered_sum]
  · rw [f2, delivered_sum]

/-- C25, amounts: with physically meaningful input and some demand in the year, the heating energy of an hour (on
whichever fuel) is the heating need of that hour plus distribution losses divided by the efficiency, the cooling
energy likewise, both in kWh; the shares that determine the losses are those of the annual needs.  Hence the same
holds for the annual sums. -/
theorem C25_delivered {x : Sim ℝ} (hx : Physical x) (hs : Systems x) {w : Weather ℝ} (hz : NotOverhead w)
    {m' : Model Dbl} {hourly : List (EndUses Dbl)} (h : simulate false (fresh x w) = some (m', hourly))
    {win : Window} (hw : window (x.map fin).pop = some win)
    (hdem : ∃ q ∈ rawResults (x.map fin) (freshRatios (x.map fin).bldg) win (w.map fin),
      q.Qneed_ht ≠ fin 0 ∨ q.Qneed_cl ≠ fin 0) :
    ∃ heat cool : List ℝ,
      (rawResults (x.map fin) (freshRatios (x.map fin).bldg) win (w.map fin)).map (·.Qneed_ht) = heat.map fin ∧
      (rawResults (x.map fin) (freshRatios (x.map fin).bldg) win (w.map fin)).map (·.Qneed_cl) = cool.map fin ∧
      hourly.map (fun u => u (if x.heating.energyType = 1 then 0 else 9)) =
        heat.map (fun q => fin (delivered x.heating.hvacLossFactor x.heating.hotcoldWasteFactor
          (heatShare heat.sum cool.sum) x.heating.efficiency q / 1000)) ∧
      hourly.map (fun u => u 1) =
        cool.map (fun q => fin (delivered x.cooling.hvacLossFactor x.heating.hotcoldWasteFactor
          (coolShare heat.sum cool.sum) x.cooling.cop q / 1000)) ∧
      (hourly.map (fun u => u (if x.heating.energyType = 1 then 0 else 9))).sum =
        fin (delivered x.heating.hvacLossFactor x.heating.hotcoldWasteFactor
          (heatShare heat.sum cool.sum) x.heating.efficiency heat.sum / 1000) ∧
      (hourly.map (fun u => u 1)).sum =
        fin (delivered x.cooling.hvacLossFactor x.heating.hotcoldWasteFactor
          (coolShare heat.sum cool.sum) x.cooling.cop cool.sum / 1000) := by
  obtain ⟨win', rs, hw', hrs, e, he⟩ := year_fin hx hs hz h
  rw [hw] at hw'
  cases hw'
  have hpos : ∀ q ∈ rs, 0 ≤ q.Qneed_ht ∧ 0 ≤ q.Qneed_cl := by
    rw [hrs]; exact needs_nonneg _ _ _ _
  clear hrs
  rw [e] at hdem
  rw [endUses_fin hs rs (demand_ne hpos hdem)] at he
  exact delivered_of e he

/-! ## C26 -/

/-- C26: with physically meaningful input and some demand in the year, every end use of every hour is a finite
number. -/
theorem C26_finite {x : Sim ℝ} (hx : Physical x) (hs : Systems x) {w : Weather ℝ} (hz : NotOverhead w)
    {m' : Model Dbl} {hourly : List (EndUses Dbl)} (h : simulate false (fresh x w) = some (m', hourly))
    {win : Window} (hw : window (x.map fin).pop = some win)
    (hdem : ∃ q ∈ rawResults (x.map fin) (freshRatios (x.map fin).bldg) win (w.map fin),
      q.Qneed_ht ≠ fin 0 ∨ q.Qneed_cl ≠ fin 0) :
    ∀ u ∈ hourly, ∀ k, ∃ v : ℝ, u k = fin v := by
  obtain ⟨win', rs, hw', hrs, e, he⟩ := year_fin hx hs hz h
  rw [hw] at hw'
  cases hw'
  have hpos : ∀ q ∈ rs, 0 ≤ q.Qneed_ht ∧ 0 ≤ q.Qneed_cl := by
    rw [hrs]; exact needs_nonneg _ _ _ _
  clear hrs
  rw [e] at hdem
  rw [endUses_fin hs rs (demand_ne hpos hdem)] at he
  intro u hu k
  rw [he] at hu
  obtain ⟨v, -, rfl⟩ := List.mem_map.mp hu
  exact ⟨v k, rfl⟩

/-- C26 fails without demand: if no hour of the year needs heating or cooling, the cooling energy of every hour and the
heating energy of every hour are NaN instead of zero (0/0 in the share of heating). -/
theorem C26_no_demand (m : Model Dbl) {win : Window} (hw : window m.sim.pop = some win)
    (h0 : ∀ q ∈ rawResults m.sim (pushAll m.sim.bldg m.pushed).ratios win m.weather,
      q.Qneed_ht = fin 0 ∧ q.Qneed_cl = fin 0) :
    ∃ m' hourly, simulate false m = some (m', hourly) ∧ hourly.length = 8760 ∧
      ∀ u ∈ hourly, u 1 = nan ∧ (u 0 = nan ∨ u 9 = nan) := by
  refine ⟨_, _, simulate_of_window hw, by rw [endUses_length, rawResults_length], ?_⟩
  generalize rawResults m.sim (pushAll m.sim.bldg m.pushed).ratios win m.weather = rs at h0
  have s1 : csum (rs.map (·.Qneed_ht)) = fin 0 := by
    rw [csum_dbl]
    refine List.sum_eq_zero fun a ha => ?_
    obtain ⟨q, hq, rfl⟩ := List.mem_map.mp ha
    exact (h0 q hq).1
  have s2 : csum (rs.map (·.Qneed_cl)) = fin 0 := by
    rw [csum_dbl]
    refine List.sum_eq_zero fun a ha => ?_
    obtain ⟨q, hq, rfl⟩ := List.mem_map.mp ha
    exact (h0 q hq).2
  have mx : ∀ d : Dbl, cmax nan d = nan := by
    intro d; unfold cmax; rw [nan_clt]; rfl
  have e : yearDistribution m.sim rs = (nan, nan) := by
    unfold yearDistribution distribution
    rw [s1, s2, fin_add, add_zero, zero_div_zero, mx]
    simp only [sub_nan, mx, div_nan, add_nan]
  intro u hu
  unfold endUses at hu
  rw [e] at hu
  obtain ⟨q, -, rfl⟩ := List.mem_map.mp hu
  refine ⟨by simp only [hourEndUses, div_nan, nan_div], ?_⟩
  cases hc : ceq m.sim.heating.energyType 1.0
  · right; simp only [hourEndUses, hc, cond_false, div_nan, nan_div]
  · left; simp only [hourEndUses, hc, cond_true, div_nan, nan_div]

end ISO.Props
