import Verif.Lemmas.HourlyYear
import Verif.Lemmas.HourlySim
import Verif.Lemmas.Pushed
import Verif.Spec.Systems
import Verif.Num.Sum

/-! Helper lemmas: end uses of the year on finite input. -/

namespace ISO.Hourly
open ISO CNum Dbl Spec Epw

theorem fanOk_of {x : Sim ℝ} {t : ℝ} (hr : 0.000001 ≤ x.phys.rhoCpAir)
    (h : t ≤ x.heating.temperatureSetPointOccupied + x.heating.dT_supp_ht)
    (c : x.cooling.temperatureSetPointOccupied - x.cooling.dT_supp_cl ≤ t ∨
      t + 0.000001 ≤ x.cooling.temperatureSetPointOccupied - x.cooling.dT_supp_cl) : FanOk x t := by
  have hp : (0:ℝ) < x.phys.rhoCpAir := lt_of_lt_of_le (by norm_num) hr
  have hd := dblMin_pos
  constructor
  · intro _
    have : 0 ≤ (x.heating.temperatureSetPointOccupied + x.heating.dT_supp_ht - t) * x.phys.rhoCpAir * 277.777778 := by
      have : 0 ≤ x.heating.temperatureSetPointOccupied + x.heating.dT_supp_ht - t := by linarith
      positivity
    positivity
  · intro _
    rcases c with c | c
    · have : 0 ≤ (t - (x.cooling.temperatureSetPointOccupied - x.cooling.dT_supp_cl)) * x.phys.rhoCpAir * 277.777778 := by
        have : 0 ≤ t - (x.cooling.temperatureSetPointOccupied - x.cooling.dT_supp_cl) := by linarith
        positivity
      positivity
    · have hs := dblMin_lt
      have : (t - (x.cooling.temperatureSetPointOccupied - x.cooling.dT_supp_cl)) * x.phys.rhoCpAir ≤
          -(0.000001 * 0.000001) := by norm_num at *; nlinarith
      norm_num at *; nlinarith

/-- on finite input away from the zenith the year at `Dbl` is the year at `ℝ` -/
theorem rawResults_fin_systems {x : Sim ℝ} (hx : Physical x) (hs : Systems x) (r : Ratios ℝ) (win : Window) (w : Weather ℝ)
    (hz : ∀ i, Real.cos (Solar.sun (Solar.site w) (Solar.sliceAt i).ytd (Solar.sliceAt i).hour).altitude ≠ 0) :
    rawResults (x.map fin) (r.map fin) win (w.map fin) = (rawResults x r win w).map (·.map fin) := by
  apply rawResults_fin hx r win w hz
  · intro t h1 h2
    apply fanOk_of hs.rhoCp
    · exact h2.trans (max_le hs.heatOccupied hs.heatUnoccupied)
    · exact .inl ((le_min hs.coolOccupied hs.coolUnoccupied).trans h1)
  · apply fanOk_of hs.rhoCp hs.heatStart
    rcases hs.coolStart with h | h
    · exact .inl h
    · right; norm_num at h ⊢; linarith

theorem distribution_fin {x : Sim ℝ} (hs : Systems x) {H C : ℝ} (h : C + H ≠ 0) :
    distribution (x.map fin) (fin H) (fin C) = (fin (distribution x H C).1, fin (distribution x H C).2) := by
  have k1 : max (H / (C + H)) 0.1 ≠ 0 := (lt_max_of_lt_right (by norm_num : (0:ℝ) < 0.1)).ne'
  have k2 : max (1.0 - max (H / (C + H)) 0.1) 0.1 ≠ 0 := (lt_max_of_lt_right (by norm_num : (0:ℝ) < 0.1)).ne'
  have p1 : 0 < max (H / (C + H)) 0.1 := lt_max_of_lt_right (by norm_num)
  have p2 : 0 < max (1.0 - max (H / (C + H)) 0.1) 0.1 := lt_max_of_lt_right (by norm_num)
  have h1 := hs.lossHeating; have h2 := hs.lossCooling; have h3 := hs.waste
  have k3 : 1.0 + x.heating.hvacLossFactor + x.heating.hotcoldWasteFactor / max (H / (C + H)) 0.1 ≠ 0 := by positivity
  have k4 : 1.0 + x.cooling.hvacLossFactor + x.heating.hotcoldWasteFactor / max (1.0 - max (H / (C + H)) 0.1) 0.1 ≠ 0 := by
    positivity
  simp only [← cmax_real] at k1 k2 k3 k4
  simp only [distribution, Sim.map, Heating.map, Cooling.map, dblfin, ne_eq, h, k1, k2, k3, k4, not_false_eq_true]

theorem distribution_eq {x : Sim ℝ} (H C : ℝ) :
    distribution x H C = (1 / (1 + x.heating.hvacLossFactor + x.heating.hotcoldWasteFactor / heatShare H C),
      1 / (1 + x.cooling.hvacLossFactor + x.heating.hotcoldWasteFactor / coolShare H C)) := by
  have k : (1.0:ℝ) = 1 := by norm_num
  simp only [distribution, cmax_real, heatShare, coolShare, k]

theorem distribution_ne {x : Sim ℝ} (hs : Systems x) (H C : ℝ) :
    (distribution x H C).1 ≠ 0 ∧ (distribution x H C).2 ≠ 0 := by
  have p1 : 0 < heatShare H C := lt_max_of_lt_right (by norm_num)
  have p2 : 0 < coolShare H C := lt_max_of_lt_right (by norm_num)
  have h1 := hs.lossHeating; have h2 := hs.lossCooling; have h3 := hs.waste
  rw [distribution_eq]
  constructor
  · simp only []; positivity
  · simp only []; positivity

theorem hourEndUses_fin {x : Sim ℝ} (hs : Systems x) {e : ℝ × ℝ} (h1 : e.1 ≠ 0) (h2 : e.2 ≠ 0) (r : HourResults ℝ) (k : Fin 13) :
    hourEndUses (x.map fin) (fin e.1, fin e.2) (r.map fin) k = fin (hourEndUses x e r k) := by
  have z : (1000.0 : ℝ) ≠ 0 := by norm_num
  have h3 := hs.efficiency; have h4 := hs.cop
  fin_cases k <;>
    simp only [hourEndUses, Sim.map, Heating.map, Cooling.map, HourResults.map, dblfin, ne_eq, h1, h2, h3, h4, z,
      not_false_eq_true]

/-- hour `i` of what `simulate(false)` returns -/
theorem simulate_hour {α : Type} [CNum α] [OfInt α] {m m' : Model α} {hourly : List (EndUses α)}
    (h : simulate false m = some (m', hourly)) (i : ℕ) (hi : i < hourly.length) :
    ∃ win eta st, ∃ hl : i < 8760, window m.sim.pop = some win ∧
      hourly[i] = hourEndUses m.sim eta (calculateHour m.sim (initConsts m.sim) (pushAll m.sim.bldg m.pushed).ratios
        (hourInput m.sim win m.weather ⟨i, hl⟩).1 (hourInput m.sim win m.weather ⟨i, hl⟩).2 st).2 := by
  obtain ⟨win, hw, -, he⟩ := simulate_false h
  have hlen := rawResults_length m.sim (pushAll m.sim.bldg m.pushed).ratios win m.weather
  generalize hrs : rawResults m.sim (pushAll m.sim.bldg m.pushed).ratios win m.weather = rs at he hlen
  have hr : i < rs.length := by rw [he, endUses_length] at hi; exact hi
  have hl : i < 8760 := by omega
  obtain ⟨st, key⟩ := rawResults_get m.sim (pushAll m.sim.bldg m.pushed).ratios win m.weather hrs.symm i hr hl
  subst he
  exact ⟨win, _, st, hl, hw, by rw [endUses_get m.sim rs i hi hr, key]⟩

theorem hourEndUses_fin' (x : Sim ℝ) (eta : Dbl × Dbl) (e : ℝ × ℝ) (r : HourResults ℝ) (k : Fin 13)
    (h2 : 2 ≤ k.1) (h7 : k.1 ≤ 7) :
    hourEndUses (x.map fin) eta (r.map fin) k = fin (hourEndUses x e r k) := by
  have z : (1000.0 : ℝ) ≠ 0 := by norm_num
  fin_cases k <;> simp only [] at h2 h7 <;> first
    | omega
    | simp only [hourEndUses, Sim.map, HourResults.map, dblfin, ne_eq, z, not_false_eq_true]

theorem getElem_of_map {rs : List (HourResults Dbl)} {rs' : List (HourResults ℝ)} (h : rs = rs'.map (·.map fin)) (i : ℕ)
    (h1 : i < rs.length) (h2 : i < rs'.length) : rs[i] = (rs'[i]).map fin := by
  subst h; exact List.getElem_map _

theorem simulate_false' {α : Type} [CNum α] [OfInt α] {x : Sim α} {w : Weather α} {p : Pushed α} {m' : Model α}
    {hourly : List (EndUses α)} (h : simulate false ⟨x, w, p⟩ = some (m', hourly)) :
    ∃ win rs, window x.pop = some win ∧ rs = rawResults x (pushAll x.bldg p).ratios win w ∧ hourly = endUses x rs := by
  obtain ⟨win, h1, -, h2⟩ := simulate_false h
  exact ⟨win, _, h1, rfl, h2⟩

/-- hour `i` of a simulation with finite input: lighting, fan, pump and equipment -/
theorem simulate_hour_fin {x : Sim ℝ} (hx : Physical x) (hs : Systems x) (w : Weather ℝ)
    (hz : ∀ i, Real.cos (Solar.sun (Solar.site w) (Solar.sliceAt i).ytd (Solar.sliceAt i).hour).altitude ≠ 0)
    {m' : Model Dbl} {hourly : List (EndUses Dbl)}
    (h : simulate false ⟨x.map fin, w.map fin, Pushed.empty⟩ = some (m', hourly)) (i : ℕ) (hi : i < hourly.length) :
    ∃ win st, ∃ hl : i < 8760, window (x.map fin).pop = some win ∧
      ∀ (k : Fin 13), 2 ≤ k.1 → k.1 ≤ 7 → hourly[i] k =
        fin (hourEndUses x (1, 1) (calculateHour x (initConsts x) (freshRatios x.bldg)
        (hourInput x win w ⟨i, hl⟩).1 (hourInput x win w ⟨i, hl⟩).2 st).2 k) := by
  obtain ⟨win, rs, hw, he', he⟩ := simulate_false' h
  have e0 : (x.map fin).bldg = x.bldg.map fin := rfl
  have hlen := rawResults_length x (freshRatios x.bldg) win w
  have e1 := rawResults_fin_systems hx hs (freshRatios x.bldg) win w hz
  rw [pushAll_empty, e0, freshRatios_fin _ hx.floor.ne', e1] at he'
  clear e1
  generalize hrs : rawResults x (freshRatios x.bldg) win w = rs' at he' hlen
  have hr' : i < rs.length := by rw [he, endUses_length] at hi; exact hi
  have hr : i < rs'.length := by rw [he', List.length_map] at hr'; exact hr'
  have hl : i < 8760 := by omega
  obtain ⟨st, key⟩ := rawResults_get x (freshRatios x.bldg) win w hrs.symm i hr hl
  subst he
  refine ⟨win, st, hl, hw, fun k h2 h7 => ?_⟩
  have e2 : rs[i]'hr' = (rs'[i]'hr).map fin := getElem_of_map he' i hr' hr
  rw [endUses_get _ _ i hi hr', e2, hourEndUses_fin' x _ (1, 1) _ k h2 h7, key]

end ISO.Hourly
