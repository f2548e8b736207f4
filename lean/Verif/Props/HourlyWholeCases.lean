import Verif.Props.HourlyWhole
import Verif.Props.EndUsesCases

/-! # C73: years with and without demand -/

namespace ISO.Props
open ISO ISO.Spec ISO.Hourly ISO.Epw CNum Dbl ISO.Spec.HourlyWhole

/-- the hypotheses of `C73_exists`, `C73_unique`, `C73_results`, `C73_months` and `C26_dichotomy` are met by the small office in Chicago -/
example : Physical smallOffice ∧ Systems smallOffice ∧ 0 ≤ smallOffice.pop.hoursEnd ∧ 0 ≤ smallOffice.pop.daysEnd ∧ NeverOverhead someWeather ∧
    (∃ m r, simulate false (fresh smallOffice someWeather) = some (m, r)) ∧ (∃ m r, simulate true (fresh smallOffice someWeather) = some (m, r)) ∧
    ∃ mass air surface power, Evolution smallOffice someWeather mass air surface power ∧ ∃ i < 8760, power i ≠ 0 := by
  obtain ⟨win, hw, hq⟩ := office_heats
  have hr := simulate_of_window (m := fresh smallOffice someWeather) hw
  have a1 : 0 ≤ smallOffice.pop.hoursEnd := by norm_num [smallOffice]
  have a2 : 0 ≤ smallOffice.pop.daysEnd := by norm_num [smallOffice]
  have hz : NeverOverhead someWeather := notOverhead_of_lat rfl
  obtain ⟨-, out, ho, -⟩ := C28_aggregated _ hr
  refine ⟨smallOffice_physical, smallOffice_systems, a1, a2, hz, ⟨_, _, hr⟩, ⟨_, out, ho⟩, ?_⟩
  obtain ⟨mass, air, surface, power, hE⟩ := C73_exists smallOffice_physical smallOffice_systems a1 a2 hz hr
  refine ⟨mass, air, surface, power, hE, ?_⟩
  by_contra hn
  push Not at hn
  obtain ⟨hl, h⟩ := C73_no_demand smallOffice_physical smallOffice_systems a1 a2 hz hr hE hn
  have hf := C26_finite smallOffice_physical smallOffice_systems hz hr hw hq
  generalize endUses (fresh smallOffice someWeather).sim (rawResults (fresh smallOffice someWeather).sim
    (pushAll (fresh smallOffice someWeather).sim.bldg (fresh smallOffice someWeather).pushed).ratios win
      (fresh smallOffice someWeather).weather) = r at hr hl h hf
  have h0 : 0 < r.length := by omega
  have e := h 0 h0 1
  obtain ⟨v, hv⟩ := hf _ (List.getElem_mem h0) 1
  rw [if_pos (.inl rfl)] at e
  exact absurd (e.symm.trans hv) (by simp)

/-- the hypotheses of `C73_no_demand` and `C73_months_no_demand` are met by the still house -/
example : Physical stillHouse ∧ Systems stillHouse ∧ 0 ≤ stillHouse.pop.hoursEnd ∧ 0 ≤ stillHouse.pop.daysEnd ∧ NeverOverhead stillWeather ∧
    (∃ m r, simulate false (fresh stillHouse stillWeather) = some (m, r)) ∧ (∃ m r, simulate true (fresh stillHouse stillWeather) = some (m, r)) ∧
    ∃ mass air surface power, Evolution stillHouse stillWeather mass air surface power ∧ ∀ i < 8760, power i = 0 := by
  obtain ⟨-, -, -, m, r, hr, hl, hn⟩ := C26_still
  have a1 : 0 ≤ stillHouse.pop.hoursEnd := by norm_num [stillHouse, smallOffice]
  have a2 : 0 ≤ stillHouse.pop.daysEnd := by norm_num [stillHouse, smallOffice]
  have hz : NeverOverhead stillWeather := notOverhead_of_lat rfl
  obtain ⟨-, out, ho, -⟩ := C28_aggregated _ hr
  refine ⟨stillHouse_physical, stillHouse_systems, a1, a2, hz, ⟨m, r, hr⟩, ⟨m, out, ho⟩, ?_⟩
  obtain ⟨mass, air, surface, power, hE⟩ := C73_exists stillHouse_physical stillHouse_systems a1 a2 hz hr
  refine ⟨mass, air, surface, power, hE, ?_⟩
  by_contra hn'
  push Not at hn'
  obtain ⟨-, h⟩ := C73_results stillHouse_physical stillHouse_systems a1 a2 hz hr hE hn'
  have h0 : 0 < r.length := by omega
  have e := h 0 h0 1
  exact absurd (e.symm.trans (hn _ (List.getElem_mem h0)).1) (by simp)

end ISO.Props
