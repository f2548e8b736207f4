import Verif.Lemmas.HeatBalance
import Verif.Props.Thermostat

/-!
# C50: heat is conserved in the hourly model
-/

namespace ISO.Props
open ISO ISO.Spec ISO.Hourly ISO.Epw CNum Dbl

/-- C50, one hour: the heating and cooling needs, the mass temperature and the air temperature that the hourly model
computes satisfy, together with some surface temperature, the heat balances of air, surfaces and mass in the network of
the building, where the heat given off inside is the reported appliance and lighting energy. -/
theorem C50_hour {x : Sim ℝ} (hx : Physical x) {sch : Schedule ℝ} (hv : 0 ≤ sch.ventilation) (w : HourWeather ℝ)
    (st : ThermalState ℝ) {out : ThermalState Dbl × HourResults Dbl}
    (hout : out = calculateHour (x.map fin) (initConsts (x.map fin)) (freshRatios (x.map fin).bldg) (sch.map fin)
      (w.map fin) (st.map fin)) :
    ∃ mass air surface heat cool plug light : ℝ,
      out.1 = ⟨fin mass, fin air⟩ ∧ out.2.Qneed_ht = fin heat ∧ out.2.Qneed_cl = fin cool ∧
      out.2.phi_plug = fin plug ∧ out.2.Q_illum_tot = fin light ∧
      Balanced (buildingNetwork x (sch.ventilation * 3.6 / x.bldg.floorArea) st.tiHeatCool
        (plug + light * x.lights.elecInternalGains) w.temperature w.windMps w.solarRadiation)
        st.TMT1 mass surface air (heat - cool) := by
  have e0 : freshRatios (x.map fin).bldg = (freshRatios x.bldg).map fin := freshRatios_fin x.bldg hx.floor.ne'
  rw [e0, initConsts_fin x (physical_consts hx).1, calculateHour_fin' hx _ hv w st] at hout
  obtain ⟨s, hs⟩ := balance_hour hx hv w st
  subst hout
  exact ⟨_, _, s, _, _, _, _, rfl, rfl, rfl, rfl, rfl, hs⟩

/-- C50: the balances leave no freedom: initial mass temperature, gains, weather and power determine the three
temperatures, so `C50_hour` says what the computed temperatures are. -/
theorem C50_unique {x : Sim ℝ} (hx : Physical x) {extract : ℝ} (hv : 0 ≤ extract) (indoor inside outdoor wind : ℝ)
    (sun : Fin 9 → ℝ) {T T₁ T₂ s₁ s₂ a₁ a₂ power : ℝ}
    (b₁ : Balanced (buildingNetwork x extract indoor inside outdoor wind sun) T T₁ s₁ a₁ power)
    (b₂ : Balanced (buildingNetwork x extract indoor inside outdoor wind sun) T T₂ s₂ a₂ power) :
    T₁ = T₂ ∧ s₁ = s₂ ∧ a₁ = a₂ := by
  obtain ⟨h1, h2, h3, h4, h5, h6⟩ := network_positive hx hv indoor inside outdoor wind sun
  exact balanced_unique h1 h2 h3 h4 h5 h6 b₁ b₂

open Classical in
/-- the network of hour `i` of the year, given the air temperature of the hour before and the heat given off inside -/
noncomputable def yearNetwork (x : Sim ℝ) (w : Weather ℝ) (i : Fin 8760) (indoor inside : ℝ) : ThreeNodes :=
  buildingNetwork x ((if OccupiedHour x.pop i then x.ventilation.supplyRate else 0) * 3.6 / x.bldg.floorArea) indoor inside
    (w.data DBT i) (w.data WSPD i) (hourWeather w i).solarRadiation

/-- C50, the whole year: there are hourly mass, air and surface temperatures, starting from 20 degrees, such that the
program computes these mass and air temperatures and the heat balances hold in every hour with the needs it reports.
Hence over the year heating minus cooling plus the gains of the three nodes is what the building loses to the outside
plus what its mass stores. -/
theorem C50_year {x : Sim ℝ} (hx : Physical x) (w : Weather ℝ)
    (hz : ∀ i : Fin 8760, |Spec.Sun.up (SunLemmas.place w) (i.1 / 24 : ℕ) (i.1 % 24 : ℕ)| < 1)
    (h0 : 0 ≤ x.pop.hoursEnd) (d0 : 0 ≤ x.pop.daysEnd) {win : Window} (hw : window (x.map fin).pop = some win)
    {states : List (ThermalState Dbl)} {results : List (HourResults Dbl)}
    (hst : states = runStates (x.map fin) (initConsts (x.map fin)) (freshRatios (x.map fin).bldg)
        (List.ofFn (hourInput (x.map fin) win (w.map fin))) initialState)
    (hre : results = rawResults (x.map fin) (freshRatios (x.map fin).bldg) win (w.map fin)) :
    ∃ mass air surface heat cool plug light : ℕ → ℝ, mass 0 = 20 ∧ air 0 = 20 ∧ (∀ i : Fin 8760,
      states[i.1]? = some ⟨fin (mass (i + 1)), fin (air (i + 1))⟩ ∧
      (∃ q, results[i.1]? = some q ∧ q.Qneed_ht = fin (heat i) ∧ q.Qneed_cl = fin (cool i) ∧
        q.phi_plug = fin (plug i) ∧ q.Q_illum_tot = fin (light i)) ∧
      Balanced (yearNetwork x w i (air i) (plug i + light i * x.lights.elecInternalGains))
        (mass i) (mass (i + 1)) (surface i) (air (i + 1)) (heat i - cool i)) ∧
      (∀ net : Fin 8760 → ThreeNodes,
        (∀ i, net i = yearNetwork x w i (air i) (plug i + light i * x.lights.elecInternalGains)) →
        ∑ i : Fin 8760, (heat i - cool i) + ∑ i : Fin 8760, ((net i).toAir + (net i).toSurface + (net i).toMass) =
          ∑ i : Fin 8760, losses (net i) (mass i) (mass (i + 1)) (surface i) (air (i + 1)) +
            heatCapacity x / 3.6 * (mass 8760 - 20)) := by
  have hcos : ∀ i, Real.cos (Solar.sun (Solar.site w) (Solar.sliceAt i).ytd (Solar.sliceAt i).hour).altitude ≠ 0 := by
    intro i
    obtain ⟨e1, e2⟩ := Solar.sliceAt_eq i
    rw [e1, e2]; exact SunLemmas.cosAlt_ne w _ _ (hz i)
  have hok := hourInput_ok hx win w
  have e : List.ofFn (hourInput (x.map fin) win (w.map fin)) =
      (List.ofFn (hourInput x win w)).map fun a => (a.1.map fin, a.2.map fin) := by
    rw [List.map_ofFn]; congr 1; funext i; exact hourInput_fin x win w i (hcos i)
  have e20 : (initialState : ThermalState Dbl) = (initialState : ThermalState ℝ).map fin := rfl
  have e0 : freshRatios (x.map fin).bldg = (freshRatios x.bldg).map fin := freshRatios_fin x.bldg hx.floor.ne'
  have hcell : ∀ i : Fin 8760, (hourInput x win w i).1.ventilation =
      @ite _ (OccupiedHour x.pop i) (Classical.propDecidable _) x.ventilation.supplyRate 0 := by
    intro i
    have h := C13_schedule (x.map fin) x.pop rfl h0 d0 hw (w.map fin) i
    rw [hourInput_fin x win w i (hcos i)] at h
    have h := congrArg Schedule.ventilation h
    simp only [Schedule.map, Sim.map, Ventilation.map] at h
    by_cases ho : OccupiedHour x.pop i
    · rw [if_pos ho] at h ⊢; exact Dbl.fin.inj h
    · rw [if_neg ho] at h ⊢; exact Dbl.fin.inj h
  unfold rawResults at hre
  rw [e, e20, e0, initConsts_fin x (physical_consts hx).1] at hst hre
  have hwe : ∀ i : Fin 8760, (hourInput x win w i).2 = hourWeather w i := fun _ => rfl
  have hwt : ∀ i : Fin 8760, (hourWeather w i).temperature = w.data DBT i ∧ (hourWeather w i).windMps = w.data WSPD i :=
    fun _ => ⟨rfl, rfl⟩
  generalize hl : List.ofFn (hourInput x win w) = l at hst hre
  have hll : l.length = 8760 := by rw [← hl, List.length_ofFn]
  have hlg : ∀ i : Fin 8760, ∃ h : i.1 < l.length, l[i.1] = hourInput x win w i := by
    intro i
    exact ⟨by rw [hll]; exact i.2, by simp only [← hl, List.getElem_ofFn]⟩
  have hlv : ∀ a ∈ l, 0 ≤ a.1.ventilation := by
    intro a ha; rw [← hl] at ha
    obtain ⟨j, rfl⟩ := (List.mem_ofFn' _ _).mp ha
    exact (hok j).vent
  clear hl e
  obtain ⟨mass, air, surface, heat, cool, plug, light, b1, b2, b3⟩ := balance_list hx l hlv initialState
  have m0 : mass 0 = 20 := by rw [b1]; simp only [initialState]; norm_num
  have a0 : air 0 = 20 := by rw [b2]; simp only [initialState]; norm_num
  have key : ∀ i : Fin 8760, states[i.1]? = some ⟨fin (mass (i + 1)), fin (air (i + 1))⟩ ∧
      (∃ q, results[i.1]? = some q ∧ q.Qneed_ht = fin (heat i) ∧ q.Qneed_cl = fin (cool i) ∧
        q.phi_plug = fin (plug i) ∧ q.Q_illum_tot = fin (light i)) ∧
      Balanced (yearNetwork x w i (air i) (plug i + light i * x.lights.elecInternalGains))
        (mass i) (mass (i + 1)) (surface i) (air (i + 1)) (heat i - cool i) := by
    intro i
    obtain ⟨h, hg⟩ := hlg i
    obtain ⟨c1, c2, c3⟩ := b3 i.1 h
    rw [← hst] at c1
    rw [← hre] at c2
    rw [hg, hcell i, hwe i, (hwt i).1, (hwt i).2] at c3
    exact ⟨c1, c2, c3⟩
  refine ⟨mass, air, surface, heat, cool, plug, light, m0, a0, key, ?_⟩
  intro net hnet
  rw [← m0]
  refine balanced_sum net (fun i => by rw [hnet i]; rfl) mass surface air (fun i => heat i - cool i) ?_
  intro i
  rw [hnet i]
  exact (key i).2.2

/-- the hypotheses of `C50_hour` and `C50_year` hold for the small office in Chicago -/
example : Physical smallOffice ∧ 0 ≤ smallOffice.pop.hoursEnd ∧ 0 ≤ smallOffice.pop.daysEnd ∧
    (∃ win, window (smallOffice.map fin).pop = some win) ∧
    ∀ i : Fin 8760, |Spec.Sun.up (SunLemmas.place someWeather) (i.1 / 24 : ℕ) (i.1 % 24 : ℕ)| < 1 := by
  refine ⟨smallOffice_physical, by norm_num [smallOffice], by norm_num [smallOffice], ?_, ?_⟩
  · exact window_ok (p := smallOffice.pop) (by norm_num [smallOffice]) (by norm_num [smallOffice])
      (by norm_num [smallOffice]) (by norm_num [smallOffice])
  · exact fun _ => C19_never_zenith _ (by simp only [SunLemmas.place, someWeather]; norm_num [abs_of_pos])
      (by simp only [SunLemmas.place, someWeather]; norm_num [abs_of_pos]) _ _

end ISO.Props
