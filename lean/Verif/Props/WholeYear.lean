import Verif.Spec.WholeYear
import Verif.Lemmas.YearComparison
import Verif.Props.SunProtection
import Verif.Props.MonthlySetPoints

/-! # C72: whole years of the hourly model compared -/

namespace ISO.Props
open ISO ISO.Spec ISO.Hourly ISO.Epw CNum Dbl

/-- heat given off inside in an hour -/
noncomputable def insideOf (x : Sim ℝ) (a : Schedule ℝ × HourWeather ℝ) : ℝ :=
  a.1.interiorEquipment + electricForTotalLightArea x.bldg (initConsts x) (freshRatios x.bldg) a.2.solarRadiation * a.1.interiorLighting *
    x.lights.elecInternalGains

/-- the network of the building in an hour -/
noncomputable def hourNetwork (x : Sim ℝ) (a : Schedule ℝ × HourWeather ℝ) (indoor : ℝ) : ThreeNodes :=
  buildingNetwork x (a.1.ventilation * 3.6 / x.bldg.floorArea) indoor (insideOf x a) a.2.temperature a.2.windMps a.2.solarRadiation

/-- any number of hours are a course of balanced and controlled hours -/
theorem course_list {x : Sim ℝ} (hx : Physical x) (l : List (Schedule ℝ × HourWeather ℝ))
    (hl : ∀ a ∈ l, 0 ≤ a.1.ventilation ∧ a.1.heatingSetpoint ≤ a.1.coolingSetpoint) (st : ThermalState ℝ) :
    ∃ mass air surface power : ℕ → ℝ, mass 0 = st.TMT1 ∧ air 0 = st.tiHeatCool ∧
      (∀ i (h : i < l.length), Balanced (hourNetwork x l[i] (air i)) (mass i) (mass (i + 1)) (surface i) (air (i + 1)) (power i) ∧
        Controlled l[i].1.heatingSetpoint l[i].1.coolingSetpoint (air (i + 1)) (power i)) ∧
      (∀ i (_ : i < l.length), ∃ q, (runHours (x.map fin) ((initConsts x).map fin) ((freshRatios x.bldg).map fin)
        (l.map fun a => (a.1.map fin, a.2.map fin)) (st.map fin))[i]? = some q ∧
        q.Qneed_ht = fin (max 0 (power i)) ∧ q.Qneed_cl = fin (max 0 (-power i))) := by
  generalize hS : stateAt x (initConsts x) (freshRatios x.bldg) l st = S
  have hS0 : S 0 = st := by rw [← hS]; cases l <;> rfl
  have hstep : ∀ i (h : i < l.length), S (i + 1) = (calculateHour x (initConsts x) (freshRatios x.bldg)
      l[i].1 l[i].2 (S i)).1 := by
    intro i h
    rw [← hS, stateAt_succ x (initConsts x) (freshRatios x.bldg) l st i h]
  have hbal := fun i : Fin l.length => balance_hour hx (hl l[i] (List.getElem_mem _)).1 l[i].2 (S i.1)
  choose surf hsurf using hbal
  obtain ⟨R, hR⟩ : ∃ R : ℕ → HourResults ℝ, ∀ i (h : i < l.length),
      R i = (calculateHour x (initConsts x) (freshRatios x.bldg) l[i].1 l[i].2 (S i)).2 :=
    ⟨fun j => if h : j < l.length then (calculateHour x (initConsts x) (freshRatios x.bldg) l[j].1 l[j].2 (S j)).2
      else ⟨0, 0, 0, 0, 0, 0, 0, 0, 0⟩, fun i h => by simp only [h, dif_pos]⟩
  refine ⟨fun j => (S j).TMT1, fun j => (S j).tiHeatCool, fun j => if h : j < l.length then surf ⟨j, h⟩ else 0,
    fun j => (R j).Qneed_ht - (R j).Qneed_cl, congrArg _ hS0, congrArg _ hS0, ?_, ?_⟩
  · intro i h
    have hb := hsurf ⟨i, h⟩
    have hc := hour_controlled hx (hl l[i] (List.getElem_mem _)).1 (hl l[i] (List.getElem_mem _)).2 l[i].2 (S i)
    simp only [h, dif_pos, hR i h, hstep i h]
    exact ⟨hb, hc⟩
  · intro i h
    have hlv : ∀ a ∈ l, 0 ≤ a.1.ventilation := fun a ha => (hl a ha).1
    have hlen : i < (runHours (x.map fin) ((initConsts x).map fin) ((freshRatios x.bldg).map fin)
        (l.map fun a => (a.1.map fin, a.2.map fin)) (st.map fin)).length := by
      rw [runHours_length, List.length_map]; exact h
    refine ⟨_, List.getElem?_eq_getElem hlen, ?_⟩
    rw [runHours_get _ _ _ _ _ i hlen (by rw [List.length_map]; exact h), List.getElem_map, stateAt_fin hx _ l hlv, hS,
      calculateHour_fin' hx _ (hlv l[i] (List.getElem_mem _))]
    simp only [hR i h]
    obtain ⟨e1, e2, e3, e4⟩ := calculateHour_state x (initConsts x) (freshRatios x.bldg) l[i].1 l[i].2 (S i)
    simp only [HourResults.map]
    rw [e3, e4]
    generalize hourPhi x (initConsts x) (freshRatios x.bldg) l[i].1 l[i].2 (S i) = p
    have := parts p
    rw [show max 0 p - max 0 (-p) = p by linarith]
    exact ⟨rfl, rfl⟩

/-- the air flow of a wind driven building does not depend on the temperature indoors -/
theorem wind_network {x : Sim ℝ} (a : Schedule ℝ × HourWeather ℝ) {t t' : ℝ}
    (hf : x.ventilation.fanControlFactor = 1 ∨ a.1.ventilation = 0)
    (h : stackFlow x a.2.temperature t ≤ windFlow x a.2.windMps) (h' : stackFlow x a.2.temperature t' ≤ windFlow x a.2.windMps) :
    hourNetwork x a t = hourNetwork x a t' := by
  have hs : ∀ e, e = a.1.ventilation * 3.6 / x.bldg.floorArea → supplied x e = e := by
    intro e he
    unfold supplied
    rcases hf with hf | hf
    · rw [hf, max_eq_right (by norm_num), mul_one]
    · rw [he, hf]; simp
  have ht : throughEnvelope x (a.1.ventilation * 3.6 / x.bldg.floorArea) a.2.temperature t a.2.windMps =
      throughEnvelope x (a.1.ventilation * 3.6 / x.bldg.floorArea) a.2.temperature t' a.2.windMps := by
    unfold throughEnvelope
    rw [hs _ rfl, sub_self, abs_zero, zero_mul, zero_mul, max_eq_right h, max_eq_right h']
  unfold hourNetwork buildingNetwork
  rw [ht]

/-- hour `i` of the year -/
noncomputable def hourAt (x : Sim ℝ) (win : Window) (w : Weather ℝ) (i : ℕ) : Schedule ℝ × HourWeather ℝ :=
  if h : i < 8760 then hourInput x win w ⟨i, h⟩ else hourInput x win w 0

/-- the network of hour `i`, with the air flow at 20 degrees indoors -/
noncomputable def windNetwork (x : Sim ℝ) (win : Window) (w : Weather ℝ) (i : ℕ) : ThreeNodes := hourNetwork x (hourAt x win w i) 20

theorem hourAt_ok {x : Sim ℝ} (hx : Physical x) (win : Window) (w : Weather ℝ) (i : ℕ) :
    HourOk (min x.heating.temperatureSetPointOccupied x.heating.temperatureSetPointUnoccupied)
      (max x.cooling.temperatureSetPointOccupied x.cooling.temperatureSetPointUnoccupied) (hourAt x win w i).1 := by
  unfold hourAt; split_ifs <;> exact hourInput_ok hx win w _

/-- the year of a wind driven building as a course of hours -/
theorem year_run {x : Sim ℝ} (hx : Physical x) {w : Weather ℝ} (hz : NotOverhead w) {low high : ℝ} (hd : WindDriven x w low high)
    (win : Window) :
    ∃ mass air surface power : ℕ → ℝ, mass 0 = 20 ∧
      Run 8760 (windNetwork x win w) (fun i => (hourAt x win w i).1.heatingSetpoint) (fun i => (hourAt x win w i).1.coolingSetpoint)
        mass air surface power ∧
      (∀ i < 8760, ∃ q, (rawResults (x.map fin) (freshRatios (x.map fin).bldg) win (w.map fin))[i]? = some q ∧
        q.Qneed_ht = fin (max 0 (power i)) ∧ q.Qneed_cl = fin (max 0 (-power i))) := by
  have e : List.ofFn (hourInput (x.map fin) win (w.map fin)) =
      (List.ofFn (hourInput x win w)).map fun a => (a.1.map fin, a.2.map fin) := by
    rw [List.map_ofFn]; congr 1; funext i; exact hourInput_fin x win w i (hz.cos i)
  have e20 : (initialState : ThermalState Dbl) = (initialState : ThermalState ℝ).map fin := rfl
  have e0 : freshRatios (x.map fin).bldg = (freshRatios x.bldg).map fin := freshRatios_fin x.bldg hx.floor.ne'
  unfold rawResults
  rw [e, e20, e0, initConsts_fin x (physical_consts hx).1]
  have hok := hourInput_ok hx win w
  have hwd : ∀ i, (hourInput x win w i).2.temperature = w.data DBT i ∧ (hourInput x win w i).2.windMps = w.data WSPD i :=
    fun _ => ⟨rfl, rfl⟩
  have hfan : ∀ i, x.ventilation.fanControlFactor = 1 ∨ (hourInput x win w i).1.ventilation = 0 := by
    intro i
    rcases hd.fans with h | h
    · exact .inl h
    · right
      simp only [hourInput, scheduleCell, h]
      cases (decide (win.hourStart ≤ ((Solar.sliceAt i).hour : ℤ)) && decide (((Solar.sliceAt i).hour : ℤ) ≤ win.hourEnd)) <;> norm_num
  have hat : ∀ i (h : i < 8760), hourAt x win w i = hourInput x win w ⟨i, h⟩ := fun i h => by unfold hourAt; rw [dif_pos h]
  generalize hl : List.ofFn (hourInput x win w) = l
  have hll : l.length = 8760 := by rw [← hl, List.length_ofFn]
  have hlg : ∀ i (h : i < l.length), l[i] = hourAt x win w i := by
    intro i h
    rw [hat i (by omega)]
    simp only [← hl, List.getElem_ofFn]
  have hlv : ∀ a ∈ l, 0 ≤ a.1.ventilation ∧ a.1.heatingSetpoint ≤ a.1.coolingSetpoint := by
    intro a ha; rw [← hl] at ha
    obtain ⟨j, rfl⟩ := (List.mem_ofFn' _ _).mp ha
    exact ⟨(hok j).vent, (hok j).mid⟩
  clear hl e
  obtain ⟨mass, air, surface, power, m0, a0, hb, hq⟩ := course_list hx l hlv initialState
  have i20 : (initialState : ThermalState ℝ).TMT1 = 20 ∧ (initialState : ThermalState ℝ).tiHeatCool = 20 := by
    constructor <;> (simp only [initialState]; norm_num)
  rw [i20.1] at m0
  rw [i20.2] at a0
  have hband : ∀ i ≤ 8760, low ≤ air i ∧ air i ≤ high := by
    intro i hi
    cases i with
    | zero => rw [a0]; exact ⟨hd.startLow, hd.startHigh⟩
    | succ i =>
      have hc := (hb i (by omega)).2
      rw [hlg i (by omega)] at hc
      have ho := hourAt_ok hx win w i
      have h1 := le_min hd.heatOccupied hd.heatUnoccupied
      have h2 := max_le hd.coolOccupied hd.coolUnoccupied
      exact ⟨h1.trans (ho.lo.trans hc.above), hc.below.trans (ho.hi.trans h2)⟩
  refine ⟨mass, air, surface, power, m0, ⟨?_, ?_⟩, ?_⟩
  · intro i hi
    have h := (hb i (by omega)).1
    rw [hlg i (by omega)] at h
    have e : hourNetwork x (hourAt x win w i) (air i) = windNetwork x win w i := by
      unfold windNetwork
      rw [hat i hi]
      refine wind_network _ (hfan _) ?_ ?_
      · rw [(hwd _).1, (hwd _).2]; exact hd.wind _ _ (hband i hi.le).1 (hband i hi.le).2
      · rw [(hwd _).1, (hwd _).2]; exact hd.wind _ _ hd.startLow hd.startHigh
    rw [← e]; exact h
  · intro i hi
    have h := (hb i (by omega)).2
    rw [hlg i (by omega)] at h
    exact h
  · intro i hi
    exact hq i (by omega)

theorem need_list (raw : List (HourResults Dbl)) (f : HourResults Dbl → Dbl) (g : ℕ → ℝ)
    (h : ∀ i (hi : i < raw.length), f raw[i] = fin (g i)) : raw.map f = ((List.range raw.length).map g).map fin := by
  refine List.ext_getElem (by simp) fun i h1 h2 => ?_
  simp only [List.getElem_map, List.getElem_range]
  exact h i (by simpa using h1)

/-- the distribution of a year with some demand, without waste -/
theorem plain_distribution {x : Sim ℝ} (hp : PlainSystems x) {raw : List (HourResults Dbl)} {L1 L2 : List ℝ}
    (f1 : raw.map (·.Qneed_ht) = L1.map fin) (f2 : raw.map (·.Qneed_cl) = L2.map fin) (h : L2.sum + L1.sum ≠ 0) :
    yearDistribution (x.map fin) raw = (fin (1 / (1 + x.heating.hvacLossFactor)), fin (1 / (1 + x.cooling.hvacLossFactor))) := by
  unfold yearDistribution
  rw [f1, f2, fin_csum, fin_csum, csum_real, csum_real]
  generalize L1.sum = H at *
  generalize L2.sum = C at *
  have l1 := hp.lossHeating
  have l2 := hp.lossCooling
  have k1 : max (H / (C + H)) 0.1 ≠ 0 := (lt_max_of_lt_right (by norm_num : (0:ℝ) < 0.1)).ne'
  have k2 : max (1.0 - max (H / (C + H)) 0.1) 0.1 ≠ 0 := (lt_max_of_lt_right (by norm_num : (0:ℝ) < 0.1)).ne'
  have k3 : 1.0 + x.heating.hvacLossFactor + 0 ≠ 0 := by norm_num; linarith
  have k4 : 1.0 + x.cooling.hvacLossFactor + 0 ≠ 0 := by norm_num; linarith
  have e1 : (1.0 : ℝ) = 1 := by norm_num
  simp only [← cmax_real] at k1 k2 k3 k4
  simp only [distribution, Sim.map, Heating.map, Cooling.map, hp.waste, dblfin, ne_eq, h, k1, k2, k3, k4, not_false_eq_true, zero_div]
  simp only [e1, add_zero]

/-- the energy for a need, without waste -/
theorem plain_hour {x : Sim ℝ} (hp : PlainSystems x) {q : HourResults Dbl} {a b : ℝ} (ha : q.Qneed_ht = fin a) (hb : q.Qneed_cl = fin b) :
    hourEndUses (x.map fin) (fin (1 / (1 + x.heating.hvacLossFactor)), fin (1 / (1 + x.cooling.hvacLossFactor))) q 0 +
      hourEndUses (x.map fin) (fin (1 / (1 + x.heating.hvacLossFactor)), fin (1 / (1 + x.cooling.hvacLossFactor))) q 9 =
      fin (a * ((1 + x.heating.hvacLossFactor) / x.heating.efficiency / 1000)) ∧
    hourEndUses (x.map fin) (fin (1 / (1 + x.heating.hvacLossFactor)), fin (1 / (1 + x.cooling.hvacLossFactor))) q 1 =
      fin (b * ((1 + x.cooling.hvacLossFactor) / x.cooling.cop / 1000)) := by
  have z : (1000.0 : ℝ) ≠ 0 := by norm_num
  have h1 := hp.efficiency.ne'
  have h2 := hp.cop.ne'
  have l1 := hp.lossHeating
  have l2 := hp.lossCooling
  have k1 : 1 / (1 + x.heating.hvacLossFactor) ≠ 0 := by positivity
  have k2 : 1 / (1 + x.cooling.hvacLossFactor) ≠ 0 := by positivity
  constructor
  · simp only [hourEndUses, ha, Sim.map, Heating.map]
    cases ceq (fin x.heating.energyType) 1.0 <;>
      simp only [cond_true, cond_false, dblfin, ne_eq, h1, k1, z, not_false_eq_true, zero_div, zero_add, add_zero] <;>
      · congr 1; norm_num; field_simp
  · simp only [hourEndUses, hb, Sim.map, Cooling.map, dblfin, ne_eq, h2, k2, z, not_false_eq_true]
    congr 1; norm_num; field_simp

/-- if a result is a number, there is some demand -/
theorem demand_of_number {x : Sim ℝ} {w : Weather ℝ} {win : Window} (hw : window (x.map fin).pop = some win)
    {raw : List (HourResults Dbl)} (hraw : raw = rawResults (x.map fin) (freshRatios (x.map fin).bldg) win (w.map fin))
    {L1 L2 : List ℝ} (f1 : raw.map (·.Qneed_ht) = L1.map fin) (f2 : raw.map (·.Qneed_cl) = L2.map fin)
    (n1 : ∀ a ∈ L1, 0 ≤ a) (n2 : ∀ a ∈ L2, 0 ≤ a)
    {m' : Model Dbl} {r : List (EndUses Dbl)} (hr : simulate false (fresh x w) = some (m', r))
    {j : ℕ} {hj : j < r.length} {v : ℝ} (hv : r[j] 1 = fin v) : L2.sum + L1.sum ≠ 0 := by
  intro h0
  have hdem := C26_no_demand (fresh x w) hw
  have e : (pushAll (fresh x w).sim.bldg (fresh x w).pushed).ratios = freshRatios (x.map fin).bldg := by
    simp only [fresh, pushAll_empty]
  have e1 : (fresh x w).sim = x.map fin := rfl
  have e2 : (fresh x w).weather = w.map fin := rfl
  rw [e, e1, e2, ← hraw] at hdem
  have g1 := List.sum_nonneg n1
  have g2 := List.sum_nonneg n2
  obtain ⟨m'', r', hr', -, hn⟩ := hdem (by
    intro q hq
    have q1 : q.Qneed_ht ∈ L1.map fin := by rw [← f1]; exact List.mem_map_of_mem hq
    have q2 : q.Qneed_cl ∈ L2.map fin := by rw [← f2]; exact List.mem_map_of_mem hq
    obtain ⟨a, ha, ea⟩ := List.mem_map.mp q1
    obtain ⟨b, hb, eb⟩ := List.mem_map.mp q2
    have a1 := List.single_le_sum n1 a ha
    have b1 := List.single_le_sum n2 b hb
    have a2 := n1 a ha
    have b2 := n2 b hb
    rw [← ea, ← eb, show a = 0 by linarith, show b = 0 by linarith]
    exact ⟨rfl, rfl⟩)
  rw [hr] at hr'
  have er : r = r' := congrArg Prod.snd (Option.some.inj hr')
  subst er
  have := (hn (r[j]) (List.getElem_mem hj)).1
  rw [hv] at this
  cases this

theorem results_of {x : Sim ℝ} {w : Weather ℝ} {win : Window} (hw : window (x.map fin).pop = some win)
    {m' : Model Dbl} {r : List (EndUses Dbl)} (hr : simulate false (fresh x w) = some (m', r)) :
    r = endUses (x.map fin) (rawResults (x.map fin) (freshRatios (x.map fin).bldg) win (w.map fin)) := by
  have h := simulate_of_window (m := fresh x w) hw
  rw [hr] at h
  have := congrArg Prod.snd (Option.some.inj h)
  simp only [fresh, pushAll_empty] at this
  exact this

/-- the energy of a year without waste is proportional to the needs -/
theorem course_energy {x : Sim ℝ} (hp : PlainSystems x) {w : Weather ℝ} {win : Window}
    (hw : window (x.map fin).pop = some win) {power : ℕ → ℝ} {raw : List (HourResults Dbl)}
    (hraw : raw = rawResults (x.map fin) (freshRatios (x.map fin).bldg) win (w.map fin)) (hlen : ∀ i, i < raw.length ↔ i < 8760)
    (hq : ∀ i < 8760, ∃ q, raw[i]? = some q ∧
        q.Qneed_ht = fin (max 0 (power i)) ∧ q.Qneed_cl = fin (max 0 (-power i)))
    {m' : Model Dbl} {r : List (EndUses Dbl)} (hr : simulate false (fresh x w) = some (m', r)) {heat cool : Fin 8760 → ℝ}
    (hc : Course r heat cool) (i : Fin 8760) :
    heat i = max 0 (power i) * ((1 + x.heating.hvacLossFactor) / x.heating.efficiency / 1000) ∧
    cool i = max 0 (-power i) * ((1 + x.cooling.hvacLossFactor) / x.cooling.cop / 1000) := by
  have e1 := results_of hw hr
  have hq' : ∀ i (hi : i < raw.length), raw[i].Qneed_ht = fin (max 0 (power i)) ∧ raw[i].Qneed_cl = fin (max 0 (-power i)) := by
    intro i hi
    obtain ⟨q, h1, h2, h3⟩ := hq i ((hlen i).mp hi)
    rw [List.getElem?_eq_getElem hi] at h1
    rw [Option.some.inj h1]; exact ⟨h2, h3⟩
  have f1 := need_list raw (·.Qneed_ht) _ fun i hi => (hq' i hi).1
  have f2 := need_list raw (·.Qneed_cl) _ fun i hi => (hq' i hi).2
  generalize hL1 : (List.range raw.length).map (fun i => max 0 (power i)) = L1 at f1
  generalize hL2 : (List.range raw.length).map (fun i => max 0 (-power i)) = L2 at f2
  have n1 : ∀ a ∈ L1, 0 ≤ a := by
    rw [← hL1]; intro a ha; obtain ⟨j, -, rfl⟩ := List.mem_map.mp ha; exact le_max_left _ _
  have n2 : ∀ a ∈ L2, 0 ≤ a := by
    rw [← hL2]; intro a ha; obtain ⟨j, -, rfl⟩ := List.mem_map.mp ha; exact le_max_left _ _
  obtain ⟨hi, h1, h2⟩ := hc i
  have hsum := demand_of_number hw hraw f1 f2 n1 n2 hr h2
  have hdist := plain_distribution hp f1 f2 hsum
  have hir : i.1 < raw.length := (hlen i.1).mpr i.2
  rw [← hraw] at e1
  have er : r[i.1] = hourEndUses (x.map fin) (yearDistribution (x.map fin) raw) raw[i.1] := by
    simp only [e1, endUses, List.getElem_map]
  obtain ⟨g1, g2⟩ := plain_hour hp (hq' i.1 hir).1 (hq' i.1 hir).2
  rw [er, hdist] at h1 h2
  exact ⟨Dbl.fin.inj (h1.symm.trans g1), Dbl.fin.inj (h2.symm.trans g2)⟩

theorem wind_solid {x : Sim ℝ} (hx : Physical x) (hm : HeavyEnough x) (win : Window) (w : Weather ℝ) (i : ℕ) :
    Solid (windNetwork x win w i) := by
  have hv : 0 ≤ (hourAt x win w i).1.ventilation * 3.6 / x.bldg.floorArea := by
    have := hx.floor
    have := (hourAt_ok hx win w i).vent
    positivity
  obtain ⟨p1, p2, p3, p4, p5, p6⟩ := network_positive hx hv 20 (insideOf x (hourAt x win w i)) (hourAt x win w i).2.temperature
    (hourAt x win w i).2.windMps (hourAt x win w i).2.solarRadiation
  exact ⟨p1, p2, p3, p4, p5, p6, hm⟩

theorem raw_length {x : Sim ℝ} {w : Weather ℝ} {win : Window} {raw : List (HourResults Dbl)}
    (hraw : raw = rawResults (x.map fin) (freshRatios (x.map fin).bldg) win (w.map fin)) (i : ℕ) : i < raw.length ↔ i < 8760 := by
  rw [hraw, rawResults_length]

/-- the energy of the year of a wind driven building -/
theorem wind_energy {x : Sim ℝ} (hx : Physical x) (hp : PlainSystems x) {w : Weather ℝ} (hz : NotOverhead w) {low high : ℝ}
    (hd : WindDriven x w low high) {win : Window} (hw : window (x.map fin).pop = some win)
    {m' : Model Dbl} {r : List (EndUses Dbl)} (hr : simulate false (fresh x w) = some (m', r)) {heat cool : Fin 8760 → ℝ}
    (hc : Course r heat cool) :
    ∃ mass air surface power : ℕ → ℝ, mass 0 = 20 ∧
      Run 8760 (windNetwork x win w) (fun i => (hourAt x win w i).1.heatingSetpoint) (fun i => (hourAt x win w i).1.coolingSetpoint)
        mass air surface power ∧
      ∀ i : Fin 8760, heat i = max 0 (power i) * ((1 + x.heating.hvacLossFactor) / x.heating.efficiency / 1000) ∧
        cool i = max 0 (-power i) * ((1 + x.cooling.hvacLossFactor) / x.cooling.cop / 1000) := by
  obtain ⟨mass, air, surface, power, m0, hrun, hq⟩ := year_run hx hz hd win
  generalize hraw : rawResults (x.map fin) (freshRatios (x.map fin).bldg) win (w.map fin) = raw at hq
  exact ⟨mass, air, surface, power, m0, hrun, course_energy hp hw hraw.symm (raw_length hraw.symm) hq hr hc⟩

theorem year_window {x : Sim ℝ} {w : Weather ℝ} {m' : Model Dbl} {r : List (EndUses Dbl)}
    (hr : simulate false (fresh x w) = some (m', r)) : ∃ win, window (x.map fin).pop = some win := by
  obtain ⟨win, h, -⟩ := simulate_false hr
  exact ⟨win, h⟩

theorem set_network (x y : Sim ℝ) (win : Window) (w : Weather ℝ) (i : ℕ) :
    windNetwork (takeSetPoints x y) win w i = windNetwork x win w i := by
  unfold windNetwork hourAt; split_ifs <;> rfl

/-- the set-points of an hour are those of occupied or those of unoccupied time -/
theorem hour_sets (x : Sim ℝ) (win : Window) (w : Weather ℝ) (i : ℕ) : ∃ b : Bool, ∀ y : Sim ℝ, y.pop = x.pop →
    (hourAt y win w i).1.heatingSetpoint = (bif b then y.heating.temperatureSetPointOccupied else y.heating.temperatureSetPointUnoccupied) ∧
    (hourAt y win w i).1.coolingSetpoint = (bif b then y.cooling.temperatureSetPointOccupied else y.cooling.temperatureSetPointUnoccupied) ∧
    (hourAt y win w i).1.interiorEquipment =
      (bif b then y.building.electricApplianceHeatGainOccupied else y.building.electricApplianceHeatGainUnoccupied) := by
  unfold hourAt
  split_ifs with h
  · exact ⟨_, fun y _ => ⟨rfl, rfl, rfl⟩⟩
  · exact ⟨_, fun y _ => ⟨rfl, rfl, rfl⟩⟩

theorem scaled_sum {N : ℕ} {k : ℝ} (hk : 0 ≤ k) {f f' : ℕ → ℝ} (h : ∑ i ∈ Finset.range N, f' i ≤ ∑ i ∈ Finset.range N, f i)
    {g g' : Fin N → ℝ} (e : ∀ i : Fin N, g i = f i * k) (e' : ∀ i : Fin N, g' i = f' i * k) : ∑ i, g' i ≤ ∑ i, g i := by
  rw [Finset.sum_congr rfl fun i _ => e i, Finset.sum_congr rfl fun i _ => e' i, ← Finset.sum_mul, ← Finset.sum_mul,
    ← Finset.sum_range f, ← Finset.sum_range f']
  exact mul_le_mul_of_nonneg_right h hk

theorem scaled_hour {N : ℕ} {k : ℝ} (hk : 0 ≤ k) {f f' : ℕ → ℝ} (h : ∀ i < N, f' i ≤ f i)
    {g g' : Fin N → ℝ} (e : ∀ i : Fin N, g i = f i * k) (e' : ∀ i : Fin N, g' i = f' i * k) (i : Fin N) : g' i ≤ g i := by
  rw [e, e']
  exact mul_le_mul_of_nonneg_right (h i.1 i.2) hk

theorem heating_factor {x : Sim ℝ} (hp : PlainSystems x) : 0 ≤ (1 + x.heating.hvacLossFactor) / x.heating.efficiency / 1000 := by
  have := hp.efficiency; have := hp.lossHeating; positivity

theorem cooling_factor {x : Sim ℝ} (hp : PlainSystems x) : 0 ≤ (1 + x.cooling.hvacLossFactor) / x.cooling.cop / 1000 := by
  have := hp.cop; have := hp.lossCooling; positivity

theorem heating_powers {x y : Sim ℝ} (hx : Physical x) (hm : HeavyEnough x)
    (h1 : y.heating.temperatureSetPointOccupied ≤ x.heating.temperatureSetPointOccupied)
    (h2 : y.heating.temperatureSetPointUnoccupied ≤ x.heating.temperatureSetPointUnoccupied)
    (h3 : y.cooling.temperatureSetPointOccupied = x.cooling.temperatureSetPointOccupied)
    (h4 : y.cooling.temperatureSetPointUnoccupied = x.cooling.temperatureSetPointUnoccupied)
    (win : Window) {w : Weather ℝ}
    {mass air surface power mass' air' surface' power' : ℕ → ℝ} (m0 : mass 0 = 20) (m0' : mass' 0 = 20)
    (run : Run 8760 (windNetwork x win w) (fun i => (hourAt x win w i).1.heatingSetpoint)
      (fun i => (hourAt x win w i).1.coolingSetpoint) mass air surface power)
    (run' : Run 8760 (windNetwork (takeSetPoints x y) win w) (fun i => (hourAt (takeSetPoints x y) win w i).1.heatingSetpoint)
      (fun i => (hourAt (takeSetPoints x y) win w i).1.coolingSetpoint) mass' air' surface' power')
    : (∀ i < 8760, max 0 (-power' i) ≤ max 0 (-power i)) ∧ ∑ i ∈ Finset.range 8760, max 0 (power' i) ≤ ∑ i ∈ Finset.range 8760, max 0 (power i) := by
  have hnet : windNetwork (takeSetPoints x y) win w = windNetwork x win w := funext (set_network x y win w)
  have hC : (fun i => (hourAt (takeSetPoints x y) win w i).1.coolingSetpoint) = fun i => (hourAt x win w i).1.coolingSetpoint := by
    funext i
    obtain ⟨b, hb⟩ := hour_sets x win w i
    rw [(hb x rfl).2.1, (hb (takeSetPoints x y) rfl).2.1]
    simp only [takeSetPoints, h3, h4]
  have hH : ∀ i < 8760, (hourAt (takeSetPoints x y) win w i).1.heatingSetpoint ≤ (hourAt x win w i).1.heatingSetpoint := by
    intro i _
    obtain ⟨b, hb⟩ := hour_sets x win w i
    rw [(hb x rfl).1, (hb (takeSetPoints x y) rfl).1]
    cases b
    · exact h2
    · exact h1
  rw [hnet, hC] at run'
  exact run_heating run' run (fun i _ => wind_solid hx hm win w i) (c := heatCapacity x) (fun _ _ => rfl) hH (m0'.trans m0.symm)

/-- **C72** Turning down the heating saves heating energy over the year, and cooling energy in every hour: of two simulations of a heavy enough building
whose air comes in with the wind that differ in the set-points for heating only, the one with the lower set-points takes no more energy for heating in the year and
no more energy for cooling in any hour. -/
theorem C72_heating {x y : Sim ℝ} (hx : Physical x) (hy : Physical (takeSetPoints x y)) (hp : PlainSystems x) (hm : HeavyEnough x)
    {w : Weather ℝ} (hz : NotOverhead w) {low high : ℝ} (hd : WindDriven x w low high) (hd' : WindDriven (takeSetPoints x y) w low high)
    (h1 : y.heating.temperatureSetPointOccupied ≤ x.heating.temperatureSetPointOccupied)
    (h2 : y.heating.temperatureSetPointUnoccupied ≤ x.heating.temperatureSetPointUnoccupied)
    (h3 : y.cooling.temperatureSetPointOccupied = x.cooling.temperatureSetPointOccupied)
    (h4 : y.cooling.temperatureSetPointUnoccupied = x.cooling.temperatureSetPointUnoccupied)
    {m m' : Model Dbl} {r r' : List (EndUses Dbl)} (hr : simulate false (fresh x w) = some (m, r))
    (hr' : simulate false (fresh (takeSetPoints x y) w) = some (m', r')) {heat cool heat' cool' : Fin 8760 → ℝ}
    (hc : Course r heat cool) (hc' : Course r' heat' cool') :
    ∑ i, heat' i ≤ ∑ i, heat i ∧ ∀ i, cool' i ≤ cool i := by
  obtain ⟨win, hw⟩ := year_window hr
  obtain ⟨mass, air, surface, power, m0, run, e⟩ := wind_energy hx hp hz hd hw hr hc
  obtain ⟨mass', air', surface', power', m0', run', e'⟩ := wind_energy hy ⟨hp.1, hp.2, hp.3, hp.4, hp.5⟩ hz hd' hw hr' hc'
  obtain ⟨k1, k2⟩ := heating_powers hx hm h1 h2 h3 h4 win m0 m0' run run'
  exact ⟨scaled_sum (heating_factor hp) k2 (fun i => (e i).1) (fun i => (e' i).1),
    scaled_hour (cooling_factor hp) k1 (fun i => (e i).2) (fun i => (e' i).2)⟩

theorem cooling_powers {x y : Sim ℝ} (hx : Physical x) (hm : HeavyEnough x)
    (h1 : y.heating.temperatureSetPointOccupied = x.heating.temperatureSetPointOccupied)
    (h2 : y.heating.temperatureSetPointUnoccupied = x.heating.temperatureSetPointUnoccupied)
    (h3 : x.cooling.temperatureSetPointOccupied ≤ y.cooling.temperatureSetPointOccupied)
    (h4 : x.cooling.temperatureSetPointUnoccupied ≤ y.cooling.temperatureSetPointUnoccupied)
    (win : Window) {w : Weather ℝ}
    {mass air surface power mass' air' surface' power' : ℕ → ℝ} (m0 : mass 0 = 20) (m0' : mass' 0 = 20)
    (run : Run 8760 (windNetwork x win w) (fun i => (hourAt x win w i).1.heatingSetpoint)
      (fun i => (hourAt x win w i).1.coolingSetpoint) mass air surface power)
    (run' : Run 8760 (windNetwork (takeSetPoints x y) win w) (fun i => (hourAt (takeSetPoints x y) win w i).1.heatingSetpoint)
      (fun i => (hourAt (takeSetPoints x y) win w i).1.coolingSetpoint) mass' air' surface' power')
    : (∀ i < 8760, max 0 (power' i) ≤ max 0 (power i)) ∧ ∑ i ∈ Finset.range 8760, max 0 (-power' i) ≤ ∑ i ∈ Finset.range 8760, max 0 (-power i) := by
  have hnet : windNetwork (takeSetPoints x y) win w = windNetwork x win w := funext (set_network x y win w)
  have hH : (fun i => (hourAt (takeSetPoints x y) win w i).1.heatingSetpoint) = fun i => (hourAt x win w i).1.heatingSetpoint := by
    funext i
    obtain ⟨b, hb⟩ := hour_sets x win w i
    rw [(hb x rfl).1, (hb (takeSetPoints x y) rfl).1]
    simp only [takeSetPoints, h1, h2]
  have hC : ∀ i < 8760, (hourAt x win w i).1.coolingSetpoint ≤ (hourAt (takeSetPoints x y) win w i).1.coolingSetpoint := by
    intro i _
    obtain ⟨b, hb⟩ := hour_sets x win w i
    rw [(hb x rfl).2.1, (hb (takeSetPoints x y) rfl).2.1]
    cases b
    · exact h4
    · exact h3
  rw [hnet, hH] at run'
  exact run_cooling run run' (fun i _ => wind_solid hx hm win w i) (c := heatCapacity x) (fun _ _ => rfl) hC (m0.trans m0'.symm)

/-- **C72** Turning up the set-points for cooling saves cooling energy over the year, and heating energy in every hour. -/
theorem C72_cooling {x y : Sim ℝ} (hx : Physical x) (hy : Physical (takeSetPoints x y)) (hp : PlainSystems x) (hm : HeavyEnough x)
    {w : Weather ℝ} (hz : NotOverhead w) {low high : ℝ} (hd : WindDriven x w low high) (hd' : WindDriven (takeSetPoints x y) w low high)
    (h1 : y.heating.temperatureSetPointOccupied = x.heating.temperatureSetPointOccupied)
    (h2 : y.heating.temperatureSetPointUnoccupied = x.heating.temperatureSetPointUnoccupied)
    (h3 : x.cooling.temperatureSetPointOccupied ≤ y.cooling.temperatureSetPointOccupied)
    (h4 : x.cooling.temperatureSetPointUnoccupied ≤ y.cooling.temperatureSetPointUnoccupied)
    {m m' : Model Dbl} {r r' : List (EndUses Dbl)} (hr : simulate false (fresh x w) = some (m, r))
    (hr' : simulate false (fresh (takeSetPoints x y) w) = some (m', r')) {heat cool heat' cool' : Fin 8760 → ℝ}
    (hc : Course r heat cool) (hc' : Course r' heat' cool') :
    ∑ i, cool' i ≤ ∑ i, cool i ∧ ∀ i, heat' i ≤ heat i := by
  obtain ⟨win, hw⟩ := year_window hr
  obtain ⟨mass, air, surface, power, m0, run, e⟩ := wind_energy hx hp hz hd hw hr hc
  obtain ⟨mass', air', surface', power', m0', run', e'⟩ := wind_energy hy ⟨hp.1, hp.2, hp.3, hp.4, hp.5⟩ hz hd' hw hr' hc'
  obtain ⟨k1, k2⟩ := cooling_powers hx hm h1 h2 h3 h4 win m0 m0' run run'
  exact ⟨scaled_sum (cooling_factor hp) k2 (fun i => (e i).2) (fun i => (e' i).2),
    scaled_hour (heating_factor hp) k1 (fun i => (e i).1) (fun i => (e' i).1)⟩

/-- the share of the gains that goes to the surfaces is not negative -/
theorem share_nonneg {x : Sim ℝ} (hx : Physical x)
    (hA : massArea x + windowConductance x / massCoefficient x ≤ x.bldg.totalAreaPerFloorArea) :
    0 ≤ 1 - massArea x / x.bldg.totalAreaPerFloorArea - windowConductance x / (massCoefficient x * x.bldg.totalAreaPerFloorArea) ∧
    0 ≤ massArea x / x.bldg.totalAreaPerFloorArea := by
  have hta := hx.totalArea
  have hmc : 0 < massCoefficient x := by have := hx.hci; have := hx.hri; unfold massCoefficient; positivity
  obtain ⟨-, p2, -⟩ := network_positive hx (le_refl (0:ℝ)) 20 0 0 0 (fun _ => 0)
  have hma : 0 ≤ massArea x := nonneg_of_mul_nonneg_right (show 0 ≤ massCoefficient x * massArea x from p2.le) hmc
  have : 1 - massArea x / x.bldg.totalAreaPerFloorArea - windowConductance x / (massCoefficient x * x.bldg.totalAreaPerFloorArea)
      = (x.bldg.totalAreaPerFloorArea - (massArea x + windowConductance x / massCoefficient x)) / x.bldg.totalAreaPerFloorArea := by
    field_simp; ring
  rw [this]
  exact ⟨div_nonneg (by linarith) hta.le, by positivity⟩

/-- more heat given off inside makes warmer hours -/
theorem warmer_inside {x : Sim ℝ} (hx : Physical x) (i0 : 0 ≤ x.simSettings.phiIntFractionToAirNode)
    (i1 : x.simSettings.phiIntFractionToAirNode ≤ 1)
    (hA : massArea x + windowConductance x / massCoefficient x ≤ x.bldg.totalAreaPerFloorArea) (e t a b T W : ℝ) (sun : Fin 9 → ℝ) (h : a ≤ b) :
    Warmer (buildingNetwork x e t a T W sun) (buildingNetwork x e t b T W sun) := by
  obtain ⟨hsh, hma⟩ := share_nonneg hx hA
  have hg : (1 - x.simSettings.phiSolFractionToAirNode) * solarGain x sun + (1 - x.simSettings.phiIntFractionToAirNode) * a ≤
      (1 - x.simSettings.phiSolFractionToAirNode) * solarGain x sun + (1 - x.simSettings.phiIntFractionToAirNode) * b :=
    add_le_add le_rfl (mul_le_mul_of_nonneg_left h (by linarith))
  constructor <;> try first | rfl | exact le_rfl
  · exact add_le_add le_rfl (mul_le_mul_of_nonneg_left h i0)
  · exact mul_le_mul_of_nonneg_left hg hsh
  · exact mul_le_mul_of_nonneg_left hg hma

/-- more sun makes warmer hours -/
theorem warmer_sun {x y : Sim ℝ} (hx : Physical x) (s0 : 0 ≤ x.simSettings.phiSolFractionToAirNode)
    (s1 : x.simSettings.phiSolFractionToAirNode ≤ 1)
    (hA : massArea x + windowConductance x / massCoefficient x ≤ x.bldg.totalAreaPerFloorArea) (e t a T W : ℝ) (sun : Fin 9 → ℝ)
    (h : solarGain (takeSunProtection x y) sun ≤ solarGain x sun) :
    Warmer (buildingNetwork (takeSunProtection x y) e t a T W sun) (buildingNetwork x e t a T W sun) := by
  obtain ⟨hsh, hma⟩ := share_nonneg hx hA
  have hg : (1 - x.simSettings.phiSolFractionToAirNode) * solarGain (takeSunProtection x y) sun +
        (1 - x.simSettings.phiIntFractionToAirNode) * a ≤
      (1 - x.simSettings.phiSolFractionToAirNode) * solarGain x sun + (1 - x.simSettings.phiIntFractionToAirNode) * a :=
    add_le_add (mul_le_mul_of_nonneg_left h (by linarith)) le_rfl
  constructor <;> try first | rfl | exact le_rfl
  · exact add_le_add (mul_le_mul_of_nonneg_left h s0) le_rfl
  · exact mul_le_mul_of_nonneg_left hg hsh
  · exact mul_le_mul_of_nonneg_left hg hma

theorem physical_appliances {x : Sim ℝ} (hx : Physical x) (y : Sim ℝ) : Physical (takeAppliances x y) :=
  { floor := hx.floor, wallArea := hx.wallArea, wallU := hx.wallU, windowArea := hx.windowArea, windowU := hx.windowU
    hci := hx.hci, hri := hx.hri, totalArea := hx.totalArea, irradiance := hx.irradiance, interiorHeatCapacity := hx.interiorHeatCapacity
    wallHeatCapacity := hx.wallHeatCapacity, opaque_ := hx.opaque_, luxSensor := hx.luxSensor, luxAuto := hx.luxAuto
    luxBoth := hx.luxBoth, luxManual := hx.luxManual, supplyRate := hx.supplyRate, dCp := hx.dCp
    setOccupied := hx.setOccupied, setUnoccupied := hx.setUnoccupied }

theorem appliances_network (x y : Sim ℝ) (win : Window) (w : Weather ℝ) (i : ℕ) :
    windNetwork (takeAppliances x y) win w i = buildingNetwork x ((hourAt x win w i).1.ventilation * 3.6 / x.bldg.floorArea) 20
      ((hourAt (takeAppliances x y) win w i).1.interiorEquipment +
        electricForTotalLightArea x.bldg (initConsts x) (freshRatios x.bldg) (hourAt x win w i).2.solarRadiation *
          (hourAt x win w i).1.interiorLighting * x.lights.elecInternalGains)
      (hourAt x win w i).2.temperature (hourAt x win w i).2.windMps (hourAt x win w i).2.solarRadiation := by
  unfold windNetwork hourAt; split_ifs <;> rfl

theorem appliances_powers {x y : Sim ℝ} (hx : Physical x) (hm : HeavyEnough x)
    (i0 : 0 ≤ x.simSettings.phiIntFractionToAirNode) (i1 : x.simSettings.phiIntFractionToAirNode ≤ 1)
    (hA : massArea x + windowConductance x / massCoefficient x ≤ x.bldg.totalAreaPerFloorArea)
    (h1 : x.building.electricApplianceHeatGainOccupied ≤ y.building.electricApplianceHeatGainOccupied)
    (h2 : x.building.electricApplianceHeatGainUnoccupied ≤ y.building.electricApplianceHeatGainUnoccupied)
    (win : Window) {w : Weather ℝ}
    {mass air surface power mass' air' surface' power' : ℕ → ℝ} (m0 : mass 0 = 20) (m0' : mass' 0 = 20)
    (run : Run 8760 (windNetwork x win w) (fun i => (hourAt x win w i).1.heatingSetpoint)
      (fun i => (hourAt x win w i).1.coolingSetpoint) mass air surface power)
    (run' : Run 8760 (windNetwork (takeAppliances x y) win w) (fun i => (hourAt (takeAppliances x y) win w i).1.heatingSetpoint)
      (fun i => (hourAt (takeAppliances x y) win w i).1.coolingSetpoint) mass' air' surface' power')
    : ∀ i < 8760, power' i ≤ power i := by
  have hH : (fun i => (hourAt (takeAppliances x y) win w i).1.heatingSetpoint) = fun i => (hourAt x win w i).1.heatingSetpoint := by
    funext i; unfold hourAt; split_ifs <;> rfl
  have hC : (fun i => (hourAt (takeAppliances x y) win w i).1.coolingSetpoint) = fun i => (hourAt x win w i).1.coolingSetpoint := by
    funext i; unfold hourAt; split_ifs <;> rfl
  have hwarm : ∀ i, Warmer (windNetwork x win w i) (windNetwork (takeAppliances x y) win w i) := by
    intro i
    rw [appliances_network]
    refine warmer_inside hx i0 i1 hA _ _ _ _ _ _ _ (add_le_add ?_ le_rfl)
    obtain ⟨b, hb⟩ := hour_sets x win w i
    rw [(hb x rfl).2.2, (hb (takeAppliances x y) rfl).2.2]
    cases b
    · exact h2
    · exact h1
  rw [hH, hC] at run'
  exact run_gains run run' (fun i _ => wind_solid hx hm win w i) (fun i _ => hwarm i) (m0.trans m0'.symm).le

/-- **C72** Appliances that give off more heat never raise the energy for heating and never lower the energy for cooling, in any hour of the year. -/
theorem C72_appliances {x y : Sim ℝ} (hx : Physical x) (hp : PlainSystems x) (hm : HeavyEnough x)
    (i0 : 0 ≤ x.simSettings.phiIntFractionToAirNode) (i1 : x.simSettings.phiIntFractionToAirNode ≤ 1)
    (hA : massArea x + windowConductance x / massCoefficient x ≤ x.bldg.totalAreaPerFloorArea)
    {w : Weather ℝ} (hz : NotOverhead w) {low high : ℝ} (hd : WindDriven x w low high)
    (h1 : x.building.electricApplianceHeatGainOccupied ≤ y.building.electricApplianceHeatGainOccupied)
    (h2 : x.building.electricApplianceHeatGainUnoccupied ≤ y.building.electricApplianceHeatGainUnoccupied)
    {m m' : Model Dbl} {r r' : List (EndUses Dbl)} (hr : simulate false (fresh x w) = some (m, r))
    (hr' : simulate false (fresh (takeAppliances x y) w) = some (m', r')) {heat cool heat' cool' : Fin 8760 → ℝ}
    (hc : Course r heat cool) (hc' : Course r' heat' cool') :
    (∀ i, heat' i ≤ heat i) ∧ ∀ i, cool i ≤ cool' i := by
  obtain ⟨win, hw⟩ := year_window hr
  obtain ⟨mass, air, surface, power, m0, run, e⟩ := wind_energy hx hp hz hd hw hr hc
  obtain ⟨mass', air', surface', power', m0', run', e'⟩ := wind_energy (physical_appliances hx y) ⟨hp.1, hp.2, hp.3, hp.4, hp.5⟩ hz
    ⟨hd.1, hd.2, hd.3, hd.4, hd.5, hd.6, hd.7, hd.8⟩ hw hr' hc'
  have k := appliances_powers hx hm i0 i1 hA h1 h2 win m0 m0' run run'
  exact ⟨scaled_hour (heating_factor hp) (fun i hi => max_le_max le_rfl (k i hi)) (fun i => (e i).1) (fun i => (e' i).1),
    scaled_hour (cooling_factor hp) (fun i hi => max_le_max le_rfl (neg_le_neg (k i hi))) (fun i => (e' i).2) (fun i => (e i).2)⟩

theorem light_real {x y : Sim ℝ} (hA : x.bldg.floorArea ≠ 0) (h1 : x.bldg.irradianceForMaxShadingUse ≠ 0)
    (h2 : y.bldg.irradianceForMaxShadingUse ≠ 0) (sol : Fin 9 → ℝ) :
    electricForTotalLightArea (takeSunProtection x y).bldg (initConsts (takeSunProtection x y)) (freshRatios (takeSunProtection x y).bldg) sol =
    electricForTotalLightArea x.bldg (initConsts x) (freshRatios x.bldg) sol := by
  have key : ∀ z : Sim ℝ, z.bldg.floorArea ≠ 0 → z.bldg.irradianceForMaxShadingUse ≠ 0 → ∀ i,
      (freshRatios z.bldg).naturalLightRatio i + (initConsts z).shadingUsePerWPerM2 *
        (freshRatios z.bldg).naturalLightShadeRatioReduction i * cmin z.bldg.irradianceForMaxShadingUse (sol i) =
      z.bldg.windowArea i * (z.bldg.windowShadingDevice i / 0.87) / z.bldg.floorArea := by
    intro z hz hz' i
    simp only [freshRatios, initConsts, facade, structureCalculations, sub_self, mul_zero, zero_mul, add_zero]
  unfold electricForTotalLightArea
  simp only [key x hA h1, key (takeSunProtection x y) hA h2]
  rfl

theorem sun_network {x y : Sim ℝ} (hA : x.bldg.floorArea ≠ 0) (h1 : x.bldg.irradianceForMaxShadingUse ≠ 0)
    (h2 : y.bldg.irradianceForMaxShadingUse ≠ 0) (win : Window) (w : Weather ℝ) (i : ℕ) :
    windNetwork (takeSunProtection x y) win w i = buildingNetwork (takeSunProtection x y)
      ((hourAt x win w i).1.ventilation * 3.6 / x.bldg.floorArea) 20 (insideOf x (hourAt x win w i))
      (hourAt x win w i).2.temperature (hourAt x win w i).2.windMps (hourAt x win w i).2.solarRadiation := by
  have e : hourAt (takeSunProtection x y) win w i = hourAt x win w i := by unfold hourAt; split_ifs <;> rfl
  unfold windNetwork hourNetwork
  rw [e]
  have ei : insideOf (takeSunProtection x y) (hourAt x win w i) = insideOf x (hourAt x win w i) := by
    unfold insideOf
    rw [light_real hA h1 h2]
    rfl
  rw [ei]
  rfl

theorem sun_nonneg {w : Weather ℝ} (hz : NotOverhead w) (i : Fin 8760) (hb : 0 ≤ w.data EB i) (hd : 0 ≤ w.data ED i) (hg : 0 ≤ w.data EGH i)
    (hup : 0 ≤ Spec.Sun.up (SunLemmas.place w) (i.1 / 24 : ℕ) (i.1 % 24 : ℕ) ∨ (w.data EB i = 0 ∧ w.data ED i = 0)) (k : Fin 9) :
    0 ≤ (hourWeather w i).solarRadiation k := by
  show 0 ≤ (if h : k.1 < 8 then Solar.eglobe w i ⟨k.1, h⟩ else w.data EGH i)
  split_ifs with hk
  · have e2 := C20_sum w i ⟨k.1, hk⟩ (hz i)
    rw [Solar.eglobe_fin w i ⟨k.1, hk⟩ (hz.cos i)] at e2
    rcases hup with hup | ⟨d1, d2⟩
    · obtain ⟨e', h1, h2, -⟩ := C20_total w i ⟨k.1, hk⟩ (hz i) hup hb hd
      rw [Solar.eglobe_fin w i ⟨k.1, hk⟩ (hz.cos i)] at h1
      rw [Dbl.fin.inj h1]
      exact le_trans (by positivity) h2
    · rw [Dbl.fin.inj e2, d1, d2]
      simp [Spec.Sun.direct, Spec.Sun.sky, Spec.Sun.ground]
  · exact hg

theorem sun_powers {x y : Sim ℝ} (hx : Physical x) (hm : HeavyEnough x)
    (h : BetterProtected x y)
    (s0 : 0 ≤ x.simSettings.phiSolFractionToAirNode) (s1 : x.simSettings.phiSolFractionToAirNode ≤ 1)
    (hA : massArea x + windowConductance x / massCoefficient x ≤ x.bldg.totalAreaPerFloorArea)
    (win : Window) {w : Weather ℝ} (hz : NotOverhead w)
    (hrad : ∀ i, 0 ≤ w.data EB i ∧ 0 ≤ w.data ED i ∧ 0 ≤ w.data EGH i ∧
      (0 ≤ Spec.Sun.up (SunLemmas.place w) (i.1 / 24 : ℕ) (i.1 % 24 : ℕ) ∨ (w.data EB i = 0 ∧ w.data ED i = 0)))
    {mass air surface power mass' air' surface' power' : ℕ → ℝ} (m0 : mass 0 = 20) (m0' : mass' 0 = 20)
    (run : Run 8760 (windNetwork x win w) (fun i => (hourAt x win w i).1.heatingSetpoint)
      (fun i => (hourAt x win w i).1.coolingSetpoint) mass air surface power)
    (run' : Run 8760 (windNetwork (takeSunProtection x y) win w) (fun i => (hourAt (takeSunProtection x y) win w i).1.heatingSetpoint)
      (fun i => (hourAt (takeSunProtection x y) win w i).1.coolingSetpoint) mass' air' surface' power')
    : ∀ i < 8760, power i ≤ power' i := by
  have hH : (fun i => (hourAt (takeSunProtection x y) win w i).1.heatingSetpoint) = fun i => (hourAt x win w i).1.heatingSetpoint := by
    funext i; unfold hourAt; split_ifs <;> rfl
  have hC : (fun i => (hourAt (takeSunProtection x y) win w i).1.coolingSetpoint) = fun i => (hourAt x win w i).1.coolingSetpoint := by
    funext i; unfold hourAt; split_ifs <;> rfl
  have hwarm : ∀ i, Warmer (windNetwork (takeSunProtection x y) win w i) (windNetwork x win w i) := by
    intro i
    rw [sun_network hx.floor.ne' hx.irradiance.ne' h.positive.ne']
    refine warmer_sun hx s0 s1 hA _ _ _ _ _ _ (C66_gain hx h ?_)
    unfold hourAt
    split_ifs with hi
    · exact sun_nonneg hz _ (hrad _).1 (hrad _).2.1 (hrad _).2.2.1 (hrad _).2.2.2
    · exact sun_nonneg hz _ (hrad _).1 (hrad _).2.1 (hrad _).2.2.1 (hrad _).2.2.2
  rw [hH, hC] at run'
  exact run_gains run' run (fun i _ => wind_solid (physical_protected hx h.positive) hm win w i) (fun i _ => hwarm i) (m0'.trans m0.symm).le

/-- **C72** Better sun protection never raises the energy for cooling and never lowers the energy for heating, in any hour of the year, in weather whose
radiation is not negative and comes only while the sun is up. -/
theorem C72_sun {x y : Sim ℝ} (hx : Physical x) (hp : PlainSystems x) (hm : HeavyEnough x) (h : BetterProtected x y)
    (s0 : 0 ≤ x.simSettings.phiSolFractionToAirNode) (s1 : x.simSettings.phiSolFractionToAirNode ≤ 1)
    (hA : massArea x + windowConductance x / massCoefficient x ≤ x.bldg.totalAreaPerFloorArea)
    {w : Weather ℝ} (hz : NotOverhead w) {low high : ℝ} (hd : WindDriven x w low high)
    (hrad : ∀ i, 0 ≤ w.data EB i ∧ 0 ≤ w.data ED i ∧ 0 ≤ w.data EGH i ∧
      (0 ≤ Spec.Sun.up (SunLemmas.place w) (i.1 / 24 : ℕ) (i.1 % 24 : ℕ) ∨ (w.data EB i = 0 ∧ w.data ED i = 0)))
    {m m' : Model Dbl} {r r' : List (EndUses Dbl)} (hr : simulate false (fresh x w) = some (m, r))
    (hr' : simulate false (fresh (takeSunProtection x y) w) = some (m', r')) {heat cool heat' cool' : Fin 8760 → ℝ}
    (hc : Course r heat cool) (hc' : Course r' heat' cool') :
    (∀ i, cool' i ≤ cool i) ∧ ∀ i, heat i ≤ heat' i := by
  obtain ⟨win, hw⟩ := year_window hr
  obtain ⟨mass, air, surface, power, m0, run, e⟩ := wind_energy hx hp hz hd hw hr hc
  obtain ⟨mass', air', surface', power', m0', run', e'⟩ := wind_energy (physical_protected hx h.positive) ⟨hp.1, hp.2, hp.3, hp.4, hp.5⟩ hz
    ⟨hd.1, hd.2, hd.3, hd.4, hd.5, hd.6, hd.7, hd.8⟩ hw hr' hc'
  have k := sun_powers hx hm h s0 s1 hA win hz hrad m0 m0' run run'
  exact ⟨scaled_hour (cooling_factor hp) (fun i hi => max_le_max le_rfl (neg_le_neg (k i hi))) (fun i => (e i).2) (fun i => (e' i).2),
    scaled_hour (heating_factor hp) (fun i hi => max_le_max le_rfl (k i hi)) (fun i => (e' i).1) (fun i => (e i).1)⟩

end ISO.Props
