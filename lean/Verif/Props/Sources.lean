import Verif.Props.PrintedOrder
import Verif.Props.Effects

/-! # C25 and C76: the efficiency of the boiler and of the chiller, hour by hour and in the monthly table -/

namespace ISO.Props
open ISO ISO.Numerals ISO.Spec ISO.Spec.Text ISO.Spec.Whole ISO.User ISO.CommandLine ISO.Epw ISO.Lemmas ISO.Lemmas.Editing Dbl
open ISO.Spec.EndToEnd (Describes Averaged Inputs Timetable hourResult monthResult MonthlyResult)
open ISO.Spec.HourlyWhole
open EndToEnd
open ISO.Spec.Editing (cell SameTable)
open ISO.Spec.PrintedOrder

/-! ### hour by hour -/

/-- the results of two buildings with the same course -/
theorem Sources.hours {x x' : Sim ℝ} {w : Weather ℝ} (hp : Physical x) (hs : Systems x) (ht : Timetable x.pop) (hp' : Physical x')
    (hs' : Systems x') (ht' : Timetable x'.pop) (hoh : NeverOverhead w)
    (hE : ∀ mass air surface power, Evolution x w mass air surface power → Evolution x' w mass air surface power)
    {m m' : Hourly.Model Dbl} {r r' : List (Hourly.EndUses Dbl)} (hr : Hourly.simulate false (fresh x w) = some (m, r))
    (hr' : Hourly.simulate false (fresh x' w) = some (m', r')) :
    r.length = 8760 ∧ r'.length = 8760 ∧ ∃ air power, ∀ (i : ℕ) (hi : i < r.length) (hi' : i < r'.length) (h : i < 8760) (k : Fin 13),
      r[i] k = hourResult x w air power ⟨i, h⟩ k ∧ r'[i] k = hourResult x' w air power ⟨i, h⟩ k := by
  obtain ⟨_, _, h, _, e1, -, l1, -, ⟨mass, air, surface, power, e⟩, v1⟩ := PrintedOrder.course_values hp hs ht hoh
  obtain ⟨_, _, h', _, e2, -, l2, -, -, v2⟩ := PrintedOrder.course_values hp' hs' ht' hoh
  rw [hr] at e1
  rw [hr'] at e2
  obtain ⟨rfl, rfl⟩ := Prod.mk.inj (Option.some.inj e1)
  obtain ⟨rfl, rfl⟩ := Prod.mk.inj (Option.some.inj e2)
  refine ⟨l1, l2, air, power, fun i hi hi' h k => ⟨?_, ?_⟩⟩
  · rw [(v1 _ _ _ _ e).1 i hi k, dif_pos h]
  · rw [(v2 _ _ _ _ (hE _ _ _ _ e)).1 i hi' k, dif_pos h]

/-- **C25, the boiler.** Change nothing but the efficiency of the boiler and run the hourly simulation again: all results but those for
heating are the same, and in every hour there is one quantity of heat that both boilers have to give: the results are that heat divided by
the efficiencies (or both are undefined, in a year without any demand). -/
theorem C25_boiler {x : Sim ℝ} {w : Weather ℝ} (hp : Physical x) (hs : Systems x) (ht : Timetable x.pop) (hoh : NeverOverhead w)
    {other : ℝ} (ho : other ≠ 0) {m m' : Hourly.Model Dbl} {r r' : List (Hourly.EndUses Dbl)}
    (hr : Hourly.simulate false (fresh x w) = some (m, r)) (hr' : Hourly.simulate false (fresh (withBoiler x other) w) = some (m', r')) :
    r.length = 8760 ∧ r'.length = 8760 ∧ ∀ (i : ℕ) (_ : i < r.length) (_ : i < r'.length),
      (∀ k : Fin 13, k ≠ heatingElectricity → k ≠ heatingGas → r'[i] k = r[i] k) ∧
      ∀ k ∈ [heatingElectricity, heatingGas],
        (∃ heat, 0 ≤ heat ∧ r[i] k = fin (heat / x.heating.efficiency) ∧ r'[i] k = fin (heat / other)) ∨ (r[i] k = nan ∧ r'[i] k = nan) := by
  obtain ⟨l, l', air, power, hv⟩ := Sources.hours hp hs ht (x' := withBoiler x other) { hp with } { hs with efficiency := ho } ht hoh
    (fun _ _ _ _ e => { e with }) hr hr'
  refine ⟨l, l', fun i hi hi' => ⟨fun k h0 h9 => ?_, fun k hk => ?_⟩⟩
  · obtain ⟨e, e'⟩ := hv i hi hi' (l ▸ hi) k
    rw [e, e']
    have : endUse (withBoiler x other) w air power ⟨i, l ▸ hi⟩ k = endUse x w air power ⟨i, l ▸ hi⟩ k := by
      fin_cases k <;> first | rfl | exact absurd rfl h0 | exact absurd rfl h9
    unfold hourResult
    rw [this]
    rfl
  · obtain ⟨e, e'⟩ := hv i hi hi' (l ▸ hi) k
    rw [e, e']
    unfold hourResult
    rw [show (withBoiler x other).heating.energyType = x.heating.energyType from rfl]
    by_cases hn : (∀ j < 8760, power j = 0) ∧ (k = 1 ∨ k = if x.heating.energyType = 1 then 0 else 9)
    · rw [if_pos hn, if_pos hn]
      exact Or.inr ⟨rfl, rfl⟩
    · rw [if_neg hn, if_neg hn]
      left
      have pos : (0 : ℝ) < heatShare (heatYear power) (coolYear power) := lt_of_lt_of_le (by norm_num) (le_max_right _ _)
      have hnn : 0 ≤ heatNeed power i * (1 + x.heating.hvacLossFactor + x.heating.hotcoldWasteFactor / heatShare (heatYear power) (coolYear power)) := by
        have h1 : 0 ≤ heatNeed power i := le_max_left _ _
        have h2 := hs.lossHeating
        have h3 := hs.waste
        positivity
      have key : ∀ e : ℝ, delivered x.heating.hvacLossFactor x.heating.hotcoldWasteFactor (heatShare (heatYear power) (coolYear power)) e
          (heatNeed power i) / 1000
          = heatNeed power i * (1 + x.heating.hvacLossFactor + x.heating.hotcoldWasteFactor / heatShare (heatYear power) (coolYear power))
            / 1000 / e := by
        intro e
        unfold delivered
        rw [div_right_comm]
      simp only [List.mem_cons, List.not_mem_nil, or_false] at hk
      by_cases ht : x.heating.energyType = 1
      · rcases hk with rfl | rfl
        · refine ⟨_, div_nonneg hnn (by norm_num : (0 : ℝ) ≤ 1000), ?_, ?_⟩
          · rw [← key]
            exact congrArg (fun a : ℝ => fin (a / 1000)) (if_pos ht)
          · rw [← key]
            exact congrArg (fun a : ℝ => fin (a / 1000)) (if_pos ht)
        · refine ⟨0, le_rfl, ?_, ?_⟩
          · refine (congrArg (fun a : ℝ => fin (a / 1000)) (if_pos ht)).trans ?_
            norm_num
          · refine (congrArg (fun a : ℝ => fin (a / 1000)) (if_pos ht)).trans ?_
            norm_num
      · rcases hk with rfl | rfl
        · refine ⟨0, le_rfl, ?_, ?_⟩
          · refine (congrArg (fun a : ℝ => fin (a / 1000)) (if_neg ht)).trans ?_
            norm_num
          · refine (congrArg (fun a : ℝ => fin (a / 1000)) (if_neg ht)).trans ?_
            norm_num
        · refine ⟨_, div_nonneg hnn (by norm_num : (0 : ℝ) ≤ 1000), ?_, ?_⟩
          · rw [← key]
            exact congrArg (fun a : ℝ => fin (a / 1000)) (if_neg ht)
          · rw [← key]
            exact congrArg (fun a : ℝ => fin (a / 1000)) (if_neg ht)

/-- **C25, the chiller.** The same for the coefficient of performance of the chiller and the electricity for cooling. -/
theorem C25_chiller {x : Sim ℝ} {w : Weather ℝ} (hp : Physical x) (hs : Systems x) (ht : Timetable x.pop) (hoh : NeverOverhead w)
    {other : ℝ} (ho : other ≠ 0) {m m' : Hourly.Model Dbl} {r r' : List (Hourly.EndUses Dbl)}
    (hr : Hourly.simulate false (fresh x w) = some (m, r)) (hr' : Hourly.simulate false (fresh (withChiller x other) w) = some (m', r')) :
    r.length = 8760 ∧ r'.length = 8760 ∧ ∀ (i : ℕ) (_ : i < r.length) (_ : i < r'.length),
      (∀ k : Fin 13, k ≠ coolingElectricity → r'[i] k = r[i] k) ∧
      ((∃ cold, 0 ≤ cold ∧ r[i] coolingElectricity = fin (cold / x.cooling.cop) ∧ r'[i] coolingElectricity = fin (cold / other)) ∨
        (r[i] coolingElectricity = nan ∧ r'[i] coolingElectricity = nan)) := by
  obtain ⟨l, l', air, power, hv⟩ := Sources.hours hp hs ht (x' := withChiller x other) { hp with } { hs with cop := ho } ht hoh
    (fun _ _ _ _ e => { e with }) hr hr'
  refine ⟨l, l', fun i hi hi' => ⟨fun k h1 => ?_, ?_⟩⟩
  · obtain ⟨e, e'⟩ := hv i hi hi' (l ▸ hi) k
    rw [e, e']
    have : endUse (withChiller x other) w air power ⟨i, l ▸ hi⟩ k = endUse x w air power ⟨i, l ▸ hi⟩ k := by
      fin_cases k <;> first | rfl | exact absurd rfl h1
    unfold hourResult
    rw [this]
    rfl
  · obtain ⟨e, e'⟩ := hv i hi hi' (l ▸ hi) coolingElectricity
    rw [e, e']
    unfold hourResult
    rw [show (withChiller x other).heating.energyType = x.heating.energyType from rfl]
    by_cases hn : (∀ j < 8760, power j = 0) ∧ (coolingElectricity = 1 ∨ coolingElectricity = if x.heating.energyType = 1 then 0 else 9)
    · rw [if_pos hn, if_pos hn]
      exact Or.inr ⟨rfl, rfl⟩
    · rw [if_neg hn, if_neg hn]
      left
      have pos : (0 : ℝ) < coolShare (heatYear power) (coolYear power) := lt_of_lt_of_le (by norm_num) (le_max_right _ _)
      have hnn : 0 ≤ coolNeed power i * (1 + x.cooling.hvacLossFactor + x.heating.hotcoldWasteFactor / coolShare (heatYear power) (coolYear power)) := by
        have h1 : 0 ≤ coolNeed power i := le_max_left _ _
        have h2 := hs.lossCooling
        have h3 := hs.waste
        positivity
      have key : ∀ e : ℝ, delivered x.cooling.hvacLossFactor x.heating.hotcoldWasteFactor (coolShare (heatYear power) (coolYear power)) e
          (coolNeed power i) / 1000
          = coolNeed power i * (1 + x.cooling.hvacLossFactor + x.heating.hotcoldWasteFactor / coolShare (heatYear power) (coolYear power))
            / 1000 / e := by
        intro e
        unfold delivered
        rw [div_right_comm]
      refine ⟨_, div_nonneg hnn (by norm_num : (0 : ℝ) ≤ 1000), ?_, ?_⟩
      · rw [← key]
        rfl
      · rw [← key]
        rfl

/-! ### the monthly table -/

/-- the monthly tables of two buildings in the same weather that agree but for some columns -/
theorem Sources.months (hi : Inputs fs o file text) (hi' : Inputs fs' o' file' text) (ho : Nothing o) (ho' : Nothing o')
    {x x' : Sim ℝ} (hx : Describes file x) (hx' : Describes file' x')
    (hsd : ∀ i, 1 ≤ x.bldg.windowShadingDevice i ∧ x.bldg.windowShadingDevice i < 4)
    (hsd' : ∀ i, 1 ≤ x'.bldg.windowShadingDevice i ∧ x'.bldg.windowShadingDevice i < 4)
    {lat lon zone : ℝ} {v : Fin 7 → Fin 8760 → ℝ} (hy : YearFile text lat lon zone v) (hs : Suitable lat zone v)
    (hord : ∀ a, Averaged (Spec.EndToEnd.yearOf lat lon zone v) a → Ordinary { x with weather := a } ∧ Equipped { x with weather := a })
    (hord' : ∀ a, Averaged (Spec.EndToEnd.yearOf lat lon zone v) a → Ordinary { x' with weather := a } ∧ Equipped { x' with weather := a })
    {columns : List (Fin 13)} (hsame : ∀ a : WeatherData ℝ, SameExcept columns (Monthly.simulate (({ x with weather := a } : Sim ℝ).map fin))
      (Monthly.simulate (({ x' with weather := a } : Sim ℝ).map fin))) (junk junk' : Params Dbl) :
    ∃ out out' a, main standard Numerals.print fs junk o = .returns [.runMonthly] out ∧
      main standard Numerals.print fs' junk' o' = .returns [.runMonthly] out' ∧ Averaged (Spec.EndToEnd.yearOf lat lon zone v) a ∧
      SameTable columns out out' ∧ ∃ value value' : Fin 12 → Fin 13 → ℝ,
        (∀ m k, MonthlyResult { x with weather := a } m k (value m k) ∧ MonthlyResult { x' with weather := a } m k (value' m k)) ∧
        ∀ (m : Fin 12) (k : Fin 13), (value' m k ≤ value m k → CellAtMost m k out' out) ∧ (value m k ≤ value' m k → CellAtMost m k out out') := by
  obtain ⟨a, r, value, hA, hav, hr, hl, hv, hm⟩ := EndToEnd.monthly_values hx hsd hy hs hord
  obtain ⟨a', r', value', hA', -, hr', hl', hv', hm'⟩ := EndToEnd.monthly_values hx' hsd' hy hs hord'
  have e : a = a' := PrintedOrder.averages_inj (hA.symm.trans hA')
  subst e
  obtain ⟨out, h, hT⟩ := PrintedOrder.monthly_printed hi ho hx hy hs.zone junk hA hr
  obtain ⟨out', h', hT'⟩ := PrintedOrder.monthly_printed hi' ho' hx' hy hs.zone junk' hA hr'
  have hse := hsame a
  rw [hr, hr'] at hse
  refine ⟨out, out', a, h, h', hav, Editing.same_table hT hT' hse.1 hse.2, value, value', fun m k => ⟨hm m k, hm' m k⟩, fun m k => ?_⟩
  have c := PrintedOrder.cell_of hT m (by rw [hl]; exact m.2) k
  have c' := PrintedOrder.cell_of hT' m (by rw [hl']; exact m.2) k
  rw [hv, dif_pos m.2] at c
  rw [hv', dif_pos m.2] at c'
  exact ⟨fun hle => ⟨_, _, c', c, C76_print (by norm_num) hle⟩, fun hle => ⟨_, _, c, c', C76_print (by norm_num) hle⟩⟩

theorem Sources.perArea_le {x : Sim ℝ} (hA : 0 < x.bldg.floorArea) {a b : ℝ} (hab : a ≤ b) : perArea x a ≤ perArea x b := by
  unfold perArea
  have : (0 : ℝ) < singleMJ := by norm_num [singleMJ]
  gcongr

theorem Sources.source_le {q e e' : ℝ} (he : 0 < e) (hee : e ≤ e') :
    (0 ≤ q → q / (e' + dblMin) ≤ q / (e + dblMin)) ∧ (q ≤ 0 → q / (e + dblMin) ≤ q / (e' + dblMin)) := by
  have hd := dblMin_pos
  refine ⟨fun hq => div_le_div_of_nonneg_left hq (by linarith) (by linarith), fun hq => ?_⟩
  have := div_le_div_of_nonneg_left (neg_nonneg.mpr hq) (show 0 < e + dblMin by linarith) (show e + dblMin ≤ e' + dblMin by linarith)
  rw [neg_div, neg_div] at this
  linarith

/-- **C76, the boiler in the monthly table.** If two building files describe the same building but for the efficiency of the boiler, the
monthly table that the program prints for the better boiler has the same texts in all columns but those of heating, and there no cell of a
month that needs heat shows a higher number.  (In a month that needs none the balance of the program can leave a need of minus the
smallest normal double; of that the better boiler makes less, too.) -/
theorem C76_monthly_boiler (hi : Inputs fs o file text) (hi' : Inputs fs' o' file' text) (ho : Nothing o) (ho' : Nothing o')
    {x : Sim ℝ} {better : ℝ} (hx : Describes file x) (hx' : Describes file' (withBoiler x better)) (hb : x.heating.efficiency ≤ better)
    (hsd : ∀ i, 1 ≤ x.bldg.windowShadingDevice i ∧ x.bldg.windowShadingDevice i < 4)
    {lat lon zone : ℝ} {v : Fin 7 → Fin 8760 → ℝ} (hy : YearFile text lat lon zone v) (hs : Suitable lat zone v)
    (hord : ∀ a, Averaged (Spec.EndToEnd.yearOf lat lon zone v) a → Ordinary { x with weather := a } ∧ Equipped { x with weather := a })
    (junk junk' : Params Dbl) :
    ∃ out out' a, main standard Numerals.print fs junk o = .returns [.runMonthly] out ∧
      main standard Numerals.print fs' junk' o' = .returns [.runMonthly] out' ∧ Averaged (Spec.EndToEnd.yearOf lat lon zone v) a ∧
      SameTable [0, 9] out out' ∧ ∀ m : Fin 12, ∀ k ∈ ([0, 9] : List (Fin 13)),
        (0 ≤ monthHeat { x with weather := a } m → CellAtMost m k out' out) ∧
        (monthHeat { x with weather := a } m ≤ 0 → CellAtMost m k out out') := by
  have hord' : ∀ a, Averaged (Spec.EndToEnd.yearOf lat lon zone v) a →
      Ordinary { withBoiler x better with weather := a } ∧ Equipped { withBoiler x better with weather := a } := by
    intro a ha
    obtain ⟨h1, h2⟩ := hord a ha
    exact ⟨⟨{ h1.temperatures with }, { h1.flows with }, { h1.lights with }, { h1.systems with efficiency := h1.systems.efficiency.trans_le hb }, h1.sun,
      h1.reference, h1.inertia, { h1.months with }⟩, { h2 with }⟩
  obtain ⟨out, out', a, h, h', hav, hst, value, value', hv, hc⟩ := Sources.months hi hi' ho ho' hx hx' hsd hsd hy hs hord hord'
    (columns := [0, 9]) (fun a => C56_heatingSystem _ (({ withBoiler x better with weather := a } : Sim ℝ).map fin)) junk junk'
  refine ⟨out, out', a, h, h', hav, hst, fun m k hk => ?_⟩
  have hsys := (hord a hav).1.systems
  have hA : 0 < x.bldg.floorArea := (hord a hav).1.flows.floorArea
  have hrate : 0 ≤ 1 + heatLossRate { x with weather := a } (∑ k, monthHeat { x with weather := a } k) (∑ k, monthCold { x with weather := a } k) := by
    have := (ISO.Monthly.lossRates_nonneg hsys (∑ k, monthHeat { x with weather := a } k) (∑ k, monthCold { x with weather := a } k)).1
    linarith
  have up : 0 ≤ monthHeat { x with weather := a } m → 0 ≤ heatDelivered { x with weather := a } m := fun hq => mul_nonneg hq hrate
  have down : monthHeat { x with weather := a } m ≤ 0 → heatDelivered { x with weather := a } m ≤ 0 := fun hq => mul_nonpos_of_nonpos_of_nonneg hq hrate
  obtain ⟨s1, s2⟩ := Sources.source_le (q := heatDelivered { x with weather := a } m) hsys.efficiency hb
  simp only [List.mem_cons, List.not_mem_nil, or_false] at hk
  rcases hk with rfl | rfl
  · have e : value m 0 = perArea { x with weather := a } (heatElectricity { x with weather := a } m) := (hv m 0).1
    have e' : value' m 0 = perArea { x with weather := a } (if x.heating.DH_YesNo ≠ 1 ∧ x.heating.energyType = 1 then
        heatDelivered { x with weather := a } m / (better + dblMin) else 0) := (hv m 0).2
    constructor
    · intro hq
      refine (hc m 0).1 ?_
      rw [e, e']
      refine Sources.perArea_le hA ?_
      unfold heatElectricity
      simp only
      split_ifs
      · exact s1 (up hq)
      · exact le_rfl
    · intro hq
      refine (hc m 0).2 ?_
      rw [e, e']
      refine Sources.perArea_le hA ?_
      unfold heatElectricity
      simp only
      split_ifs
      · exact s2 (down hq)
      · exact le_rfl
  · have e : value m 9 = perArea { x with weather := a } (heatGas { x with weather := a } m) := (hv m 9).1
    have e' : value' m 9 = perArea { x with weather := a } (if x.heating.DH_YesNo = 1 then
        heatDelivered { x with weather := a } m * (1 - x.heating.frac_DH_free) / (x.heating.eta_DH_sys * x.heating.eta_DH_network)
      else if x.heating.energyType = 1 then 0 else heatDelivered { x with weather := a } m / (better + dblMin)) := (hv m 9).2
    constructor
    · intro hq
      refine (hc m 9).1 ?_
      rw [e, e']
      refine Sources.perArea_le hA ?_
      unfold heatGas
      simp only
      split_ifs
      · exact le_rfl
      · exact le_rfl
      · exact s1 (up hq)
    · intro hq
      refine (hc m 9).2 ?_
      rw [e, e']
      refine Sources.perArea_le hA ?_
      unfold heatGas
      simp only
      split_ifs
      · exact le_rfl
      · exact le_rfl
      · exact s2 (down hq)

/-- **C76, the chiller in the monthly table.** The same for the coefficient of performance of the chiller and the columns of cooling. -/
theorem C76_monthly_chiller (hi : Inputs fs o file text) (hi' : Inputs fs' o' file' text) (ho : Nothing o) (ho' : Nothing o')
    {x : Sim ℝ} {better : ℝ} (hx : Describes file x) (hx' : Describes file' (withChiller x better))
    (hb : x.cooling.cop ≤ better) (hp : 0 < x.cooling.partialLoadValue)
    (hsd : ∀ i, 1 ≤ x.bldg.windowShadingDevice i ∧ x.bldg.windowShadingDevice i < 4)
    {lat lon zone : ℝ} {v : Fin 7 → Fin 8760 → ℝ} (hy : YearFile text lat lon zone v) (hs : Suitable lat zone v)
    (hord : ∀ a, Averaged (Spec.EndToEnd.yearOf lat lon zone v) a → Ordinary { x with weather := a } ∧ Equipped { x with weather := a })
    (junk junk' : Params Dbl) :
    ∃ out out' a, main standard Numerals.print fs junk o = .returns [.runMonthly] out ∧
      main standard Numerals.print fs' junk' o' = .returns [.runMonthly] out' ∧ Averaged (Spec.EndToEnd.yearOf lat lon zone v) a ∧
      SameTable [1, 10] out out' ∧ ∀ m : Fin 12, ∀ k ∈ ([1, 10] : List (Fin 13)),
        (0 ≤ monthCold { x with weather := a } m → CellAtMost m k out' out) ∧
        (monthCold { x with weather := a } m ≤ 0 → CellAtMost m k out out') := by
  have hbp : x.cooling.cop * x.cooling.partialLoadValue ≤ better * x.cooling.partialLoadValue := mul_le_mul_of_nonneg_right hb hp.le
  have hord' : ∀ a, Averaged (Spec.EndToEnd.yearOf lat lon zone v) a →
      Ordinary { withChiller x better with weather := a } ∧ Equipped { withChiller x better with weather := a } := by
    intro a ha
    obtain ⟨h1, h2⟩ := hord a ha
    exact ⟨⟨{ h1.temperatures with }, { h1.flows with }, { h1.lights with }, { h1.systems with cop := h1.systems.cop.trans_le hbp }, h1.sun,
      h1.reference, h1.inertia, { h1.months with }⟩, { h2 with }⟩
  obtain ⟨out, out', a, h, h', hav, hst, value, value', hv, hc⟩ := Sources.months hi hi' ho ho' hx hx' hsd hsd hy hs hord hord'
    (columns := [1, 10]) (fun a => C56_coolingSystem _ (({ withChiller x better with weather := a } : Sim ℝ).map fin)) junk junk'
  refine ⟨out, out', a, h, h', hav, hst, fun m k hk => ?_⟩
  have hsys := (hord a hav).1.systems
  have hA : 0 < x.bldg.floorArea := (hord a hav).1.flows.floorArea
  have hrate : 0 ≤ 1 + coolLossRate { x with weather := a } (∑ k, monthHeat { x with weather := a } k) (∑ k, monthCold { x with weather := a } k) := by
    have := (ISO.Monthly.lossRates_nonneg hsys (∑ k, monthHeat { x with weather := a } k) (∑ k, monthCold { x with weather := a } k)).2
    linarith
  have up : 0 ≤ monthCold { x with weather := a } m → 0 ≤ coldDelivered { x with weather := a } m := fun hq => mul_nonneg hq hrate
  have down : monthCold { x with weather := a } m ≤ 0 → coldDelivered { x with weather := a } m ≤ 0 := fun hq => mul_nonpos_of_nonpos_of_nonneg hq hrate
  obtain ⟨s1, s2⟩ := Sources.source_le (q := coldDelivered { x with weather := a } m) hsys.cop hbp
  simp only [List.mem_cons, List.not_mem_nil, or_false] at hk
  rcases hk with rfl | rfl
  · have e : value m 1 = perArea { x with weather := a } (coldElectricity { x with weather := a } m) := (hv m 1).1
    have e' : value' m 1 = perArea { x with weather := a } (if x.cooling.DC_YesNo = 1 then
        coldDelivered { x with weather := a } m * (1 - x.cooling.eta_DC_frac_abs) / (x.cooling.eta_DC_COP * x.cooling.eta_DC_network)
      else coldDelivered { x with weather := a } m / (better * x.cooling.partialLoadValue + dblMin)) := (hv m 1).2
    constructor
    · intro hq
      refine (hc m 1).1 ?_
      rw [e, e']
      refine Sources.perArea_le hA ?_
      unfold coldElectricity
      simp only
      split_ifs
      · exact le_rfl
      · exact s1 (up hq)
    · intro hq
      refine (hc m 1).2 ?_
      rw [e, e']
      refine Sources.perArea_le hA ?_
      unfold coldElectricity
      simp only
      split_ifs
      · exact le_rfl
      · exact s2 (down hq)
  · have e : value m 10 = perArea { x with weather := a } (coldGas { x with weather := a } m) := (hv m 10).1
    have e' : value' m 10 = perArea { x with weather := a } (coldGas { x with weather := a } m) := (hv m 10).2
    exact ⟨fun _ => (hc m 10).1 (by rw [e, e']), fun _ => (hc m 10).2 (by rw [e, e'])⟩

end ISO.Props
