import Verif.Spec.Fuel
import Verif.Props.Editing

/-! # C84: another fuel moves the numbers from one column to the other -/

namespace ISO.Props
open ISO ISO.Numerals ISO.Spec ISO.Spec.Text ISO.Spec.Whole ISO.User ISO.CommandLine ISO.Epw ISO.Lemmas Dbl CNum
open ISO.Lemmas.Editing (number_of integer_of boolean_of code_of facades_of)
open ISO.Spec.EndToEnd (Inputs GivesOr)
open EndToEnd
open ISO.Spec.Editing (Edited SameTable cell)
open ISO.Spec.Fuel (Carrier Burns Swapped SwappedTable)

namespace Fuel

section model
set_option linter.unusedSectionVars false
variable {α : Type} [CNum α] [OfInt α]

/-- the fuel of the heating -/
def takeFuel (x y : Sim α) : Sim α := { x with heating := { x.heating with energyType := y.heating.energyType } }

/-- the fuel of the hot water -/
def takeWaterFuel (x y : Sim α) : Sim α := { x with heating := { x.heating with hotWaterEnergyType := y.heating.hotWaterEnergyType } }

section hourly
open Hourly

theorem raw_fuel (x y : Sim α) (r : Ratios α) (win : Window) (w : Weather α) : rawResults (takeFuel x y) r win w = rawResults x r win w := by
  unfold rawResults
  have hc : initConsts (takeFuel x y) = initConsts x := rfl
  rw [hc, List.ofFn_eq_map, List.ofFn_eq_map]
  generalize initConsts x = c
  generalize List.finRange 8760 = L
  generalize (initialState : ThermalState α) = st
  induction L generalizing st with
  | nil => rfl
  | cons i L ih =>
    simp only [List.map_cons, hourInput, runHours]
    have e : ∀ s u st, calculateHour (takeFuel x y) c r s u st = calculateHour x c r s u st := fun _ _ _ => rfl
    have e' : ∀ h d, scheduleCell (takeFuel x y) win h d = scheduleCell x win h d := fun _ _ => rfl
    rw [e, e', ih]

theorem hour_swapped (x y : Sim α) (h : ceq y.heating.energyType 1.0 = !ceq x.heating.energyType 1.0) (e : α × α) (r : HourResults α) (k : Fin 13) :
    hourEndUses (takeFuel x y) e r k = hourEndUses x e r (Equiv.swap 0 9 k) := by
  have hk : (Equiv.swap (0 : Fin 13) 9 k) = if k = 0 then 9 else if k = 9 then 0 else k := Equiv.swap_apply_def _ _ _
  rw [hk]
  have h0 : hourEndUses (takeFuel x y) e r 0 = hourEndUses x e r 9 := by
    show (bif ceq y.heating.energyType 1.0 then r.Qneed_ht / e.1 / x.heating.efficiency else 0.0) / 1000.0 =
      (bif ceq x.heating.energyType 1.0 then 0.0 else r.Qneed_ht / e.1 / x.heating.efficiency) / 1000.0
    rw [h]
    cases ceq x.heating.energyType 1.0 <;> rfl
  have h9 : hourEndUses (takeFuel x y) e r 9 = hourEndUses x e r 0 := by
    show (bif ceq y.heating.energyType 1.0 then 0.0 else r.Qneed_ht / e.1 / x.heating.efficiency) / 1000.0 =
      (bif ceq x.heating.energyType 1.0 then r.Qneed_ht / e.1 / x.heating.efficiency else 0.0) / 1000.0
    rw [h]
    cases ceq x.heating.energyType 1.0 <;> rfl
  fin_cases k <;> first | exact h0 | exact h9 | rfl

theorem uses_swapped (x y : Sim α) (h : ceq y.heating.energyType 1.0 = !ceq x.heating.energyType 1.0) (rs : List (HourResults α))
    (lr : rs.length = 8760) (agg : Bool) : Swapped 0 9 (bif agg then aggregate (endUses x rs) else some (endUses x rs))
      (bif agg then aggregate (endUses (takeFuel x y) rs) else some (endUses (takeFuel x y) rs)) := by
  have l1 : (endUses x rs).length = 8760 := (endUses_length _ _).trans lr
  have l2 : (endUses (takeFuel x y) rs).length = 8760 := (endUses_length _ _).trans lr
  have col : ∀ k, (endUses (takeFuel x y) rs).map (· k) = (endUses x rs).map (· (Equiv.swap 0 9 k)) := by
    intro k
    have hd : yearDistribution (takeFuel x y) rs = yearDistribution x rs := rfl
    unfold endUses
    rw [hd, List.map_map, List.map_map]
    exact List.map_congr_left fun r _ => hour_swapped x y h _ r k
  revert l1 l2 col
  generalize endUses x rs = l
  generalize endUses (takeFuel x y) rs = l'
  intro l1 l2 col
  cases agg with
  | false =>
    refine ⟨l1.trans l2.symm, fun i hi hi' k => ?_⟩
    have e := congrArg (fun z => z[i]?) (col k)
    simpa [hi, hi'] using e
  | true =>
    obtain ⟨o, a1, a2, a3⟩ := aggregate_order l1
    obtain ⟨o', b1, b2, b3⟩ := aggregate_order l2
    rw [cond_true, cond_true, a1, b1]
    exact ⟨a2.trans b2.symm, fun i hi hi' k => by rw [a3 i hi, b3 i hi' k, col k]⟩

theorem hourly_swapped (x y : Sim α) (h : ceq y.heating.energyType 1.0 = !ceq x.heating.energyType 1.0) (w : Weather α) (p : Pushed α)
    (agg : Bool) : Swapped 0 9 ((simulate agg ⟨x, w, p⟩).map Prod.snd) ((simulate agg ⟨takeFuel x y, w, p⟩).map Prod.snd) := by
  rw [simulate_results, simulate_results]
  show Swapped 0 9 ((window x.pop).bind fun win => bif agg then aggregate (endUses x (rawResults x (pushAll x.bldg p).ratios win w))
      else some (endUses x (rawResults x (pushAll x.bldg p).ratios win w)))
    ((window x.pop).bind fun win => bif agg then aggregate (endUses (takeFuel x y) (rawResults (takeFuel x y) (pushAll x.bldg p).ratios win w))
      else some (endUses (takeFuel x y) (rawResults (takeFuel x y) (pushAll x.bldg p).ratios win w)))
  cases window x.pop with
  | none => trivial
  | some win =>
    rw [Option.bind_some, Option.bind_some, raw_fuel]
    exact uses_swapped x y h _ (rawResults_length _ _ _ _) agg

end hourly

section monthly
open Monthly

/-- from the end uses of a month -/
theorem monthly_swap (p q : Fin 13) (x x' : Sim α)
    (h1 : solarRadiationBreakdown x'.weather (scheduleAndOccupancy x'.pop) = solarRadiationBreakdown x.weather (scheduleAndOccupancy x.pop))
    (h2 : windowSolarGain x'.bldg = windowSolarGain x.bldg)
    (h3 : managementShift x'.building.buildingEnergyManagement = managementShift x.building.buildingEnergyManagement)
    (h : ∀ b a T m k, monthEndUses x' (figures x' (stagesWith x' b a T)) m k = monthEndUses x (figures x (stagesWith x b a T)) m (Equiv.swap p q k)) :
    Swapped p q (Monthly.simulate x) (Monthly.simulate x') := by
  unfold Monthly.simulate stages
  rw [h1, h2, h3]
  cases solarRadiationBreakdown x.weather (scheduleAndOccupancy x.pop) with
  | none => trivial
  | some b =>
    cases windowSolarGain x.bldg with
    | none => trivial
    | some a =>
      cases managementShift x.building.buildingEnergyManagement with
      | none => trivial
      | some T =>
        refine ⟨by simp [outputGeneration], ?_⟩
        intro i hi hi' k
        have e : ∀ (z : Sim α) (f : Figures α) (h : i < (outputGeneration z f).length),
            (outputGeneration z f)[i]'h = monthEndUses z f ((List.finRange 12)[i]'(by simpa [outputGeneration] using h)) := by
          intro z f h
          simp [outputGeneration]
        exact ((congrFun (e _ _ hi') k).trans (h b a T _ k)).trans (congrFun (e _ _ hi) _).symm

theorem stages_fuel (x y : Sim α) : stagesWith (takeFuel x y) = stagesWith x := by
  have h0 : lightingEnergyUse (takeFuel x y) = lightingEnergyUse x := rfl
  have h1 : heatGainsAndLosses (takeFuel x y) = heatGainsAndLosses x := rfl
  have h2 : interiorTemp (takeFuel x y) = interiorTemp x := rfl
  have h3 : ventilationCalc (takeFuel x y) = ventilationCalc x := rfl
  have h4 : timeConstant (takeFuel x y) = timeConstant x := rfl
  have h5 : heatingAndCooling (takeFuel x y) = heatingAndCooling x := rfl
  unfold stagesWith
  simp only [h0, h1, h2, h3, h4, h5]
  rfl

theorem stages_waterFuel (x y : Sim α) : stagesWith (takeWaterFuel x y) = stagesWith x := by
  have h0 : lightingEnergyUse (takeWaterFuel x y) = lightingEnergyUse x := rfl
  have h1 : heatGainsAndLosses (takeWaterFuel x y) = heatGainsAndLosses x := rfl
  have h2 : interiorTemp (takeWaterFuel x y) = interiorTemp x := rfl
  have h3 : ventilationCalc (takeWaterFuel x y) = ventilationCalc x := rfl
  have h4 : timeConstant (takeWaterFuel x y) = timeConstant x := rfl
  have h5 : heatingAndCooling (takeWaterFuel x y) = heatingAndCooling x := rfl
  unfold stagesWith
  simp only [h0, h1, h2, h3, h4, h5]
  rfl

theorem water_columns (x y : Sim α) (s : Stages α) (m : Fin 12)
    (h8 : (heatedWater (takeWaterFuel x y)).1 m = (heatedWater x).2 m)
    (h12 : (heatedWater (takeWaterFuel x y)).2 m = (heatedWater x).1 m) (k : Fin 13) :
    monthEndUses (takeWaterFuel x y) (figures (takeWaterFuel x y) s) m k = monthEndUses x (figures x s) m (Equiv.swap 8 12 k) := by
  by_cases k8 : k = 8
  · subst k8
    rw [Equiv.swap_apply_left]
    show vdiv ((heatedWater (takeWaterFuel x y)).1 m) x.bldg.floorArea = vdiv ((heatedWater x).2 m) x.bldg.floorArea
    rw [h8]
  by_cases k12 : k = 12
  · subst k12
    rw [Equiv.swap_apply_right]
    show vdiv ((heatedWater (takeWaterFuel x y)).2 m) x.bldg.floorArea = vdiv ((heatedWater x).1 m) x.bldg.floorArea
    rw [h12]
  rw [Equiv.swap_apply_of_ne_of_ne k8 k12]
  exact (column_frame [8, 12] x (takeWaterFuel x y) (figures x s) (figures (takeWaterFuel x y) s) m k (by simp [k8, k12]) rfl rfl rfl (fun _ => rfl) (fun _ => rfl) (fun _ => rfl) (fun _ => rfl) (fun _ => rfl)
    (fun _ => rfl) (fun h => absurd (by decide) h) (fun _ => rfl) (fun _ => rfl) (fun h => absurd (by decide) h)).symm

/-- hot water -/
theorem water_swapped (x y : Sim α) (h : ceq y.heating.hotWaterEnergyType 1.0 = !ceq x.heating.hotWaterEnergyType 1.0) :
    Swapped 8 12 (Monthly.simulate x) (Monthly.simulate (takeWaterFuel x y)) := by
  refine monthly_swap 8 12 x _ rfl rfl rfl ?_
  intro b a T m k
  rw [stages_waterFuel]
  have hc : ceq (takeWaterFuel x y).heating.hotWaterEnergyType 1.0 = !ceq x.heating.hotWaterEnergyType 1.0 := h
  have hn : hotWaterNeed (takeWaterFuel x y) = hotWaterNeed x := rfl
  refine water_columns x y _ m ?_ ?_ k <;>
  · unfold heatedWater
    rw [hc, hn]
    cases ceq x.heating.hotWaterEnergyType 1.0 <;> rfl

theorem heating_columns (x y : Sim α) (s : Stages α) (m : Fin 12)
    (h0 : (hvac (takeFuel x y) s.needs).v_Qelec_ht m = (hvac x s.needs).v_Qgas_ht m)
    (h9 : (hvac (takeFuel x y) s.needs).v_Qgas_ht m = (hvac x s.needs).v_Qelec_ht m) (k : Fin 13) :
    monthEndUses (takeFuel x y) (figures (takeFuel x y) s) m k = monthEndUses x (figures x s) m (Equiv.swap 0 9 k) := by
  by_cases k0 : k = 0
  · subst k0
    rw [Equiv.swap_apply_left]
    show vdiv (vdiv ((hvac (takeFuel x y) s.needs).v_Qelec_ht m) x.bldg.floorArea) kWh2MJ = vdiv (vdiv ((hvac x s.needs).v_Qgas_ht m) x.bldg.floorArea) kWh2MJ
    rw [h0]
  by_cases k9 : k = 9
  · subst k9
    rw [Equiv.swap_apply_right]
    show vdiv (vdiv ((hvac (takeFuel x y) s.needs).v_Qgas_ht m) x.bldg.floorArea) kWh2MJ = vdiv (vdiv ((hvac x s.needs).v_Qelec_ht m) x.bldg.floorArea) kWh2MJ
    rw [h9]
  rw [Equiv.swap_apply_of_ne_of_ne k0 k9]
  exact (column_frame [0, 9] x (takeFuel x y) (figures x s) (figures (takeFuel x y) s) m k (by simp [k0, k9]) rfl rfl rfl (fun h => absurd (by decide) h) (fun _ => rfl) (fun _ => rfl) (fun _ => rfl)
    (fun _ => rfl) (fun _ => rfl) (fun _ => rfl) (fun h => absurd (by decide) h) (fun _ => rfl) (fun _ => rfl)).symm

theorem plus_nothing (a : Dbl) : a + fin 0 = a := by cases a <;> first | exact congrArg fin (add_zero _) | rfl
theorem nothing_plus (a : Dbl) : (0.0 : Dbl) + a = a := by
  rw [fin_lit]
  cases a <;> first | (rw [fin_add]; norm_num) | rfl

/-- heating without a district system -/
theorem heating_swapped (x y : Sim Dbl) (h : ceq y.heating.energyType (1.0 : Dbl) = !ceq x.heating.energyType (1.0 : Dbl)) {d f η n : ℝ}
    (hd : x.heating.DH_YesNo = fin d) (hd1 : d ≠ 1) (hf : x.heating.frac_DH_free = fin f) (hη : x.heating.eta_DH_sys = fin η)
    (hn : x.heating.eta_DH_network = fin n) (hne : η * n ≠ 0) : Swapped 0 9 (Monthly.simulate x) (Monthly.simulate (takeFuel x y)) := by
  refine monthly_swap 0 9 x _ rfl rfl rfl ?_
  intro b a T m k
  rw [stages_fuel]
  generalize stagesWith x b a T = s
  have c : ceq x.heating.DH_YesNo (1.0 : Dbl) = false := by rw [hd, ceq_one, decide_eq_false hd1]
  let district : Dbl → Dbl := fun q => vdiv (q * ((1.0 : Dbl) - x.heating.frac_DH_free)) (x.heating.eta_DH_sys * x.heating.eta_DH_network)
  have none : district (0.0 : Dbl) = fin 0 := by
    show vdiv ((0.0 : Dbl) * ((1.0 : Dbl) - x.heating.frac_DH_free)) (x.heating.eta_DH_sys * x.heating.eta_DH_network) = fin 0
    rw [hf, hη, hn, fin_lit, fin_lit, fin_sub, fin_mul, fin_mul, fin_vdiv, vdiv_ne _ hne]
    norm_num
  let split : Dbl × Dbl := heatingSplit x.heating (s.needs.v_Qneed_ht m)
    (distributionLoss (s.needs.v_Qneed_ht m) (distribution x s.needs.Qneed_ht_yr s.needs.Qneed_cl_yr).1)
  have hs : split.2 = (0.0 : Dbl) := by
    show (heatingSplit x.heating _ _).2 = _
    unfold heatingSplit
    rw [c]
    rfl
  have zero : (0.0 : Dbl) = fin 0 := by rw [fin_lit]; norm_num
  refine heating_columns x y s m ?_ ?_ k
  · show (bif ceq y.heating.energyType (1.0 : Dbl) then (split).1 else (0.0 : Dbl)) = bif ceq x.heating.energyType (1.0 : Dbl) then district split.2
      else split.1 + district split.2
    rw [h, hs, none, plus_nothing, zero]
    cases ceq x.heating.energyType (1.0 : Dbl) <;> rfl
  · show (bif ceq y.heating.energyType (1.0 : Dbl) then district split.2 else split.1 + district split.2) =
      bif ceq x.heating.energyType (1.0 : Dbl) then split.1 else (0.0 : Dbl)
    rw [h, hs, none, plus_nothing, zero]
    cases ceq x.heating.energyType (1.0 : Dbl) <;> rfl

/-- heating with a district system -/
theorem heating_same (x y : Sim Dbl) (hd : x.heating.DH_YesNo = fin 1) : SameExcept [] (Monthly.simulate x) (Monthly.simulate (takeFuel x y)) := by
  refine monthly_frame [] x _ rfl rfl rfl ?_
  intro b a a' T m k ha ha' hk
  have : a' = a := Option.some.inj (ha'.symm.trans ha)
  subst this
  rw [stages_fuel]
  generalize stagesWith x b a' T = s
  have c : ceq x.heating.DH_YesNo (1.0 : Dbl) = true := by rw [hd, ceq_one, decide_eq_true rfl]
  refine column_frame [] _ _ _ _ m k hk rfl rfl rfl (fun _ => ?_) (fun _ => rfl) (fun _ => rfl) (fun _ => rfl)
    (fun _ => rfl) (fun _ => rfl) (fun _ => rfl) (fun _ => ?_) (fun _ => rfl) (fun _ => rfl)
  · show (hvac (takeFuel x y) s.needs).v_Qelec_ht = (hvac x s.needs).v_Qelec_ht
    unfold hvac heatingSplit
    simp only [takeFuel, c, cond_true]
    funext m
    cases ceq x.heating.energyType (1.0 : Dbl) <;> cases ceq y.heating.energyType (1.0 : Dbl) <;> rfl
  · show (hvac (takeFuel x y) s.needs).v_Qgas_ht = (hvac x s.needs).v_Qgas_ht
    unfold hvac heatingSplit
    simp only [takeFuel, c, cond_true, nothing_plus]
    funext m
    cases ceq x.heating.energyType (1.0 : Dbl) <;> cases ceq y.heating.energyType (1.0 : Dbl) <;> rfl

end monthly
end model

/-! ## the files -/

variable {fs fs' : FileSystem} {o o' : Options} {file file' : Properties.Store} {text : Str}

theorem edit_fuel (h : Edited ["heatingfueltype"] file file') (u : Params Dbl) (w : WeatherData Dbl) : simOf (Param.stored stod file' u) w =
    takeFuel (simOf (Param.stored stod file u) w) (simOf (Param.stored stod file' u) w) := by
  have hg : ∀ r ∈ Param.table, r.name ∉ ["heatingfueltype"] → Param.number stod file' r.name = Param.number stod file r.name ∧
      Param.integer file' r.name = Param.integer file r.name ∧ Param.boolean file' r.name = Param.boolean file r.name ∧
      (∀ l : List (String × Dbl), Param.code file' r.name l = Param.code file r.name l) ∧
      Param.facades stod file' r.name = Param.facades stod file r.name :=
    fun r hr hn => ⟨number_of (h r hr hn), integer_of (h r hr hn), boolean_of (h r hr hn), code_of (h r hr hn), facades_of (h r hr hn)⟩
  simp only [Param.table, List.forall_mem_cons, List.not_mem_nil, IsEmpty.forall_iff, implies_true, and_true] at hg
  simp only [List.mem_cons, List.not_mem_nil, or_false, String.reduceEq, not_false_eq_true,
    not_true_eq_false, forall_true_left, true_and, IsEmpty.forall_iff] at hg
  simp only [simOf, takeFuel, Param.stored, hg]

theorem edit_waterFuel (h : Edited ["dhwfueltype"] file file') (u : Params Dbl) (w : WeatherData Dbl) : simOf (Param.stored stod file' u) w =
    takeWaterFuel (simOf (Param.stored stod file u) w) (simOf (Param.stored stod file' u) w) := by
  have hg : ∀ r ∈ Param.table, r.name ∉ ["dhwfueltype"] → Param.number stod file' r.name = Param.number stod file r.name ∧
      Param.integer file' r.name = Param.integer file r.name ∧ Param.boolean file' r.name = Param.boolean file r.name ∧
      (∀ l : List (String × Dbl), Param.code file' r.name l = Param.code file r.name l) ∧
      Param.facades stod file' r.name = Param.facades stod file r.name :=
    fun r hr hn => ⟨number_of (h r hr hn), integer_of (h r hr hn), boolean_of (h r hr hn), code_of (h r hr hn), facades_of (h r hr hn)⟩
  simp only [Param.table, List.forall_mem_cons, List.not_mem_nil, IsEmpty.forall_iff, implies_true, and_true] at hg
  simp only [List.mem_cons, List.not_mem_nil, or_false, String.reduceEq, not_false_eq_true,
    not_true_eq_false, forall_true_left, true_and, IsEmpty.forall_iff] at hg
  simp only [simOf, takeWaterFuel, Param.stored, hg]

/-- the number of a fuel -/
theorem fuel_code {name : String} {c : Carrier} (h : Burns file name c) (d : Dbl) :
    ceq ((Param.code file name [("electric", (1.0 : Dbl)), ("gas", 2.0)]).getD d) (1.0 : Dbl) = decide (c = .electric) := by
  obtain ⟨t, ht, hc⟩ := h
  have e : Param.code file name [("electric", (1.0 : Dbl)), ("gas", 2.0)] =
      some (match c with | .electric => (1.0 : Dbl) | .gas => 2.0) := by
    unfold Param.code
    rw [show Param.given file name = some t from ht]
    have d : decide ("gas".toList = "electric".toList) = false := by decide +kernel
    cases c with
    | electric =>
      rw [show Carrier.electric.word = "electric" from rfl] at hc
      simp only [Option.bind_some, List.find?_cons, hc, decide_true, Option.map_some]
    | gas =>
      rw [show Carrier.gas.word = "gas" from rfl] at hc
      simp only [Option.bind_some, List.find?_cons, hc, d, decide_true, Option.map_some]
  rw [e]
  cases c with
  | electric =>
    show ceq (1.0 : Dbl) (1.0 : Dbl) = true
    exact (congrArg (ceq · (1.0 : Dbl)) (show (1.0 : Dbl) = fin 1 by rw [fin_lit]; norm_num)).trans ((ceq_one 1).trans (decide_eq_true rfl))
  | gas =>
    show ceq (2.0 : Dbl) (1.0 : Dbl) = false
    exact (congrArg (ceq · (1.0 : Dbl)) (show (2.0 : Dbl) = fin 2 by rw [fin_lit]; norm_num)).trans
      ((ceq_one 2).trans (decide_eq_false (by norm_num)))

theorem other_fuel {name : String} {c c' : Carrier} (h : Burns file name c) (h' : Burns file' name c') (hne : c ≠ c') (d d' : Dbl) :
    ceq ((Param.code file' name [("electric", (1.0 : Dbl)), ("gas", 2.0)]).getD d') (1.0 : Dbl) =
      !ceq ((Param.code file name [("electric", (1.0 : Dbl)), ("gas", 2.0)]).getD d) (1.0 : Dbl) := by
  rw [fuel_code h, fuel_code h']
  cases c <;> cases c' <;> first | exact absurd rfl hne | rfl

/-! ## the tables -/

theorem swapped_table {text text' title first : Str} {P : ℕ} {rs rs' : List (Fin 13 → Dbl)} {a b : Fin 13}
    (h : readTable ',' text = resultTable (Numerals.print P) title first rs)
    (h' : readTable ',' text' = resultTable (Numerals.print P) title first rs') (hs : Swapped a b (some rs) (some rs')) :
    SwappedTable a b text text' := by
  obtain ⟨hl, hr⟩ := hs
  have same := Editing.same_table (columns := [a, b]) h h' hl fun i hi hi' k hk => by
    simp only [List.mem_cons, List.not_mem_nil, or_false, not_or] at hk
    rw [hr i hi hi' k, Equiv.swap_apply_of_ne_of_ne hk.1 hk.2]
  have row : ∀ (t : Str) (l : List (Fin 13 → Dbl)) (_ : readTable ',' t = resultTable (Numerals.print P) title first l) (i : ℕ) (k : Fin 13),
      cell t (i + 2) (k + 1) = if hi : i < l.length then some (Numerals.print P (l[i] k)) else none := by
    intro t l e i k
    unfold cell
    rw [e]
    unfold resultTable
    by_cases hi : i < l.length
    · rw [dif_pos hi]
      simp [hi]
      fin_cases k <;> rfl
    · rw [dif_neg hi]
      simp [List.getElem?_eq_none (by simpa using hi : l.zipIdx.length ≤ i)]
  have swap : ∀ i, 2 ≤ i → ∀ k : Fin 13, cell text' i (k + 1) = cell text i ((Equiv.swap a b k : Fin 13) + 1) := by
    intro i hi k
    obtain ⟨i, rfl⟩ : ∃ j, i = j + 2 := ⟨i - 2, by omega⟩
    rw [row text rs h, row text' rs' h']
    by_cases hi : i < rs.length
    · rw [dif_pos hi, dif_pos (hl ▸ hi), hr i hi (hl ▸ hi) k]
    · rw [dif_neg hi, dif_neg (hl ▸ hi)]
  refine ⟨same.lines, same.title, same.number, fun i hi => ?_, fun i hi => ?_, fun i k ha hb => same.cells i k (by simp [ha, hb]), same.columns⟩
  · rw [swap i hi a, Equiv.swap_apply_left]
  · rw [swap i hi b, Equiv.swap_apply_right]

/-- one run that prints the monthly table -/
theorem monthly_run (hi : Inputs fs o file text) (ho : Nothing o) {lat lon zone : ℝ} {v : Fin 7 → Fin 8760 → ℝ}
    (hy : YearFile text lat lon zone v) (hz : |zone| ≤ 24) (junk k : Params Dbl) {rs : List (Fin 13 → Dbl)}
    (hrs : Monthly.simulate (simOf (Param.stored stod file (newObject junk)) (siteAverages standard ((Spec.EndToEnd.yearOf lat lon zone v).map fin)))
      = some rs) :
    ∃ t, main standard Numerals.print fs k o = .returns [.runMonthly] t ∧
      readTable ',' t = resultTable (Numerals.print 10) "Monthly Results:".toList "Month".toList rs := by
  obtain ⟨u, hu, hf, hm, -⟩ := Editing.read hi hy hz k _ rfl
  rw [stored_new hi.accepted k junk] at hm
  have hr := (hm rs).mpr hrs
  have ha : actions o = [.runMonthly] := by
    revert ho
    rcases o with ⟨ism, d, m, hm, hh, c⟩
    rintro ⟨o1, o2, o3, o4⟩
    simp only at o1 o2 o3 o4
    subst o1 o2 o3 o4
    rfl
  obtain ⟨o1, o2, o3, o4⟩ := ho
  obtain ⟨t1, t2, t3, t4, k, -, -, -, h1, h2, -, -, h3, -, h4⟩ := C51_program standard C60_library.1 Numerals.print C60_library.2 fs k o u hu hf
    rs rs rs (fun _ => hr) (fun h => by simp [o2, o4] at h) (fun h => by simp [o3] at h)
  have e1 := h1 o4
  have e3 := h3 (by simp [o2])
  have e4 := h4 (by simp [o3])
  rw [e1, e3, e4, List.nil_append, List.append_nil, List.append_nil, ha] at k
  exact ⟨t2, k, h2 (Or.inr ⟨o1, o2, o3, o4⟩)⟩

/-- one run that prints a table of the hourly simulation -/
theorem hourly_run (hi : Inputs fs o file text) (byMonth : Bool)
    (ho : o.monthly = false ∧ o.hourlyByMonth = byMonth ∧ o.hourlyByHour = !byMonth ∧ o.compare = none) {lat lon zone : ℝ}
    {v : Fin 7 → Fin 8760 → ℝ} (hy : YearFile text lat lon zone v) (hz : |zone| ≤ 24) (junk k : Params Dbl) {rs : List (Fin 13 → Dbl)}
    (hrs : (Hourly.simulate byMonth ⟨simOf (Param.stored stod file (newObject junk)) noAverages, (Spec.EndToEnd.yearOf lat lon zone v).map fin,
      Hourly.Pushed.empty⟩).map Prod.snd = some rs) :
    ∃ t, main standard Numerals.print fs k o = .returns [.runHourly byMonth] t ∧
      readTable ',' t = resultTable (Numerals.print 6) (if byMonth then "Hourly results by month:".toList else "Hourly results by hour:".toList)
        (if byMonth then "month".toList else "hour".toList) rs := by
  obtain ⟨u, hu, hf, -, hm⟩ := Editing.read hi hy hz k _ rfl
  rw [stored_new hi.accepted k junk] at hm
  obtain ⟨p, hp, hpr⟩ := Option.map_eq_some_iff.mp hrs
  subst hpr
  have hr := (hm byMonth p.2 noAverages).mpr ⟨p.1, hp⟩
  generalize p.2 = rs at hr
  have ha : actions o = [.runHourly byMonth] := by
    revert ho
    rcases o with ⟨ism, d, m, hm, hh, c⟩
    rintro ⟨o1, o2, o3, o4⟩
    simp only at o1 o2 o3 o4
    subst o1 o2 o3 o4
    cases hm <;> rfl
  obtain ⟨o1, o2, o3, o4⟩ := ho
  cases byMonth
  · obtain ⟨t1, t2, t3, t4, k, -, -, -, h1, -, h2, -, h3, h4, -⟩ := C51_program standard C60_library.1 Numerals.print C60_library.2 fs k o u hu hf
      rs rs rs (fun h => by simp [Nothing, o1, o3, o4] at h) (fun h => by simp [o2, o4] at h) (fun _ => hr)
    have e1 := h1 o4
    have e2 := h2 (by simp [Nothing, o1, o3])
    have e3 := h3 (by simp [o2])
    have e4 := h4 o3
    rw [o1, if_neg (by simp)] at e4
    rw [e1, e2, e3, List.nil_append, List.nil_append, List.nil_append, ha] at k
    exact ⟨t4, k, e4⟩
  · obtain ⟨t1, t2, t3, t4, k, -, -, -, h1, -, h2, h3, -, -, h4⟩ := C51_program standard C60_library.1 Numerals.print C60_library.2 fs k o u hu hf
      rs rs rs (fun h => by simp [Nothing, o1, o2, o4] at h) (fun _ => hr) (fun h => by simp [o3] at h)
    have e1 := h1 o4
    have e2 := h2 (by simp [Nothing, o1, o2])
    have e3 := h3 o2
    have e4 := h4 (by simp [o3])
    rw [o1, if_neg (by simp)] at e3
    rw [e1, e2, e4, List.nil_append, List.nil_append, List.append_nil, ha] at k
    exact ⟨t3, k, e3⟩

theorem monthly_swapped_tables {a b : Fin 13} (hi : Inputs fs o file text) (hi' : Inputs fs' o' file' text) (ho : Nothing o) (ho' : Nothing o')
    {lat lon zone : ℝ} {v : Fin 7 → Fin 8760 → ℝ} (hy : YearFile text lat lon zone v) (hz : |zone| ≤ 24) (junk junk' : Params Dbl)
    (hs : Swapped a b (Monthly.simulate (simOf (Param.stored stod file (newObject junk)) (siteAverages standard ((Spec.EndToEnd.yearOf lat lon zone v).map fin))))
      (Monthly.simulate (simOf (Param.stored stod file' (newObject junk)) (siteAverages standard ((Spec.EndToEnd.yearOf lat lon zone v).map fin)))))
    {acts : List Action} {out : Str} (h : main standard Numerals.print fs junk o = .returns acts out) :
    ∃ out', main standard Numerals.print fs' junk' o' = .returns acts out' ∧ SwappedTable a b out out' := by
  obtain ⟨rs, hrs⟩ := Option.isSome_iff_exists.mp (Editing.monthly_ran hi ho hy hz junk junk h)
  rw [hrs] at hs
  cases hrs' : Monthly.simulate (simOf (Param.stored stod file' (newObject junk)) (siteAverages standard ((Spec.EndToEnd.yearOf lat lon zone v).map fin))) with
  | none => rw [hrs'] at hs; exact hs.elim
  | some rs' =>
    rw [hrs'] at hs
    obtain ⟨t, ht, hT⟩ := monthly_run hi ho hy hz junk junk hrs
    obtain ⟨t', ht', hT'⟩ := monthly_run hi' ho' hy hz junk junk' hrs'
    rw [ht] at h
    injection h with h1 h2
    subst h1 h2
    exact ⟨t', ht', swapped_table hT hT' hs⟩

end Fuel
open Fuel

variable {fs fs' : FileSystem} {o o' : Options} {file file' : Properties.Store} {text : Str}

/-- **C84, hourly.** Two building files that differ in nothing but the fuel of the heating: in every line of the tables of the hourly simulation
the columns of heating with electricity and heating with gas are exchanged, and everything else is the same text. -/
theorem C84_hourly (hi : Inputs fs o file text) (hi' : Inputs fs' o' file' text) (he : Edited ["heatingfueltype"] file file')
    {c c' : Carrier} (hc : Burns file "heatingfueltype" c) (hc' : Burns file' "heatingfueltype" c') (hne : c ≠ c') (byMonth : Bool)
    (ho : o.monthly = false ∧ o.hourlyByMonth = byMonth ∧ o.hourlyByHour = !byMonth ∧ o.compare = none)
    (ho' : o'.monthly = false ∧ o'.hourlyByMonth = byMonth ∧ o'.hourlyByHour = !byMonth ∧ o'.compare = none)
    {lat lon zone : ℝ} {v : Fin 7 → Fin 8760 → ℝ} (hy : YearFile text lat lon zone v) (hz : |zone| ≤ 24) (junk junk' : Params Dbl)
    {acts : List Action} {out : Str} (h : main standard Numerals.print fs junk o = .returns acts out) :
    ∃ out', main standard Numerals.print fs' junk' o' = .returns acts out' ∧ SwappedTable heatingElectricity heatingGas out out' := by
  have hs : Swapped 0 9
      ((Hourly.simulate byMonth ⟨simOf (Param.stored stod file (newObject junk)) noAverages, (Spec.EndToEnd.yearOf lat lon zone v).map fin,
        Hourly.Pushed.empty⟩).map Prod.snd)
      ((Hourly.simulate byMonth ⟨simOf (Param.stored stod file' (newObject junk)) noAverages, (Spec.EndToEnd.yearOf lat lon zone v).map fin,
        Hourly.Pushed.empty⟩).map Prod.snd) := by
    have e : ceq (simOf (Param.stored stod file' (newObject junk)) noAverages).heating.energyType (1.0 : Dbl) =
        !ceq (simOf (Param.stored stod file (newObject junk)) noAverages).heating.energyType (1.0 : Dbl) := other_fuel hc hc' hne _ _
    rw [edit_fuel he]
    exact hourly_swapped _ _ e _ _ _
  obtain ⟨win, hwin⟩ := Option.isSome_iff_exists.mp (Editing.hourly_ran hi byMonth ho hy hz junk junk h)
  obtain ⟨rs, hrs⟩ : ∃ rs, (Hourly.simulate byMonth ⟨simOf (Param.stored stod file (newObject junk)) noAverages,
      (Spec.EndToEnd.yearOf lat lon zone v).map fin, Hourly.Pushed.empty⟩).map Prod.snd = some rs := by
    obtain ⟨u, hu, -, -, hm⟩ := Editing.read hi hy hz junk _ rfl
    have ha : actions o = [.runHourly byMonth] := by
      clear hwin h hi
      revert ho
      rcases o with ⟨ism, d, m, hm, hh, c⟩
      rintro ⟨o1, o2, o3, o4⟩
      simp only at o1 o2 o3 o4
      subst o1 o2 o3 o4
      cases hm <;> rfl
    obtain ⟨t, ht⟩ := Editing.returns_one hu ha h
    simp only [act, runHourlySimulation] at ht
    cases e : hourlyResults u byMonth with
    | ok rs =>
      obtain ⟨after, h⟩ := (hm byMonth rs noAverages).mp e
      exact ⟨rs, by rw [h]; rfl⟩
    | nullPointer => rw [e] at ht; simp [Step.bind] at ht
    | undefined => rw [e] at ht; simp [Step.bind] at ht
  rw [hrs] at hs
  cases hrs' : (Hourly.simulate byMonth ⟨simOf (Param.stored stod file' (newObject junk)) noAverages,
      (Spec.EndToEnd.yearOf lat lon zone v).map fin, Hourly.Pushed.empty⟩).map Prod.snd with
  | none => rw [hrs'] at hs; exact hs.elim
  | some rs' =>
    rw [hrs'] at hs
    obtain ⟨t, ht, hT⟩ := hourly_run hi byMonth ho hy hz junk junk hrs
    obtain ⟨t', ht', hT'⟩ := hourly_run hi' byMonth ho' hy hz junk junk' hrs'
    rw [ht] at h
    injection h with h1 h2
    subst h1 h2
    exact ⟨t', ht', swapped_table hT hT' hs⟩

/-- **C84, hot water.** Two building files that differ in nothing but the fuel of the hot water: in every line of the monthly table the columns of
hot water with electricity and with gas are exchanged, and everything else is the same text. -/
theorem C84_water (hi : Inputs fs o file text) (hi' : Inputs fs' o' file' text) (he : Edited ["dhwfueltype"] file file')
    {c c' : Carrier} (hc : Burns file "dhwfueltype" c) (hc' : Burns file' "dhwfueltype" c') (hne : c ≠ c') (ho : Nothing o) (ho' : Nothing o')
    {lat lon zone : ℝ} {v : Fin 7 → Fin 8760 → ℝ} (hy : YearFile text lat lon zone v) (hz : |zone| ≤ 24) (junk junk' : Params Dbl)
    {acts : List Action} {out : Str} (h : main standard Numerals.print fs junk o = .returns acts out) :
    ∃ out', main standard Numerals.print fs' junk' o' = .returns acts out' ∧ SwappedTable hotWaterElectricity hotWaterGas out out' := by
  refine monthly_swapped_tables hi hi' ho ho' hy hz junk junk' ?_ h
  generalize siteAverages standard ((Spec.EndToEnd.yearOf lat lon zone v).map fin) = w
  have e : ceq (simOf (Param.stored stod file' (newObject junk)) w).heating.hotWaterEnergyType (1.0 : Dbl) =
      !ceq (simOf (Param.stored stod file (newObject junk)) w).heating.hotWaterEnergyType (1.0 : Dbl) := other_fuel hc hc' hne _ _
  rw [edit_waterFuel he]
  exact water_swapped _ _ e

/-- **C84, monthly heating.** Two building files that differ in nothing but the fuel of the heating, and have no district heating: in every line of
the monthly table the columns of heating with electricity and heating with gas are exchanged, and everything else is the same text. -/
theorem C84_monthly (hi : Inputs fs o file text) (hi' : Inputs fs' o' file' text) (he : Edited ["heatingfueltype"] file file')
    {c c' : Carrier} (hc : Burns file "heatingfueltype" c) (hc' : Burns file' "heatingfueltype" c') (hne : c ≠ c') {d free η n : ℝ}
    (hd : GivesOr file "dh_yesno" 0 d) (hd1 : d ≠ 1) (hf : GivesOr file "frac_dh_free" 0 free) (hη : GivesOr file "eta_dh_sys" 0.87 η)
    (hn : GivesOr file "eta_dh_network" 0.9 n) (hne' : η ≠ 0 ∧ n ≠ 0) (ho : Nothing o) (ho' : Nothing o')
    {lat lon zone : ℝ} {v : Fin 7 → Fin 8760 → ℝ} (hy : YearFile text lat lon zone v) (hz : |zone| ≤ 24) (junk junk' : Params Dbl)
    {acts : List Action} {out : Str} (h : main standard Numerals.print fs junk o = .returns acts out) :
    ∃ out', main standard Numerals.print fs' junk' o' = .returns acts out' ∧ SwappedTable heatingElectricity heatingGas out out' := by
  refine monthly_swapped_tables hi hi' ho ho' hy hz junk junk' ?_ h
  generalize siteAverages standard ((Spec.EndToEnd.yearOf lat lon zone v).map fin) = w
  have e : ceq (simOf (Param.stored stod file' (newObject junk)) w).heating.energyType (1.0 : Dbl) =
      !ceq (simOf (Param.stored stod file (newObject junk)) w).heating.energyType (1.0 : Dbl) := other_fuel hc hc' hne _ _
  rw [edit_fuel he]
  refine heating_swapped _ _ e (d := d) (f := free) (η := η) (n := n) ?_ hd1 ?_ ?_ ?_ (mul_ne_zero hne'.1 hne'.2)
  · refine Eq.trans ?_ hd
    show (Param.number stod file "dh_yesno").getD (0.0 : Dbl) = _
    rw [fin_lit]; norm_num
  · refine Eq.trans ?_ hf
    show (Param.number stod file "frac_dh_free").getD (0.000 : Dbl) = _
    rw [fin_lit]; norm_num
  · refine Eq.trans ?_ hη
    show (Param.number stod file "eta_dh_sys").getD (0.87 : Dbl) = _
    rw [fin_lit]
  · refine Eq.trans ?_ hn
    show (Param.number stod file "eta_dh_network").getD (0.9 : Dbl) = _
    rw [fin_lit]

/-- **C84, district heating.** With district heating the fuel of the heating changes nothing in the monthly table (whereas the hourly simulation
does not know of district heating, see `C84_hourly`). -/
theorem C84_district (hi : Inputs fs o file text) (hi' : Inputs fs' o' file' text) (he : Edited ["heatingfueltype"] file file')
    (hd : GivesOr file "dh_yesno" 0 1) (ho : Nothing o) (ho' : Nothing o')
    {lat lon zone : ℝ} {v : Fin 7 → Fin 8760 → ℝ} (hy : YearFile text lat lon zone v) (hz : |zone| ≤ 24) (junk junk' : Params Dbl)
    {acts : List Action} {out : Str} (h : main standard Numerals.print fs junk o = .returns acts out) :
    ∃ out', main standard Numerals.print fs' junk' o' = .returns acts out' ∧ SameTable [] out out' := by
  refine Editing.monthly_tables hi hi' ho ho' hy hz hy hz junk junk' rfl rfl ?_ h
  generalize siteAverages standard ((Spec.EndToEnd.yearOf lat lon zone v).map fin) = w
  rw [edit_fuel he]
  refine heating_same _ _ ?_
  refine Eq.trans ?_ hd
  show (Param.number stod file "dh_yesno").getD (0.0 : Dbl) = _
  rw [fin_lit]; norm_num

end ISO.Props
