import Verif.Spec.Effects
import Verif.Model.Monthly
import Verif.Props.Size
import Verif.Props.MonthlyFinite
import Verif.Lemmas.HourlySim
import Verif.Lemmas.AggregateOrder
import Verif.Num.Float

/-! # C56: what a change of parameters can touch -/

namespace ISO.Props
open ISO ISO.Spec ISO.Dbl CNum

set_option linter.unusedSectionVars false

section monthly
open Monthly
variable {α : Type} [CNum α] [OfInt α]

/-- from the parts of the monthly simulation that can fail and the end uses of a month -/
theorem monthly_frame (uses : List (Fin 13)) (x x' : Sim α)
    (h1 : solarRadiationBreakdown x'.weather (scheduleAndOccupancy x'.pop) = solarRadiationBreakdown x.weather (scheduleAndOccupancy x.pop))
    (h2 : (windowSolarGain x'.bldg).isSome = (windowSolarGain x.bldg).isSome)
    (h3 : managementShift x'.building.buildingEnergyManagement = managementShift x.building.buildingEnergyManagement)
    (h : ∀ b a a' T m k, windowSolarGain x.bldg = some a → windowSolarGain x'.bldg = some a' → k ∉ uses →
      monthEndUses x (figures x (stagesWith x b a T)) m k = monthEndUses x' (figures x' (stagesWith x' b a' T)) m k) :
    SameExcept uses (Monthly.simulate x) (Monthly.simulate x') := by
  unfold Monthly.simulate stages
  rw [h1, h3]
  cases solarRadiationBreakdown x.weather (scheduleAndOccupancy x.pop) with
  | none => trivial
  | some b =>
    cases ha : windowSolarGain x.bldg with
    | none =>
      rw [ha] at h2
      cases ha' : windowSolarGain x'.bldg with
      | none => trivial
      | some a' => rw [ha'] at h2; cases h2
    | some a =>
      rw [ha] at h2
      cases ha' : windowSolarGain x'.bldg with
      | none => rw [ha'] at h2; cases h2
      | some a' =>
        cases managementShift x.building.buildingEnergyManagement with
        | none => trivial
        | some T =>
          refine ⟨by simp [outputGeneration], ?_⟩
          intro i hi hi' k hk
          have e : ∀ (z : Sim α) (f : Figures α) (h : i < (outputGeneration z f).length),
              (outputGeneration z f)[i]'h = monthEndUses z f ((List.finRange 12)[i]'(by simpa [outputGeneration] using h)) := by
            intro z f h
            simp [outputGeneration]
          exact ((congrFun (e _ _ hi) k).trans (h b a a' T _ k ha ha' hk)).trans (congrFun (e _ _ hi') k).symm

section columns
variable (x : Sim α) (f : Figures α) (m : Fin 12)
private theorem use0 : monthEndUses x f m 0 = vdiv (vdiv (f.v_Qelec_ht m) x.bldg.floorArea) kWh2MJ := rfl
private theorem use1 : monthEndUses x f m 1 = vdiv (vdiv (f.v_Qcl_elec_tot m) x.bldg.floorArea) kWh2MJ := rfl
private theorem use2 : monthEndUses x f m 2 = vdiv (f.v_Q_illum_tot m) x.bldg.floorArea := rfl
private theorem use3 : monthEndUses x f m 3 = vdiv (f.v_Q_illum_ext_tot m) x.bldg.floorArea := rfl
private theorem use4 : monthEndUses x f m 4 = f.v_Qfan_tot m := rfl
private theorem use5 : monthEndUses x f m 5 = vdiv (vdiv (f.v_Q_pump_tot m) x.bldg.floorArea) kWh2MJ := rfl
private theorem use6 : monthEndUses x f m 6 = plugLoad x.building.electricApplianceHeatGainOccupied x.building.electricApplianceHeatGainUnoccupied f.frac_hrs_wk_day m := rfl
private theorem use7 : monthEndUses x f m 7 = 0.0 := rfl
private theorem use8 : monthEndUses x f m 8 = vdiv (f.v_Q_dhw_elec m) x.bldg.floorArea := rfl
private theorem use9 : monthEndUses x f m 9 = vdiv (vdiv (f.v_Qgas_ht m) x.bldg.floorArea) kWh2MJ := rfl
private theorem use10 : monthEndUses x f m 10 = vdiv (vdiv (f.v_Qcl_gas_tot m) x.bldg.floorArea) kWh2MJ := rfl
private theorem use11 : monthEndUses x f m 11 = plugLoad x.building.gasApplianceHeatGainOccupied x.building.gasApplianceHeatGainUnoccupied f.frac_hrs_wk_day m := rfl
private theorem use12 : monthEndUses x f m 12 = vdiv (f.v_Q_dhw_gas m) x.bldg.floorArea := rfl
end columns

/-- the end uses of a month, one by one -/
theorem column_frame (uses : List (Fin 13)) (x x' : Sim α) (f f' : Figures α) (m : Fin 12) (k : Fin 13) (hk : k ∉ uses)
    (hA : x'.bldg.floorArea = x.bldg.floorArea) (hb : x'.building = { x.building with externalEquipment := x'.building.externalEquipment })
    (hf : f'.frac_hrs_wk_day = f.frac_hrs_wk_day)
    (h0 : 0 ∉ uses → f'.v_Qelec_ht = f.v_Qelec_ht) (h1 : 1 ∉ uses → f'.v_Qcl_elec_tot = f.v_Qcl_elec_tot)
    (h2 : 2 ∉ uses → f'.v_Q_illum_tot = f.v_Q_illum_tot) (h3 : 3 ∉ uses → f'.v_Q_illum_ext_tot = f.v_Q_illum_ext_tot)
    (h4 : 4 ∉ uses → f'.v_Qfan_tot = f.v_Qfan_tot) (h5 : 5 ∉ uses → f'.v_Q_pump_tot = f.v_Q_pump_tot)
    (h8 : 8 ∉ uses → f'.v_Q_dhw_elec = f.v_Q_dhw_elec) (h9 : 9 ∉ uses → f'.v_Qgas_ht = f.v_Qgas_ht)
    (h10 : 10 ∉ uses → f'.v_Qcl_gas_tot = f.v_Qcl_gas_tot) (h12 : 12 ∉ uses → f'.v_Q_dhw_gas = f.v_Q_dhw_gas) :
    monthEndUses x f m k = monthEndUses x' f' m k := by
  match k, hk with
  | 0, hk => rw [use0, use0, hA, h0 hk]
  | 1, hk => rw [use1, use1, hA, h1 hk]
  | 2, hk => rw [use2, use2, hA, h2 hk]
  | 3, hk => rw [use3, use3, hA, h3 hk]
  | 4, hk => rw [use4, use4, h4 hk]
  | 5, hk => rw [use5, use5, hA, h5 hk]
  | 6, _ => rw [use6, use6, hf, hb]
  | 7, _ => rw [use7, use7]
  | 8, hk => rw [use8, use8, hA, h8 hk]
  | 9, hk => rw [use9, use9, hA, h9 hk]
  | 10, hk => rw [use10, use10, hA, h10 hk]
  | 11, _ => rw [use11, use11, hf, hb]
  | 12, hk => rw [use12, use12, hA, h12 hk]

private theorem stages_hotWater (x y : Sim α) : stagesWith (takeHotWater x y) = stagesWith x := by
  have h0 : lightingEnergyUse (takeHotWater x y) = lightingEnergyUse x := rfl
  have h1 : heatGainsAndLosses (takeHotWater x y) = heatGainsAndLosses x := rfl
  have h2 : interiorTemp (takeHotWater x y) = interiorTemp x := rfl
  have h3 : ventilationCalc (takeHotWater x y) = ventilationCalc x := rfl
  have h4 : timeConstant (takeHotWater x y) = timeConstant x := rfl
  have h5 : heatingAndCooling (takeHotWater x y) = heatingAndCooling x := rfl
  unfold stagesWith
  simp only [h0, h1, h2, h3, h4, h5]
  rfl

/-- **C56** Demand, efficiencies, fuel and temperatures of the hot water change nothing but the two end uses of hot water. -/
theorem C56_hotWater (x y : Sim α) :
    SameExcept [hotWaterElectricity, hotWaterGas] (Monthly.simulate x) (Monthly.simulate (takeHotWater x y)) := by
  refine monthly_frame _ _ _ rfl rfl rfl ?_
  intro b a a' T m k ha ha' hk
  have : a' = a := Option.some.inj (ha'.symm.trans ha)
  subst this
  rw [stages_hotWater]
  generalize stagesWith x b a' T = s
  exact column_frame _ _ _ _ _ m k hk rfl rfl rfl (fun _ => rfl) (fun _ => rfl) (fun _ => rfl) (fun _ => rfl) (fun _ => rfl) (fun _ => rfl) (fun h => absurd (by decide) h) (fun _ => rfl) (fun _ => rfl) (fun h => absurd (by decide) h)

private theorem stages_heatingSystem (x y : Sim α) : stagesWith (takeHeatingSystem x y) = stagesWith x := by
  have h0 : lightingEnergyUse (takeHeatingSystem x y) = lightingEnergyUse x := rfl
  have h1 : heatGainsAndLosses (takeHeatingSystem x y) = heatGainsAndLosses x := rfl
  have h2 : interiorTemp (takeHeatingSystem x y) = interiorTemp x := rfl
  have h3 : ventilationCalc (takeHeatingSystem x y) = ventilationCalc x := rfl
  have h4 : timeConstant (takeHeatingSystem x y) = timeConstant x := rfl
  have h5 : heatingAndCooling (takeHeatingSystem x y) = heatingAndCooling x := rfl
  unfold stagesWith
  simp only [h0, h1, h2, h3, h4, h5]
  rfl

/-- **C56** The boiler and the district heating change nothing but the energy for heating. -/
theorem C56_heatingSystem (x y : Sim α) :
    SameExcept [heatingElectricity, heatingGas] (Monthly.simulate x) (Monthly.simulate (takeHeatingSystem x y)) := by
  refine monthly_frame _ _ _ rfl rfl rfl ?_
  intro b a a' T m k ha ha' hk
  have : a' = a := Option.some.inj (ha'.symm.trans ha)
  subst this
  rw [stages_heatingSystem]
  generalize stagesWith x b a' T = s
  exact column_frame _ _ _ _ _ m k hk rfl rfl rfl (fun h => absurd (by decide) h) (fun _ => rfl) (fun _ => rfl) (fun _ => rfl) (fun _ => rfl) (fun _ => rfl) (fun _ => rfl) (fun h => absurd (by decide) h) (fun _ => rfl) (fun _ => rfl)

private theorem stages_coolingSystem (x y : Sim α) : stagesWith (takeCoolingSystem x y) = stagesWith x := by
  have h0 : lightingEnergyUse (takeCoolingSystem x y) = lightingEnergyUse x := rfl
  have h1 : heatGainsAndLosses (takeCoolingSystem x y) = heatGainsAndLosses x := rfl
  have h2 : interiorTemp (takeCoolingSystem x y) = interiorTemp x := rfl
  have h3 : ventilationCalc (takeCoolingSystem x y) = ventilationCalc x := rfl
  have h4 : timeConstant (takeCoolingSystem x y) = timeConstant x := rfl
  have h5 : heatingAndCooling (takeCoolingSystem x y) = heatingAndCooling x := rfl
  unfold stagesWith
  simp only [h0, h1, h2, h3, h4, h5]
  rfl

/-- **C56** The chiller and the district cooling change nothing but the energy for cooling. -/
theorem C56_coolingSystem (x y : Sim α) :
    SameExcept [coolingElectricity, coolingGas] (Monthly.simulate x) (Monthly.simulate (takeCoolingSystem x y)) := by
  refine monthly_frame _ _ _ rfl rfl rfl ?_
  intro b a a' T m k ha ha' hk
  have : a' = a := Option.some.inj (ha'.symm.trans ha)
  subst this
  rw [stages_coolingSystem]
  generalize stagesWith x b a' T = s
  exact column_frame _ _ _ _ _ m k hk rfl rfl rfl (fun _ => rfl) (fun h => absurd (by decide) h) (fun _ => rfl) (fun _ => rfl) (fun _ => rfl) (fun _ => rfl) (fun _ => rfl) (fun _ => rfl) (fun h => absurd (by decide) h) (fun _ => rfl)

private theorem stages_distribution (x y : Sim α) : stagesWith (takeDistribution x y) = stagesWith x := by
  have h0 : lightingEnergyUse (takeDistribution x y) = lightingEnergyUse x := rfl
  have h1 : heatGainsAndLosses (takeDistribution x y) = heatGainsAndLosses x := rfl
  have h2 : interiorTemp (takeDistribution x y) = interiorTemp x := rfl
  have h3 : ventilationCalc (takeDistribution x y) = ventilationCalc x := rfl
  have h4 : timeConstant (takeDistribution x y) = timeConstant x := rfl
  have h5 : heatingAndCooling (takeDistribution x y) = heatingAndCooling x := rfl
  unfold stagesWith
  simp only [h0, h1, h2, h3, h4, h5]
  rfl

/-- **C56** The loss factors of the distribution change nothing but the energy for heating and cooling. -/
theorem C56_distribution (x y : Sim α) :
    SameExcept [heatingElectricity, heatingGas, coolingElectricity, coolingGas] (Monthly.simulate x) (Monthly.simulate (takeDistribution x y)) := by
  refine monthly_frame _ _ _ rfl rfl rfl ?_
  intro b a a' T m k ha ha' hk
  have : a' = a := Option.some.inj (ha'.symm.trans ha)
  subst this
  rw [stages_distribution]
  generalize stagesWith x b a' T = s
  exact column_frame _ _ _ _ _ m k hk rfl rfl rfl (fun h => absurd (by decide) h) (fun h => absurd (by decide) h) (fun _ => rfl) (fun _ => rfl) (fun _ => rfl) (fun _ => rfl) (fun _ => rfl) (fun h => absurd (by decide) h) (fun h => absurd (by decide) h) (fun _ => rfl)

private theorem stages_pumps (x y : Sim α) : stagesWith (takePumps x y) = stagesWith x := by
  have h0 : lightingEnergyUse (takePumps x y) = lightingEnergyUse x := rfl
  have h1 : heatGainsAndLosses (takePumps x y) = heatGainsAndLosses x := rfl
  have h2 : interiorTemp (takePumps x y) = interiorTemp x := rfl
  have h3 : ventilationCalc (takePumps x y) = ventilationCalc x := rfl
  have h4 : timeConstant (takePumps x y) = timeConstant x := rfl
  have h5 : heatingAndCooling (takePumps x y) = heatingAndCooling x := rfl
  unfold stagesWith
  simp only [h0, h1, h2, h3, h4, h5]
  rfl

/-- **C56** Power and control of the pumps change nothing but the energy of the pumps. -/
theorem C56_pumps (x y : Sim α) :
    SameExcept [Spec.pumps] (Monthly.simulate x) (Monthly.simulate (takePumps x y)) := by
  refine monthly_frame _ _ _ rfl rfl rfl ?_
  intro b a a' T m k ha ha' hk
  have : a' = a := Option.some.inj (ha'.symm.trans ha)
  subst this
  rw [stages_pumps]
  generalize stagesWith x b a' T = s
  exact column_frame _ _ _ _ _ m k hk rfl rfl rfl (fun _ => rfl) (fun _ => rfl) (fun _ => rfl) (fun _ => rfl) (fun _ => rfl) (fun h => absurd (by decide) h) (fun _ => rfl) (fun _ => rfl) (fun _ => rfl) (fun _ => rfl)

private theorem stages_hourlyOnly (x y : Sim α) : stagesWith (takeHourlyOnly x y) = stagesWith x := by
  have h0 : lightingEnergyUse (takeHourlyOnly x y) = lightingEnergyUse x := rfl
  have h1 : heatGainsAndLosses (takeHourlyOnly x y) = heatGainsAndLosses x := rfl
  have h2 : interiorTemp (takeHourlyOnly x y) = interiorTemp x := rfl
  have h3 : ventilationCalc (takeHourlyOnly x y) = ventilationCalc x := rfl
  have h4 : timeConstant (takeHourlyOnly x y) = timeConstant x := rfl
  have h5 : heatingAndCooling (takeHourlyOnly x y) = heatingAndCooling x := rfl
  unfold stagesWith
  simp only [h0, h1, h2, h3, h4, h5]
  rfl

/-- **C56** The parameters that only the hourly model uses have no effect on the monthly results. -/
theorem C56_hourlyOnly (x y : Sim α) :
    SameExcept [] (Monthly.simulate x) (Monthly.simulate (takeHourlyOnly x y)) := by
  refine monthly_frame _ _ _ rfl rfl rfl ?_
  intro b a a' T m k ha ha' hk
  have : a' = a := Option.some.inj (ha'.symm.trans ha)
  subst this
  rw [stages_hourlyOnly]
  generalize stagesWith x b a' T = s
  exact column_frame _ _ _ _ _ m k hk rfl rfl rfl (fun _ => rfl) (fun _ => rfl) (fun _ => rfl) (fun _ => rfl) (fun _ => rfl) (fun _ => rfl) (fun _ => rfl) (fun _ => rfl) (fun _ => rfl) (fun _ => rfl)


/-- **C56** The power of the lights outside changes nothing but their energy. -/
theorem C56_exteriorLights (x y : Sim α) :
    SameExcept [exteriorLights] (Monthly.simulate x) (Monthly.simulate (takeExteriorLights x y)) := by
  refine monthly_frame _ _ _ rfl rfl rfl ?_
  intro b a a' T m k ha ha' hk
  have : a' = a := Option.some.inj (ha'.symm.trans ha)
  subst this
  have h0 : lightingEnergyUse (takeExteriorLights x y) b.v_hrs_sun_down_mo =
      { lightingEnergyUse x b.v_hrs_sun_down_mo with
        v_Q_illum_ext_tot := (lightingEnergyUse (takeExteriorLights x y) b.v_hrs_sun_down_mo).v_Q_illum_ext_tot } := rfl
  have h1 : ∀ v l w, heatGainsAndLosses (takeExteriorLights x y) v { l with v_Q_illum_ext_tot := w } = heatGainsAndLosses x v l :=
    fun _ _ _ => rfl
  have h2 : interiorTemp (takeExteriorLights x y) = interiorTemp x := rfl
  have h3 : ventilationCalc (takeExteriorLights x y) = ventilationCalc x := rfl
  have h4 : timeConstant (takeExteriorLights x y) = timeConstant x := rfl
  have h5 : heatingAndCooling (takeExteriorLights x y) = heatingAndCooling x := rfl
  have e : stagesWith (takeExteriorLights x y) b a' T = { stagesWith x b a' T with
      l := lightingEnergyUse (takeExteriorLights x y) b.v_hrs_sun_down_mo } := by
    unfold stagesWith
    simp only [h2, h3, h4, h5]
    rw [h0]
    simp only [h1]
    rfl
  rw [e, h0]
  have e' : (stagesWith x b a' T).l = lightingEnergyUse x b.v_hrs_sun_down_mo := rfl
  rw [← e']
  generalize stagesWith x b a' T = s
  exact column_frame _ _ _ _ _ m k hk rfl rfl rfl (fun _ => rfl) (fun _ => rfl) (fun _ => rfl) (fun h => absurd (by decide) h) (fun _ => rfl) (fun _ => rfl) (fun _ => rfl) (fun _ => rfl) (fun _ => rfl) (fun _ => rfl)

/-- **C56** The power of the fans and the temperature of the air they supply change nothing but the energy of the fans. -/
theorem C56_fans (x y : Sim α) :
    SameExcept [Spec.fans] (Monthly.simulate x) (Monthly.simulate (takeFans x y)) := by
  refine monthly_frame _ _ _ rfl rfl rfl ?_
  intro b a a' T m k ha ha' hk
  have : a' = a := Option.some.inj (ha'.symm.trans ha)
  subst this
  have h0 : lightingEnergyUse (takeFans x y) = lightingEnergyUse x := rfl
  have h1 : heatGainsAndLosses (takeFans x y) = heatGainsAndLosses x := rfl
  have h2 : interiorTemp (takeFans x y) = interiorTemp x := rfl
  have h3 : ventilationCalc (takeFans x y) = ventilationCalc x := rfl
  have h4 : timeConstant (takeFans x y) = timeConstant x := rfl
  have h5 : ∀ a b c d e f g h i, heatingAndCooling (takeFans x y) a b c d e f g h i =
      { heatingAndCooling x a b c d e f g h i with v_Qfan_tot := (heatingAndCooling (takeFans x y) a b c d e f g h i).v_Qfan_tot } :=
    fun _ _ _ _ _ _ _ _ _ => rfl
  have e : ∃ v, stagesWith (takeFans x y) b a' T = { stagesWith x b a' T with
      needs := { (stagesWith x b a' T).needs with v_Qfan_tot := v } } := by
    unfold stagesWith
    simp only [h0, h1, h2, h3, h4]
    rw [h5]
    exact ⟨_, rfl⟩
  obtain ⟨v, e⟩ := e
  rw [e]
  generalize stagesWith x b a' T = s
  exact column_frame _ _ _ _ _ m k hk rfl rfl rfl (fun _ => rfl) (fun _ => rfl) (fun _ => rfl) (fun _ => rfl) (fun h => absurd (by decide) h) (fun _ => rfl) (fun _ => rfl) (fun _ => rfl) (fun _ => rfl) (fun _ => rfl)

/-- **C56** Envelope, set-points, people, site and air supply change nothing but the energy for heating, cooling, fans and pumps. -/
theorem C56_comfort (x y : Sim α) :
    SameExcept [heatingElectricity, coolingElectricity, Spec.fans, Spec.pumps, heatingGas, coolingGas]
      (Monthly.simulate x) (Monthly.simulate (takeComfort x y)) := by
  refine monthly_frame _ _ _ rfl ?_ rfl ?_
  · unfold windowSolarGain
    have : (takeComfort x y).bldg.windowShadingDevice = x.bldg.windowShadingDevice := rfl
    rw [this]
    cases allFacades fun i => shadingFactor (x.bldg.windowShadingDevice i) <;> rfl
  intro b a a' T m k ha ha' hk
  have h0 : lightingEnergyUse (takeComfort x y) = lightingEnergyUse x := rfl
  have e1 : (stagesWith (takeComfort x y) b a' T).l = (stagesWith x b a T).l := by
    show lightingEnergyUse (takeComfort x y) _ = lightingEnergyUse x _
    rw [h0]
  have e2 : (stagesWith (takeComfort x y) b a' T).o = (stagesWith x b a T).o := rfl
  revert e1 e2
  generalize stagesWith x b a T = s
  generalize stagesWith (takeComfort x y) b a' T = s'
  intro e1 e2
  obtain ⟨o, _, l, _, _, _, _, _, _, _, _, _, _, _, n⟩ := s
  obtain ⟨o', _, l', _, _, _, _, _, _, _, _, _, _, _, n'⟩ := s'
  simp only at e1 e2
  subst e1 e2
  exact column_frame _ _ _ _ _ m k hk rfl rfl rfl (fun h => absurd (by decide) h) (fun h => absurd (by decide) h) (fun _ => rfl) (fun _ => rfl) (fun h => absurd (by decide) h) (fun h => absurd (by decide) h) (fun _ => rfl) (fun h => absurd (by decide) h) (fun h => absurd (by decide) h) (fun _ => rfl)

/-- a building with results of both kinds, and another one with twice the hot water: all end uses but hot water are the same -/
example (y : Sim Dbl) : ∃ r r', Monthly.simulate (plainOffice.map fin) = some r ∧
    Monthly.simulate (takeHotWater (plainOffice.map fin) y) = some r' ∧
    ∀ (i : Nat) (h : i < r.length) (h' : i < r'.length), r[i] heatingGas = r'[i] heatingGas ∧ r[i] interiorLights = r'[i] interiorLights := by
  obtain ⟨s, hs⟩ := plain_stages
  have h := C56_hotWater (plainOffice.map fin) y
  have e : Monthly.simulate (plainOffice.map fin) = some (outputGeneration (plainOffice.map fin) (figures (plainOffice.map fin) s)) := by
    unfold Monthly.simulate
    rw [hs]
    rfl
  rw [e] at h ⊢
  cases hr : Monthly.simulate (takeHotWater (plainOffice.map fin) y) with
  | none => rw [hr] at h; exact h.elim
  | some r' =>
    rw [hr] at h
    exact ⟨_, r', rfl, rfl, fun i hi hi' => ⟨h.2 i hi hi' _ (by decide), h.2 i hi hi' _ (by decide)⟩⟩

end monthly

section hourly
variable {α : Type} [CNum α] [OfInt α]
open Hourly Epw

/-- two lists of hours that agree in every end use not listed -/
def Agree (uses : List (Fin 13)) (l l' : List (EndUses α)) : Prop := ∀ k, k ∉ uses → l.map (· k) = l'.map (· k)

theorem agree_get {uses : List (Fin 13)} {l l' : List (EndUses α)} (h : Agree uses l l') (k : Fin 13) (hk : k ∉ uses) (i : Nat)
    (hi : i < l.length) (hi' : i < l'.length) : l[i] k = l'[i] k := by
  have e := congrArg (fun z => z[i]?) (h k hk)
  simpa [hi, hi'] using e

theorem hourly_results (uses : List (Fin 13)) (agg : Bool) (x x' : Sim α) (w : Weather α) (p : Pushed α)
    (hw : window x'.pop = window x.pop)
    (h : ∀ win, Agree uses (endUses x (rawResults x (pushAll x.bldg p).ratios win w))
      (endUses x' (rawResults x' (pushAll x'.bldg p).ratios win w))) :
    SameExcept uses ((simulate agg ⟨x, w, p⟩).map Prod.snd) ((simulate agg ⟨x', w, p⟩).map Prod.snd) := by
  rw [simulate_results, simulate_results]
  simp only [hw]
  cases window x.pop with
  | none => trivial
  | some win =>
    have h := h win
    have l1 : (endUses x (rawResults x (pushAll x.bldg p).ratios win w)).length = 8760 := by
      rw [endUses_length, rawResults_length]
    have l2 : (endUses x' (rawResults x' (pushAll x'.bldg p).ratios win w)).length = 8760 := by
      rw [endUses_length, rawResults_length]
    simp only [Option.bind_some]
    revert h l1 l2
    generalize endUses x (rawResults x (pushAll x.bldg p).ratios win w) = l
    generalize endUses x' (rawResults x' (pushAll x'.bldg p).ratios win w) = l'
    intro h l1 l2
    cases agg with
    | false => exact ⟨l1.trans l2.symm, fun i hi hi' k hk => agree_get h k hk i hi hi'⟩
    | true =>
      obtain ⟨o, a1, a2, a3⟩ := aggregate_order l1
      obtain ⟨o', b1, b2, b3⟩ := aggregate_order l2
      simp only [cond_true, a1, b1]
      exact ⟨a2.trans b2.symm, fun i hi hi' k hk => by rw [a3 i hi k, b3 i hi' k, h k hk]⟩

/-- a change that leaves the thermal behaviour alone -/
theorem hourly_frame (uses : List (Fin 13)) (x x' : Sim α) (hw : window x'.pop = window x.pop)
    (hp : pushOne x'.bldg = pushOne x.bldg) (hc : initConsts x' = initConsts x)
    (hs : ∀ c r win h d w st, (calculateHour x' c r (scheduleCell x' win h d) w st).1 = (calculateHour x c r (scheduleCell x win h d) w st).1 ∧
      (calculateHour x' c r (scheduleCell x' win h d) w st).2.Qneed_ht = (calculateHour x c r (scheduleCell x win h d) w st).2.Qneed_ht ∧
      (calculateHour x' c r (scheduleCell x' win h d) w st).2.Qneed_cl = (calculateHour x c r (scheduleCell x win h d) w st).2.Qneed_cl)
    (hu : ∀ c r win h d w st H C k, k ∉ uses →
      hourEndUses x (Hourly.distribution x H C) (calculateHour x c r (scheduleCell x win h d) w st).2 k =
        hourEndUses x' (Hourly.distribution x' H C) (calculateHour x' c r (scheduleCell x' win h d) w st).2 k)
    (w : Weather α) (p : Pushed α) (agg : Bool) :
    SameExcept uses ((simulate agg ⟨x, w, p⟩).map Prod.snd) ((simulate agg ⟨x', w, p⟩).map Prod.snd) := by
  refine hourly_results _ _ _ _ _ _ hw ?_
  intro win
  have e : pushAll x'.bldg p = pushAll x.bldg p := by unfold pushAll; rw [hp]
  rw [e]
  generalize (pushAll x.bldg p).ratios = r
  unfold rawResults
  rw [hc, List.ofFn_eq_map, List.ofFn_eq_map]
  generalize initConsts x = c
  generalize List.finRange 8760 = L
  have key : ∀ (L : List (Fin 8760)) (st : ThermalState α),
      (runHours x' c r (L.map (hourInput x' win w)) st).map (·.Qneed_ht) = (runHours x c r (L.map (hourInput x win w)) st).map (·.Qneed_ht) ∧
      (runHours x' c r (L.map (hourInput x' win w)) st).map (·.Qneed_cl) = (runHours x c r (L.map (hourInput x win w)) st).map (·.Qneed_cl) ∧
      ∀ H C k, k ∉ uses → (runHours x c r (L.map (hourInput x win w)) st).map (fun z => hourEndUses x (Hourly.distribution x H C) z k) =
        (runHours x' c r (L.map (hourInput x' win w)) st).map (fun z => hourEndUses x' (Hourly.distribution x' H C) z k) := by
    intro L
    induction L with
    | nil => intro st; exact ⟨rfl, rfl, fun _ _ _ _ => rfl⟩
    | cons i L ih =>
      intro st
      simp only [List.map_cons, hourInput, runHours]
      obtain ⟨s1, s2, s3⟩ := hs c r win (Solar.sliceAt i).hour (Solar.sliceAt i).dayOfWeek (hourWeather w i) st
      have s4 := hu c r win (Solar.sliceAt i).hour (Solar.sliceAt i).dayOfWeek (hourWeather w i) st
      rw [s1, s2, s3]
      obtain ⟨i1, i2, i3⟩ := ih (calculateHour x c r (scheduleCell x win (Solar.sliceAt i).hour (Solar.sliceAt i).dayOfWeek) (hourWeather w i) st).1
      refine ⟨congrArg _ i1, congrArg _ i2, fun H C k hk => ?_⟩
      rw [s4 H C k hk]
      exact congrArg _ (i3 H C k hk)
  obtain ⟨k1, k2, k3⟩ := key L initialState
  intro k hk
  simp only [endUses, List.map_map, yearDistribution]
  rw [k1, k2]
  exact k3 _ _ k hk

/-- the end uses of an hour, one by one -/
theorem hour_frame (uses : List (Fin 13)) (x x' : Sim α) (e e' : α × α) (r r' : HourResults α) (k : Fin 13) (hk : k ∉ uses)
    (h0 : 0 ∉ uses → hourEndUses x e r 0 = hourEndUses x' e' r' 0) (h1 : 1 ∉ uses → hourEndUses x e r 1 = hourEndUses x' e' r' 1)
    (h9 : 9 ∉ uses → hourEndUses x e r 9 = hourEndUses x' e' r' 9) (h2 : 2 ∉ uses → r.Q_illum_tot = r'.Q_illum_tot)
    (h3 : 3 ∉ uses → r.Q_illum_ext_tot = r'.Q_illum_ext_tot) (h4 : 4 ∉ uses → r.Qfan_tot = r'.Qfan_tot)
    (h5 : 5 ∉ uses → r.Qpump_tot = r'.Qpump_tot) (h6 : 6 ∉ uses → r.phi_plug = r'.phi_plug)
    (h7 : 7 ∉ uses → r.externalEquipmentEnergyWperm2 = r'.externalEquipmentEnergyWperm2) (h8 : r.Q_dhw = r'.Q_dhw) :
    hourEndUses x e r k = hourEndUses x' e' r' k := by
  match k, hk with
  | 0, hk => exact h0 hk
  | 1, hk => exact h1 hk
  | 2, hk => exact congrArg (· / (1000.0 : α)) (h2 hk)
  | 3, hk => exact congrArg (· / (1000.0 : α)) (h3 hk)
  | 4, hk => exact congrArg (· / (1000.0 : α)) (h4 hk)
  | 5, hk => exact congrArg (· / (1000.0 : α)) (h5 hk)
  | 6, hk => exact congrArg (· / (1000.0 : α)) (h6 hk)
  | 7, hk => exact congrArg (· / (1000.0 : α)) (h7 hk)
  | 8, hk => exact congrArg (· / (1000.0 : α)) h8
  | 9, hk => exact h9 hk
  | 10, hk => rfl
  | 11, hk => rfl
  | 12, hk => rfl

/-- **C56** (hourly model) The power of the lights outside changes nothing but their energy. -/
theorem C56_hourly_exteriorLights (x y : Sim α) (w : Weather α) (p : Pushed α) (agg : Bool) :
    SameExcept [Spec.exteriorLights] ((simulate agg ⟨x, w, p⟩).map Prod.snd) ((simulate agg ⟨takeExteriorLights x y, w, p⟩).map Prod.snd) := by
  have hw : window (takeExteriorLights x y).pop = window x.pop := rfl
  have hp : pushOne (takeExteriorLights x y).bldg = pushOne x.bldg := rfl
  have hc : initConsts (takeExteriorLights x y) = initConsts x := rfl
  refine hourly_frame [Spec.exteriorLights] x (takeExteriorLights x y) hw hp hc (fun _ _ _ _ _ _ _ => ⟨rfl, rfl, rfl⟩) ?_ w p agg
  intro c r win h d w st H C k hk
  exact hour_frame _ _ _ _ _ _ _ k hk (fun _ => rfl) (fun _ => rfl) (fun _ => rfl) (fun _ => rfl) (fun h => absurd (by decide) h) (fun _ => rfl) (fun _ => rfl) (fun _ => rfl) (fun _ => rfl) rfl

/-- **C56** (hourly model) The equipment outside changes nothing but its own energy. -/
theorem C56_hourly_exteriorEquipment (x y : Sim α) (w : Weather α) (p : Pushed α) (agg : Bool) :
    SameExcept [exteriorEquipment] ((simulate agg ⟨x, w, p⟩).map Prod.snd) ((simulate agg ⟨takeExteriorEquipment x y, w, p⟩).map Prod.snd) := by
  have hw : window (takeExteriorEquipment x y).pop = window x.pop := rfl
  have hp : pushOne (takeExteriorEquipment x y).bldg = pushOne x.bldg := rfl
  have hc : initConsts (takeExteriorEquipment x y) = initConsts x := rfl
  refine hourly_frame [exteriorEquipment] x (takeExteriorEquipment x y) hw hp hc (fun _ _ _ _ _ _ _ => ⟨rfl, rfl, rfl⟩) ?_ w p agg
  intro c r win h d w st H C k hk
  exact hour_frame _ _ _ _ _ _ _ k hk (fun _ => rfl) (fun _ => rfl) (fun _ => rfl) (fun _ => rfl) (fun _ => rfl) (fun _ => rfl) (fun _ => rfl) (fun _ => rfl) (fun h => absurd (by decide) h) rfl

/-- **C56** (hourly model) Efficiency and fuel of the boiler change nothing but the energy for heating. -/
theorem C56_hourly_heatingSystem (x y : Sim α) (w : Weather α) (p : Pushed α) (agg : Bool) :
    SameExcept [heatingElectricity, heatingGas] ((simulate agg ⟨x, w, p⟩).map Prod.snd) ((simulate agg ⟨takeHeatingSystem x y, w, p⟩).map Prod.snd) := by
  have hw : window (takeHeatingSystem x y).pop = window x.pop := rfl
  have hp : pushOne (takeHeatingSystem x y).bldg = pushOne x.bldg := rfl
  have hc : initConsts (takeHeatingSystem x y) = initConsts x := rfl
  refine hourly_frame [heatingElectricity, heatingGas] x (takeHeatingSystem x y) hw hp hc (fun _ _ _ _ _ _ _ => ⟨rfl, rfl, rfl⟩) ?_ w p agg
  intro c r win h d w st H C k hk
  exact hour_frame _ _ _ _ _ _ _ k hk (fun h => absurd (by decide) h) (fun _ => rfl) (fun h => absurd (by decide) h) (fun _ => rfl) (fun _ => rfl) (fun _ => rfl) (fun _ => rfl) (fun _ => rfl) (fun _ => rfl) rfl

/-- **C56** (hourly model) The chiller changes nothing but the electricity for cooling. -/
theorem C56_hourly_coolingSystem (x y : Sim α) (w : Weather α) (p : Pushed α) (agg : Bool) :
    SameExcept [coolingElectricity] ((simulate agg ⟨x, w, p⟩).map Prod.snd) ((simulate agg ⟨takeCoolingSystem x y, w, p⟩).map Prod.snd) := by
  have hw : window (takeCoolingSystem x y).pop = window x.pop := rfl
  have hp : pushOne (takeCoolingSystem x y).bldg = pushOne x.bldg := rfl
  have hc : initConsts (takeCoolingSystem x y) = initConsts x := rfl
  refine hourly_frame [coolingElectricity] x (takeCoolingSystem x y) hw hp hc (fun _ _ _ _ _ _ _ => ⟨rfl, rfl, rfl⟩) ?_ w p agg
  intro c r win h d w st H C k hk
  exact hour_frame _ _ _ _ _ _ _ k hk (fun _ => rfl) (fun h => absurd (by decide) h) (fun _ => rfl) (fun _ => rfl) (fun _ => rfl) (fun _ => rfl) (fun _ => rfl) (fun _ => rfl) (fun _ => rfl) rfl

/-- **C56** (hourly model) The loss factors of the distribution change nothing but the energy for heating and cooling. -/
theorem C56_hourly_distribution (x y : Sim α) (w : Weather α) (p : Pushed α) (agg : Bool) :
    SameExcept [heatingElectricity, coolingElectricity, heatingGas] ((simulate agg ⟨x, w, p⟩).map Prod.snd) ((simulate agg ⟨takeDistribution x y, w, p⟩).map Prod.snd) := by
  have hw : window (takeDistribution x y).pop = window x.pop := rfl
  have hp : pushOne (takeDistribution x y).bldg = pushOne x.bldg := rfl
  have hc : initConsts (takeDistribution x y) = initConsts x := rfl
  refine hourly_frame [heatingElectricity, coolingElectricity, heatingGas] x (takeDistribution x y) hw hp hc (fun _ _ _ _ _ _ _ => ⟨rfl, rfl, rfl⟩) ?_ w p agg
  intro c r win h d w st H C k hk
  exact hour_frame _ _ _ _ _ _ _ k hk (fun h => absurd (by decide) h) (fun h => absurd (by decide) h) (fun h => absurd (by decide) h) (fun _ => rfl) (fun _ => rfl) (fun _ => rfl) (fun _ => rfl) (fun _ => rfl) (fun _ => rfl) rfl

/-- **C56** (hourly model) The power of the fans and the temperature of the air they supply change nothing but the energy of the fans. -/
theorem C56_hourly_fans (x y : Sim α) (w : Weather α) (p : Pushed α) (agg : Bool) :
    SameExcept [Spec.fans] ((simulate agg ⟨x, w, p⟩).map Prod.snd) ((simulate agg ⟨takeFans x y, w, p⟩).map Prod.snd) := by
  have hw : window (takeFans x y).pop = window x.pop := rfl
  have hp : pushOne (takeFans x y).bldg = pushOne x.bldg := rfl
  have hc : initConsts (takeFans x y) = initConsts x := rfl
  refine hourly_frame [Spec.fans] x (takeFans x y) hw hp hc (fun _ _ _ _ _ _ _ => ⟨rfl, rfl, rfl⟩) ?_ w p agg
  intro c r win h d w st H C k hk
  exact hour_frame _ _ _ _ _ _ _ k hk (fun _ => rfl) (fun _ => rfl) (fun _ => rfl) (fun _ => rfl) (fun _ => rfl) (fun h => absurd (by decide) h) (fun _ => rfl) (fun _ => rfl) (fun _ => rfl) rfl

/-- **C56** (hourly model) Power and control of the pumps change nothing but the energy of the pumps. -/
theorem C56_hourly_pumps (x y : Sim α) (w : Weather α) (p : Pushed α) (agg : Bool) :
    SameExcept [Spec.pumps] ((simulate agg ⟨x, w, p⟩).map Prod.snd) ((simulate agg ⟨takePumps x y, w, p⟩).map Prod.snd) := by
  have hw : window (takePumps x y).pop = window x.pop := rfl
  have hp : pushOne (takePumps x y).bldg = pushOne x.bldg := rfl
  have hc : initConsts (takePumps x y) = initConsts x := rfl
  refine hourly_frame [Spec.pumps] x (takePumps x y) hw hp hc (fun _ _ _ _ _ _ _ => ⟨rfl, rfl, rfl⟩) ?_ w p agg
  intro c r win h d w st H C k hk
  exact hour_frame _ _ _ _ _ _ _ k hk (fun _ => rfl) (fun _ => rfl) (fun _ => rfl) (fun _ => rfl) (fun _ => rfl) (fun _ => rfl) (fun h => absurd (by decide) h) (fun _ => rfl) (fun _ => rfl) rfl

/-- **C56** (hourly model) People, gas appliances, energy management, infiltration rate, hot water, district networks, the monthly weather and the other
parameters of the monthly model have no effect on the hourly results. -/
theorem C56_hourly_monthlyOnly (x y : Sim α) (w : Weather α) (p : Pushed α) (agg : Bool) :
    SameExcept [] ((simulate agg ⟨x, w, p⟩).map Prod.snd) ((simulate agg ⟨takeMonthlyOnly x y, w, p⟩).map Prod.snd) := by
  have hw : window (takeMonthlyOnly x y).pop = window x.pop := rfl
  have hp : pushOne (takeMonthlyOnly x y).bldg = pushOne x.bldg := rfl
  have hc : initConsts (takeMonthlyOnly x y) = initConsts x := rfl
  refine hourly_frame [] x (takeMonthlyOnly x y) hw hp hc (fun _ _ _ _ _ _ _ => ⟨rfl, rfl, rfl⟩) ?_ w p agg
  intro c r win h d w st H C k hk
  exact hour_frame _ _ _ _ _ _ _ k hk (fun _ => rfl) (fun _ => rfl) (fun _ => rfl) (fun _ => rfl) (fun _ => rfl) (fun _ => rfl) (fun _ => rfl) (fun _ => rfl) (fun _ => rfl) rfl

/-- the vectors for daylight depend on the windows, their shading and the floor only -/
theorem pushAll_light (x y : Sim α) (p : Pushed α) :
    (pushAll (takeClimate x y).bldg p).naturalLightRatio = (pushAll x.bldg p).naturalLightRatio ∧
    (pushAll (takeClimate x y).bldg p).naturalLightShadeRatioReduction = (pushAll x.bldg p).naturalLightShadeRatioReduction := by
  unfold pushAll
  have key : ∀ (l : List (Fin 9)) (q q' : Pushed α), q'.nlaWMovableShading = q.nlaWMovableShading →
      q'.naturalLightRatio = q.naturalLightRatio → q'.naturalLightShadeRatioReduction = q.naturalLightShadeRatioReduction →
      (l.foldl (pushOne (takeClimate x y).bldg) q').naturalLightRatio = (l.foldl (pushOne x.bldg) q).naturalLightRatio ∧
      (l.foldl (pushOne (takeClimate x y).bldg) q').naturalLightShadeRatioReduction =
        (l.foldl (pushOne x.bldg) q).naturalLightShadeRatioReduction := by
    intro l
    induction l with
    | nil => intro q q' _ h2 h3; exact ⟨h2, h3⟩
    | cons i l ih =>
      intro q q' h1 h2 h3
      have e1 : (facade (takeClimate x y).bldg i).nlams = (facade x.bldg i).nlams := rfl
      have e2 : (facade (takeClimate x y).bldg i).nla = (facade x.bldg i).nla := rfl
      have e3 : (takeClimate x y).bldg.floorArea = x.bldg.floorArea := rfl
      rw [List.foldl_cons, List.foldl_cons]
      refine ih _ _ ?_ ?_ ?_
      · simp only [pushOne, e1, e3, h1]
      · simp only [pushOne, e2, e3, h2]
      · simp only [pushOne, e1, e2, e3, h1, h2, h3]
  exact key _ p p rfl rfl rfl

/-- **C56** (hourly model) Set-points, ventilation, the opaque parts, the thermal properties and the transmittance of the windows change
nothing but the energy for heating, cooling, fans and pumps. -/
theorem C56_hourly_climate (x y : Sim α) (w : Weather α) (p : Pushed α) (agg : Bool) :
    SameExcept [heatingElectricity, coolingElectricity, heatingGas, Spec.fans, Spec.pumps]
      ((simulate agg ⟨x, w, p⟩).map Prod.snd) ((simulate agg ⟨takeClimate x y, w, p⟩).map Prod.snd) := by
  have hw : window (takeClimate x y).pop = window x.pop := rfl
  refine hourly_results _ agg x (takeClimate x y) w p hw ?_
  intro win
  obtain ⟨p1, p2⟩ := pushAll_light x y p
  have r1 : (pushAll (takeClimate x y).bldg p).ratios.naturalLightRatio = (pushAll x.bldg p).ratios.naturalLightRatio := by
    funext i; simp only [Pushed.ratios, p1]
  have r2 : (pushAll (takeClimate x y).bldg p).ratios.naturalLightShadeRatioReduction
      = (pushAll x.bldg p).ratios.naturalLightShadeRatioReduction := by
    funext i; simp only [Pushed.ratios, p2]
  revert r1 r2
  generalize (pushAll (takeClimate x y).bldg p).ratios = r'
  generalize (pushAll x.bldg p).ratios = r
  intro r1 r2
  have hl : ∀ sol, electricForTotalLightArea (takeClimate x y).bldg (initConsts (takeClimate x y)) r' sol
      = electricForTotalLightArea x.bldg (initConsts x) r sol := by
    intro sol
    unfold electricForTotalLightArea
    rw [r1, r2]
    rfl
  unfold rawResults
  rw [List.ofFn_eq_map, List.ofFn_eq_map]
  generalize List.finRange 8760 = L
  generalize yearDistribution x _ = e
  have key : ∀ (L : List (Fin 8760)) (st st' : ThermalState α) (e e' : α × α) (k : Fin 13),
      k ∉ [heatingElectricity, coolingElectricity, heatingGas, Spec.fans, Spec.pumps] →
      (runHours x (initConsts x) r (L.map (hourInput x win w)) st).map (fun z => hourEndUses x e z k) =
        (runHours (takeClimate x y) (initConsts (takeClimate x y)) r' (L.map (hourInput (takeClimate x y) win w)) st').map
          (fun z => hourEndUses (takeClimate x y) e' z k) := by
    intro L
    induction L with
    | nil => intros; rfl
    | cons i L ih =>
      intro st st' e e' k hk
      simp only [List.map_cons, hourInput, runHours]
      refine congrArg₂ List.cons ?_ (ih _ _ _ _ _ hk)
      refine hour_frame _ _ _ _ _ _ _ k hk (fun h => absurd (by decide) h) (fun h => absurd (by decide) h)
        (fun h => absurd (by decide) h) (fun _ => ?_) (fun _ => rfl) (fun h => absurd (by decide) h)
        (fun h => absurd (by decide) h) (fun _ => rfl) (fun _ => rfl) rfl
      have e1 : (scheduleCell (takeClimate x y) win (Solar.sliceAt i).hour (Solar.sliceAt i).dayOfWeek).interiorLighting =
        (scheduleCell x win (Solar.sliceAt i).hour (Solar.sliceAt i).dayOfWeek).interiorLighting := rfl
      simp only [calculateHour, hl, e1]
  intro k hk
  simp only [endUses, List.map_map]
  exact key L _ _ _ _ k hk

/-- the small office has hourly results; with other people, gas appliances or hot water it has the same ones -/
example (y : Sim Dbl) (w : Weather Dbl) : ∃ r r', (simulate false ⟨smallOffice.map fin, w, .empty⟩).map Prod.snd = some r ∧
    (simulate false ⟨takeMonthlyOnly (smallOffice.map fin) y, w, .empty⟩).map Prod.snd = some r' ∧
    ∀ (i : Nat) (h : i < r.length) (h' : i < r'.length) k, r[i] k = r'[i] k := by
  obtain ⟨win, hw⟩ := window_ok (p := smallOffice.pop) (by norm_num [smallOffice]) (by norm_num [smallOffice])
    (by norm_num [smallOffice]) (by norm_num [smallOffice])
  have h := C56_hourly_monthlyOnly (smallOffice.map fin) y w .empty false
  have e := simulate_results false (⟨smallOffice.map fin, w, .empty⟩ : Model Dbl)
  have hw' : window (smallOffice.map fin).pop = some win := hw
  simp only [hw', Option.bind_some, cond_false] at e
  rw [e] at h ⊢
  generalize (simulate false ⟨takeMonthlyOnly (smallOffice.map fin) y, w, .empty⟩).map Prod.snd = o at h ⊢
  cases o with
  | none => exact h.elim
  | some r' => exact ⟨_, r', rfl, rfl, fun i hi hi' k => h.2 i hi hi' k (by simp)⟩

end hourly

/-- the statements hold for every arithmetic, for the machine's floating point numbers for instance -/
example (x y : Sim Float) : SameExcept [hotWaterElectricity, hotWaterGas] (Monthly.simulate x) (Monthly.simulate (takeHotWater x y)) :=
  C56_hotWater x y

example (x y : Sim Float) (w : Epw.Weather Float) (p : Hourly.Pushed Float) (agg : Bool) :
    SameExcept [Spec.pumps] ((Hourly.simulate agg ⟨x, w, p⟩).map Prod.snd) ((Hourly.simulate agg ⟨takePumps x y, w, p⟩).map Prod.snd) :=
  C56_hourly_pumps x y w p agg

end ISO.Props
