import Verif.Spec.EffectsInside
import Verif.Props.Effects

/-! # C56: what the lights and the appliances inside can touch -/

namespace ISO.Props
open ISO ISO.Spec ISO.Dbl CNum

set_option linter.unusedSectionVars false

section monthly
open Monthly
variable {α : Type} [CNum α] [OfInt α]

section columns
variable (x : Sim α) (f : Figures α) (m : Fin 12)
private theorem inside2 : monthEndUses x f m 2 = vdiv (f.v_Q_illum_tot m) x.bldg.floorArea := rfl
private theorem inside3 : monthEndUses x f m 3 = vdiv (f.v_Q_illum_ext_tot m) x.bldg.floorArea := rfl
private theorem inside6 : monthEndUses x f m 6 = plugLoad x.building.electricApplianceHeatGainOccupied x.building.electricApplianceHeatGainUnoccupied f.frac_hrs_wk_day m := rfl
private theorem inside7 : monthEndUses x f m 7 = 0.0 := rfl
private theorem inside8 : monthEndUses x f m 8 = vdiv (f.v_Q_dhw_elec m) x.bldg.floorArea := rfl
private theorem inside11 : monthEndUses x f m 11 = plugLoad x.building.gasApplianceHeatGainOccupied x.building.gasApplianceHeatGainUnoccupied f.frac_hrs_wk_day m := rfl
private theorem inside12 : monthEndUses x f m 12 = vdiv (f.v_Q_dhw_gas m) x.bldg.floorArea := rfl
end columns

/-- the end uses of a month that do not depend on the demand for heat and cold -/
theorem inside_frame (uses : List (Fin 13)) (x x' : Sim α) (f f' : Figures α) (m : Fin 12) (k : Fin 13) (hk : k ∉ uses)
    (hall : ∀ j : Fin 13, j ∈ [heatingElectricity, coolingElectricity, Spec.fans, Spec.pumps, heatingGas, coolingGas] → j ∈ uses)
    (ho : f'.frac_hrs_wk_day = f.frac_hrs_wk_day)
    (h2 : 2 ∉ uses → f'.v_Q_illum_tot m = f.v_Q_illum_tot m)
    (h3 : 3 ∉ uses → f'.v_Q_illum_ext_tot m = f.v_Q_illum_ext_tot m)
    (hA : x'.bldg.floorArea = x.bldg.floorArea) (h8 : f'.v_Q_dhw_elec = f.v_Q_dhw_elec) (h12 : f'.v_Q_dhw_gas = f.v_Q_dhw_gas)
    (h6 : 6 ∉ uses → x'.building.electricApplianceHeatGainOccupied = x.building.electricApplianceHeatGainOccupied ∧
      x'.building.electricApplianceHeatGainUnoccupied = x.building.electricApplianceHeatGainUnoccupied)
    (h11 : 11 ∉ uses → x'.building.gasApplianceHeatGainOccupied = x.building.gasApplianceHeatGainOccupied ∧
      x'.building.gasApplianceHeatGainUnoccupied = x.building.gasApplianceHeatGainUnoccupied) :
    monthEndUses x f m k = monthEndUses x' f' m k := by
  match k, hk with
  | 0, hk => exact absurd (hall 0 (by decide)) hk
  | 1, hk => exact absurd (hall 1 (by decide)) hk
  | 2, hk => rw [inside2, inside2, h2 hk, hA]
  | 3, hk => rw [inside3, inside3, h3 hk, hA]
  | 4, hk => exact absurd (hall 4 (by decide)) hk
  | 5, hk => exact absurd (hall 5 (by decide)) hk
  | 6, hk => rw [inside6, inside6, ho, (h6 hk).1, (h6 hk).2]
  | 7, _ => rw [inside7, inside7]
  | 8, _ => rw [inside8, inside8, h8, hA]
  | 9, hk => exact absurd (hall 9 (by decide)) hk
  | 10, hk => exact absurd (hall 10 (by decide)) hk
  | 11, hk => rw [inside11, inside11, ho, (h11 hk).1, (h11 hk).2]
  | 12, _ => rw [inside12, inside12, h12, hA]

/-- **C56** The lights inside change nothing but their own energy and that for heating, cooling, fans and pumps. -/
theorem C56_interiorLights (x y : Sim α) :
    SameExcept [interiorLights, heatingElectricity, coolingElectricity, Spec.fans, Spec.pumps, heatingGas, coolingGas]
      (Monthly.simulate x) (Monthly.simulate (takeInteriorLights x y)) := by
  refine monthly_frame _ _ _ rfl rfl rfl ?_
  intro b a a' T m k _ _ hk
  have hd : heatedWater (takeInteriorLights x y) = heatedWater x := rfl
  have h0 : ∀ v, (lightingEnergyUse (takeInteriorLights x y) v).v_Q_illum_ext_tot = (lightingEnergyUse x v).v_Q_illum_ext_tot := fun _ => rfl
  have e3 : (figures (takeInteriorLights x y) (stagesWith (takeInteriorLights x y) b a' T)).v_Q_illum_ext_tot = (figures x (stagesWith x b a T)).v_Q_illum_ext_tot :=
    h0 b.v_hrs_sun_down_mo
  have e8 : (figures (takeInteriorLights x y) (stagesWith (takeInteriorLights x y) b a' T)).v_Q_dhw_elec = (figures x (stagesWith x b a T)).v_Q_dhw_elec :=
    congrArg Prod.fst hd
  have e12 : (figures (takeInteriorLights x y) (stagesWith (takeInteriorLights x y) b a' T)).v_Q_dhw_gas = (figures x (stagesWith x b a T)).v_Q_dhw_gas :=
    congrArg Prod.snd hd
  have eo : (figures (takeInteriorLights x y) (stagesWith (takeInteriorLights x y) b a' T)).frac_hrs_wk_day = (figures x (stagesWith x b a T)).frac_hrs_wk_day := rfl
  revert e3 e8 e12 eo
  generalize figures (takeInteriorLights x y) (stagesWith (takeInteriorLights x y) b a' T) = f'
  generalize figures x (stagesWith x b a T) = f
  intro e3 e8 e12 eo
  exact inside_frame _ _ _ _ _ m k hk (by decide) eo (fun h => absurd (by decide) h) (fun _ => congrFun e3 m) rfl e8 e12
    (fun _ => ⟨rfl, rfl⟩) (fun _ => ⟨rfl, rfl⟩)

/-- **C56** The electric appliances change nothing but their own energy and that for heating, cooling, fans and pumps. -/
theorem C56_electricAppliances (x y : Sim α) :
    SameExcept [equipment, heatingElectricity, coolingElectricity, Spec.fans, Spec.pumps, heatingGas, coolingGas]
      (Monthly.simulate x) (Monthly.simulate (takeElectricAppliances x y)) := by
  refine monthly_frame _ _ _ rfl rfl rfl ?_
  intro b a a' T m k _ _ hk
  have hd : heatedWater (takeElectricAppliances x y) = heatedWater x := rfl
  have h0 : ∀ v, (lightingEnergyUse (takeElectricAppliances x y) v).v_Q_illum_ext_tot = (lightingEnergyUse x v).v_Q_illum_ext_tot := fun _ => rfl
  have h1 : ∀ v, (lightingEnergyUse (takeElectricAppliances x y) v).v_Q_illum_tot = (lightingEnergyUse x v).v_Q_illum_tot := fun _ => rfl
  have e3 : (figures (takeElectricAppliances x y) (stagesWith (takeElectricAppliances x y) b a' T)).v_Q_illum_ext_tot = (figures x (stagesWith x b a T)).v_Q_illum_ext_tot :=
    h0 b.v_hrs_sun_down_mo
  have e8 : (figures (takeElectricAppliances x y) (stagesWith (takeElectricAppliances x y) b a' T)).v_Q_dhw_elec = (figures x (stagesWith x b a T)).v_Q_dhw_elec :=
    congrArg Prod.fst hd
  have e12 : (figures (takeElectricAppliances x y) (stagesWith (takeElectricAppliances x y) b a' T)).v_Q_dhw_gas = (figures x (stagesWith x b a T)).v_Q_dhw_gas :=
    congrArg Prod.snd hd
  have eo : (figures (takeElectricAppliances x y) (stagesWith (takeElectricAppliances x y) b a' T)).frac_hrs_wk_day = (figures x (stagesWith x b a T)).frac_hrs_wk_day := rfl
  have e2 : (figures (takeElectricAppliances x y) (stagesWith (takeElectricAppliances x y) b a' T)).v_Q_illum_tot = (figures x (stagesWith x b a T)).v_Q_illum_tot :=
    h1 b.v_hrs_sun_down_mo
  revert e3 e8 e12 eo e2
  generalize figures (takeElectricAppliances x y) (stagesWith (takeElectricAppliances x y) b a' T) = f'
  generalize figures x (stagesWith x b a T) = f
  intro e3 e8 e12 eo e2
  exact inside_frame _ _ _ _ _ m k hk (by decide) eo (fun _ => congrFun e2 m) (fun _ => congrFun e3 m) rfl e8 e12
    (fun h => absurd (by decide) h) (fun _ => ⟨rfl, rfl⟩)

/-- **C56** The gas appliances change nothing but their own energy and that for heating, cooling, fans and pumps. -/
theorem C56_gasAppliances (x y : Sim α) :
    SameExcept [gasEquipment, heatingElectricity, coolingElectricity, Spec.fans, Spec.pumps, heatingGas, coolingGas]
      (Monthly.simulate x) (Monthly.simulate (takeGasAppliances x y)) := by
  refine monthly_frame _ _ _ rfl rfl rfl ?_
  intro b a a' T m k _ _ hk
  have hd : heatedWater (takeGasAppliances x y) = heatedWater x := rfl
  have h0 : ∀ v, (lightingEnergyUse (takeGasAppliances x y) v).v_Q_illum_ext_tot = (lightingEnergyUse x v).v_Q_illum_ext_tot := fun _ => rfl
  have h1 : ∀ v, (lightingEnergyUse (takeGasAppliances x y) v).v_Q_illum_tot = (lightingEnergyUse x v).v_Q_illum_tot := fun _ => rfl
  have e3 : (figures (takeGasAppliances x y) (stagesWith (takeGasAppliances x y) b a' T)).v_Q_illum_ext_tot = (figures x (stagesWith x b a T)).v_Q_illum_ext_tot :=
    h0 b.v_hrs_sun_down_mo
  have e8 : (figures (takeGasAppliances x y) (stagesWith (takeGasAppliances x y) b a' T)).v_Q_dhw_elec = (figures x (stagesWith x b a T)).v_Q_dhw_elec :=
    congrArg Prod.fst hd
  have e12 : (figures (takeGasAppliances x y) (stagesWith (takeGasAppliances x y) b a' T)).v_Q_dhw_gas = (figures x (stagesWith x b a T)).v_Q_dhw_gas :=
    congrArg Prod.snd hd
  have eo : (figures (takeGasAppliances x y) (stagesWith (takeGasAppliances x y) b a' T)).frac_hrs_wk_day = (figures x (stagesWith x b a T)).frac_hrs_wk_day := rfl
  have e2 : (figures (takeGasAppliances x y) (stagesWith (takeGasAppliances x y) b a' T)).v_Q_illum_tot = (figures x (stagesWith x b a T)).v_Q_illum_tot :=
    h1 b.v_hrs_sun_down_mo
  revert e3 e8 e12 eo e2
  generalize figures (takeGasAppliances x y) (stagesWith (takeGasAppliances x y) b a' T) = f'
  generalize figures x (stagesWith x b a T) = f
  intro e3 e8 e12 eo e2
  exact inside_frame _ _ _ _ _ m k hk (by decide) eo (fun _ => congrFun e2 m) (fun _ => congrFun e3 m) rfl e8 e12
    (fun _ => ⟨rfl, rfl⟩) (fun h => absurd (by decide) h)

/-- the end uses of a month that depend neither on the demand for heat and cold nor on the floor area nor on the hours of occupancy, unless listed -/
theorem free_frame (uses : List (Fin 13)) (x x' : Sim α) (f f' : Figures α) (m : Fin 12) (k : Fin 13) (hk : k ∉ uses)
    (hall : ∀ j : Fin 13, j ∈ [heatingElectricity, coolingElectricity, Spec.fans, Spec.pumps, heatingGas, coolingGas] → j ∈ uses)
    (ho : 6 ∉ uses ∨ 11 ∉ uses → f'.frac_hrs_wk_day = f.frac_hrs_wk_day)
    (h2 : 2 ∉ uses → f'.v_Q_illum_tot m = f.v_Q_illum_tot m)
    (h3 : 3 ∉ uses → f'.v_Q_illum_ext_tot m = f.v_Q_illum_ext_tot m)
    (hA : 2 ∉ uses ∨ 3 ∉ uses ∨ 8 ∉ uses ∨ 12 ∉ uses → x'.bldg.floorArea = x.bldg.floorArea)
    (h8 : 8 ∉ uses → f'.v_Q_dhw_elec = f.v_Q_dhw_elec) (h12 : 12 ∉ uses → f'.v_Q_dhw_gas = f.v_Q_dhw_gas)
    (hb : x'.building.electricApplianceHeatGainOccupied = x.building.electricApplianceHeatGainOccupied ∧
      x'.building.electricApplianceHeatGainUnoccupied = x.building.electricApplianceHeatGainUnoccupied ∧
      x'.building.gasApplianceHeatGainOccupied = x.building.gasApplianceHeatGainOccupied ∧
      x'.building.gasApplianceHeatGainUnoccupied = x.building.gasApplianceHeatGainUnoccupied) :
    monthEndUses x f m k = monthEndUses x' f' m k := by
  match k, hk with
  | 0, hk => exact absurd (hall 0 (by decide)) hk
  | 1, hk => exact absurd (hall 1 (by decide)) hk
  | 2, hk => rw [inside2, inside2, h2 hk, hA (.inl hk)]
  | 3, hk => rw [inside3, inside3, h3 hk, hA (.inr (.inl hk))]
  | 4, hk => exact absurd (hall 4 (by decide)) hk
  | 5, hk => exact absurd (hall 5 (by decide)) hk
  | 6, hk => rw [inside6, inside6, ho (.inl hk), hb.1, hb.2.1]
  | 7, _ => rw [inside7, inside7]
  | 8, hk => rw [inside8, inside8, h8 hk, hA (.inr (.inr (.inl hk)))]
  | 9, hk => exact absurd (hall 9 (by decide)) hk
  | 10, hk => exact absurd (hall 10 (by decide)) hk
  | 11, hk => rw [inside11, inside11, ho (.inr hk), hb.2.2.1, hb.2.2.2]
  | 12, hk => rw [inside12, inside12, h12 hk, hA (.inr (.inr (.inr hk)))]

/-- two monthly simulations that both give results, or both do not -/
theorem monthly_free (uses : List (Fin 13)) (x x' : Sim α) (hs : (Monthly.simulate x').isSome = (Monthly.simulate x).isSome)
    (hw : x'.weather = x.weather)
    (h : ∀ b b' a a' T T' m k, b'.v_hrs_sun_down_mo = b.v_hrs_sun_down_mo → k ∉ uses →
      monthEndUses x (figures x (stagesWith x b a T)) m k = monthEndUses x' (figures x' (stagesWith x' b' a' T')) m k) :
    SameExcept uses (Monthly.simulate x) (Monthly.simulate x') := by
  revert hs
  unfold Monthly.simulate stages
  have sun : ∀ w o o' (b b' : Breakdown α), solarRadiationBreakdown w o = some b → solarRadiationBreakdown w o' = some b' →
      b'.v_hrs_sun_down_mo = b.v_hrs_sun_down_mo := by
    intro w o o' b b' hb hb'
    unfold solarRadiationBreakdown at hb hb'
    cases e : allMonths fun m => hoursSunDown (w.mhEgh m) m with
    | none => rw [e] at hb; cases hb
    | some v =>
      rw [e] at hb hb'
      injection hb with hb
      injection hb' with hb'
      subst hb hb'
      rfl
  have sun := sun x.weather (scheduleAndOccupancy x.pop) (scheduleAndOccupancy x'.pop)
  rw [hw]
  revert sun
  cases solarRadiationBreakdown x.weather (scheduleAndOccupancy x.pop) <;>
    cases solarRadiationBreakdown x.weather (scheduleAndOccupancy x'.pop) <;>
    cases windowSolarGain x.bldg <;> cases windowSolarGain x'.bldg <;>
    cases managementShift x.building.buildingEnergyManagement <;> cases managementShift x'.building.buildingEnergyManagement <;>
    intro sun hs <;> first | trivial | cases hs | skip
  refine ⟨by simp [outputGeneration], ?_⟩
  intro i hi hi' k hk
  have e : ∀ (z : Sim α) (f : Figures α) (h : i < (outputGeneration z f).length),
      (outputGeneration z f)[i]'h = monthEndUses z f ((List.finRange 12)[i]'(by simpa [outputGeneration] using h)) := by
    intro z f h
    simp [outputGeneration]
  exact ((congrFun (e _ _ hi) k).trans (h _ _ _ _ _ _ _ k (sun _ _ rfl rfl) hk)).trans (congrFun (e _ _ hi') k).symm

/-- three steps that may fail, one after the other -/
theorem three_steps {β γ δ ε ζ : Type} (b : Option β) (a : Option γ) (t : Option δ) (f : β → γ → δ → ε) (g : ε → ζ) :
    (do let s ← (do let b ← b; let a ← a; let t ← t; return f b a t); return g s : Option ζ).isSome = (b.isSome && a.isSome && t.isSome) := by
  cases b <;> cases a <;> cases t <;> rfl

/-- there are results when the three look-ups succeed -/
theorem monthly_looked_up (z : Sim α) : (Monthly.simulate z).isSome = ((solarRadiationBreakdown z.weather (scheduleAndOccupancy z.pop)).isSome &&
    (windowSolarGain z.bldg).isSome && (managementShift z.building.buildingEnergyManagement).isSome) :=
  three_steps _ _ _ (stagesWith z) fun s => outputGeneration z (figures z s)

/-- whether there are results depends on the global radiation, the shading devices and the energy management -/
theorem monthly_isSome {x x' : Sim α} (hw : x'.weather = x.weather) (hd : x'.bldg.windowShadingDevice = x.bldg.windowShadingDevice)
    (hm : (managementShift x'.building.buildingEnergyManagement).isSome = (managementShift x.building.buildingEnergyManagement).isSome) :
    (Monthly.simulate x').isSome = (Monthly.simulate x).isSome := by
  have h1 : (solarRadiationBreakdown x'.weather (scheduleAndOccupancy x'.pop)).isSome = (solarRadiationBreakdown x.weather (scheduleAndOccupancy x.pop)).isSome := by
    unfold solarRadiationBreakdown
    rw [hw]
    generalize (allMonths fun m => hoursSunDown (x.weather.mhEgh m) m) = r
    cases r <;> rfl
  have h2 : (windowSolarGain x'.bldg).isSome = (windowSolarGain x.bldg).isSome := by
    unfold windowSolarGain
    rw [hd]
    generalize (allFacades fun i => shadingFactor (x.bldg.windowShadingDevice i)) = r
    cases r <;> rfl
  rw [monthly_looked_up, monthly_looked_up, h1, h2, hm]

/-- other shading devices of known kinds leave results -/
theorem monthly_other_shades (x y : Sim α) (hd : ∀ i, (shadingFactor (y.bldg.windowShadingDevice i)).isSome) (h : (Monthly.simulate x).isSome) :
    (Monthly.simulate (takeShades x y)).isSome := by
  rw [monthly_looked_up, Bool.and_eq_true, Bool.and_eq_true] at h ⊢
  refine ⟨⟨h.1.1, ?_⟩, h.2⟩
  show (windowSolarGain (takeShades x y).bldg).isSome = true
  unfold windowSolarGain allFacades
  rw [dif_pos (show ∀ i, (shadingFactor ((takeShades x y).bldg.windowShadingDevice i)).isSome from hd)]
  rfl

/-- **C56** The days and hours of occupancy change neither the lights outside nor the hot water. -/
theorem C56_occupancy (x y : Sim α) :
    SameExcept [interiorLights, equipment, gasEquipment, heatingElectricity, coolingElectricity, Spec.fans, Spec.pumps, heatingGas, coolingGas]
      (Monthly.simulate x) (Monthly.simulate (takeOccupancy x y)) := by
  refine monthly_free _ _ _ (monthly_isSome rfl rfl rfl) rfl ?_
  intro b b' a a' T T' m k hb hk
  have hd : heatedWater (takeOccupancy x y) = heatedWater x := rfl
  have h0 : ∀ v, (lightingEnergyUse (takeOccupancy x y) v).v_Q_illum_ext_tot = (lightingEnergyUse x v).v_Q_illum_ext_tot := fun _ => rfl
  have e3 : (figures (takeOccupancy x y) (stagesWith (takeOccupancy x y) b' a' T')).v_Q_illum_ext_tot = (figures x (stagesWith x b a T)).v_Q_illum_ext_tot := by
    show (lightingEnergyUse (takeOccupancy x y) b'.v_hrs_sun_down_mo).v_Q_illum_ext_tot = (lightingEnergyUse x b.v_hrs_sun_down_mo).v_Q_illum_ext_tot
    rw [h0, hb]
  have e8 : (figures (takeOccupancy x y) (stagesWith (takeOccupancy x y) b' a' T')).v_Q_dhw_elec = (figures x (stagesWith x b a T)).v_Q_dhw_elec :=
    congrArg Prod.fst hd
  have e12 : (figures (takeOccupancy x y) (stagesWith (takeOccupancy x y) b' a' T')).v_Q_dhw_gas = (figures x (stagesWith x b a T)).v_Q_dhw_gas :=
    congrArg Prod.snd hd
  revert e3 e8 e12
  generalize figures (takeOccupancy x y) (stagesWith (takeOccupancy x y) b' a' T') = f'
  generalize figures x (stagesWith x b a T) = f
  intro e3 e8 e12
  exact free_frame _ _ _ _ _ m k hk (by decide) (fun h => absurd h (by decide)) (fun h => absurd (by decide) h) (fun _ => congrFun e3 m)
    (fun _ => rfl) (fun _ => e8) (fun _ => e12) ⟨rfl, rfl, rfl, rfl⟩

/-- **C56** The floor area changes none of the appliances, which are given per square metre. -/
theorem C56_floor (x y : Sim α) :
    SameExcept [heatingElectricity, coolingElectricity, interiorLights, exteriorLights, Spec.fans, Spec.pumps, hotWaterElectricity, heatingGas,
      coolingGas, hotWaterGas] (Monthly.simulate x) (Monthly.simulate (takeFloor x y)) := by
  refine monthly_free _ _ _ (monthly_isSome rfl rfl rfl) rfl ?_
  intro b b' a a' T T' m k hb hk
  have eo : (figures (takeFloor x y) (stagesWith (takeFloor x y) b' a' T')).frac_hrs_wk_day = (figures x (stagesWith x b a T)).frac_hrs_wk_day := rfl
  revert eo
  generalize figures (takeFloor x y) (stagesWith (takeFloor x y) b' a' T') = f'
  generalize figures x (stagesWith x b a T) = f
  intro eo
  exact free_frame _ _ _ _ _ m k hk (by decide) (fun _ => eo) (fun h => absurd (by decide) h) (fun h => absurd (by decide) h)
    (fun h => absurd h (by decide)) (fun h => absurd (by decide) h) (fun h => absurd (by decide) h) ⟨rfl, rfl, rfl, rfl⟩

/-- **C56** The kind of energy management changes nothing but the energy for heating, cooling, fans and pumps, as long as it is one of the known kinds. -/
theorem C56_management (x y : Sim α) (hs : (Monthly.simulate (takeManagement x y)).isSome = (Monthly.simulate x).isSome) :
    SameExcept [heatingElectricity, coolingElectricity, Spec.fans, Spec.pumps, heatingGas, coolingGas]
      (Monthly.simulate x) (Monthly.simulate (takeManagement x y)) := by
  refine monthly_free _ _ _ hs rfl ?_
  intro b b' a a' T T' m k hb hk
  have hd : heatedWater (takeManagement x y) = heatedWater x := rfl
  have h0 : ∀ v, lightingEnergyUse (takeManagement x y) v = lightingEnergyUse x v := fun _ => rfl
  have el : lightingEnergyUse (takeManagement x y) b'.v_hrs_sun_down_mo = lightingEnergyUse x b.v_hrs_sun_down_mo := by rw [h0, hb]
  have e2 : (figures (takeManagement x y) (stagesWith (takeManagement x y) b' a' T')).v_Q_illum_tot = (figures x (stagesWith x b a T)).v_Q_illum_tot :=
    congrArg LightingUse.v_Q_illum_tot el
  have e3 : (figures (takeManagement x y) (stagesWith (takeManagement x y) b' a' T')).v_Q_illum_ext_tot = (figures x (stagesWith x b a T)).v_Q_illum_ext_tot :=
    congrArg LightingUse.v_Q_illum_ext_tot el
  have e8 : (figures (takeManagement x y) (stagesWith (takeManagement x y) b' a' T')).v_Q_dhw_elec = (figures x (stagesWith x b a T)).v_Q_dhw_elec :=
    congrArg Prod.fst hd
  have e12 : (figures (takeManagement x y) (stagesWith (takeManagement x y) b' a' T')).v_Q_dhw_gas = (figures x (stagesWith x b a T)).v_Q_dhw_gas :=
    congrArg Prod.snd hd
  have eo : (figures (takeManagement x y) (stagesWith (takeManagement x y) b' a' T')).frac_hrs_wk_day = (figures x (stagesWith x b a T)).frac_hrs_wk_day := rfl
  revert e2 e3 e8 e12 eo
  generalize figures (takeManagement x y) (stagesWith (takeManagement x y) b' a' T') = f'
  generalize figures x (stagesWith x b a T) = f
  intro e2 e3 e8 e12 eo
  exact free_frame _ _ _ _ _ m k hk (by decide) (fun _ => eo) (fun _ => congrFun e2 m) (fun _ => congrFun e3 m)
    (fun _ => rfl) (fun _ => e8) (fun _ => e12) ⟨rfl, rfl, rfl, rfl⟩

/-- **C56** The shading devices change nothing but the energy for heating, cooling, fans and pumps, as long as they are of known kinds. -/
theorem C56_shades (x y : Sim α) (hs : (Monthly.simulate (takeShades x y)).isSome = (Monthly.simulate x).isSome) :
    SameExcept [heatingElectricity, coolingElectricity, Spec.fans, Spec.pumps, heatingGas, coolingGas]
      (Monthly.simulate x) (Monthly.simulate (takeShades x y)) := by
  refine monthly_free _ _ _ hs rfl ?_
  intro b b' a a' T T' m k hb hk
  have hd : heatedWater (takeShades x y) = heatedWater x := rfl
  have h0 : ∀ v, lightingEnergyUse (takeShades x y) v = lightingEnergyUse x v := fun _ => rfl
  have el : lightingEnergyUse (takeShades x y) b'.v_hrs_sun_down_mo = lightingEnergyUse x b.v_hrs_sun_down_mo := by rw [h0, hb]
  have e2 : (figures (takeShades x y) (stagesWith (takeShades x y) b' a' T')).v_Q_illum_tot = (figures x (stagesWith x b a T)).v_Q_illum_tot :=
    congrArg LightingUse.v_Q_illum_tot el
  have e3 : (figures (takeShades x y) (stagesWith (takeShades x y) b' a' T')).v_Q_illum_ext_tot = (figures x (stagesWith x b a T)).v_Q_illum_ext_tot :=
    congrArg LightingUse.v_Q_illum_ext_tot el
  have e8 : (figures (takeShades x y) (stagesWith (takeShades x y) b' a' T')).v_Q_dhw_elec = (figures x (stagesWith x b a T)).v_Q_dhw_elec :=
    congrArg Prod.fst hd
  have e12 : (figures (takeShades x y) (stagesWith (takeShades x y) b' a' T')).v_Q_dhw_gas = (figures x (stagesWith x b a T)).v_Q_dhw_gas :=
    congrArg Prod.snd hd
  have eo : (figures (takeShades x y) (stagesWith (takeShades x y) b' a' T')).frac_hrs_wk_day = (figures x (stagesWith x b a T)).frac_hrs_wk_day := rfl
  revert e2 e3 e8 e12 eo
  generalize figures (takeShades x y) (stagesWith (takeShades x y) b' a' T') = f'
  generalize figures x (stagesWith x b a T) = f
  intro e2 e3 e8 e12 eo
  exact free_frame _ _ _ _ _ m k hk (by decide) (fun _ => eo) (fun _ => congrFun e2 m) (fun _ => congrFun e3 m)
    (fun _ => rfl) (fun _ => e8) (fun _ => e12) ⟨rfl, rfl, rfl, rfl⟩

/-- a building with results: with other lights its hot water and its equipment are the same -/
example (y : Sim Dbl) : ∃ r r', Monthly.simulate (plainOffice.map fin) = some r ∧
    Monthly.simulate (takeInteriorLights (plainOffice.map fin) y) = some r' ∧
    ∀ (i : Nat) (h : i < r.length) (h' : i < r'.length), r[i] hotWaterGas = r'[i] hotWaterGas ∧ r[i] equipment = r'[i] equipment := by
  obtain ⟨s, hs⟩ := plain_stages
  have h := C56_interiorLights (plainOffice.map fin) y
  have e : Monthly.simulate (plainOffice.map fin) = some (outputGeneration (plainOffice.map fin) (figures (plainOffice.map fin) s)) := by
    unfold Monthly.simulate
    rw [hs]
    rfl
  rw [e] at h ⊢
  cases hr : Monthly.simulate (takeInteriorLights (plainOffice.map fin) y) with
  | none => rw [hr] at h; exact h.elim
  | some r' =>
    rw [hr] at h
    exact ⟨_, r', rfl, rfl, fun i hi hi' => ⟨h.2 i hi hi' _ (by decide), h.2 i hi hi' _ (by decide)⟩⟩

end monthly

section hourly
variable {α : Type} [CNum α] [OfInt α]
open Hourly Epw

/-- a change that may touch the demand for heat and cold: what is left are the end uses that an hour gives without it -/
theorem hourly_inside (uses : List (Fin 13)) (x x' : Sim α) (hw : window x'.pop = window x.pop) (hp : pushOne x'.bldg = pushOne x.bldg)
    (hu : ∀ r win h d w st st' e e' k, k ∉ uses →
      hourEndUses x e (calculateHour x (initConsts x) r (scheduleCell x win h d) w st).2 k =
        hourEndUses x' e' (calculateHour x' (initConsts x') r (scheduleCell x' win h d) w st').2 k)
    (w : Weather α) (p : Pushed α) (agg : Bool) :
    SameExcept uses ((simulate agg ⟨x, w, p⟩).map Prod.snd) ((simulate agg ⟨x', w, p⟩).map Prod.snd) := by
  refine hourly_results _ agg x x' w p hw ?_
  intro win
  have e : pushAll x'.bldg p = pushAll x.bldg p := by unfold pushAll; rw [hp]
  rw [e]
  generalize (pushAll x.bldg p).ratios = r
  unfold rawResults
  rw [List.ofFn_eq_map, List.ofFn_eq_map]
  generalize List.finRange 8760 = L
  have key : ∀ (L : List (Fin 8760)) (st st' : ThermalState α) (e e' : α × α) (k : Fin 13), k ∉ uses →
      (runHours x (initConsts x) r (L.map (hourInput x win w)) st).map (fun z => hourEndUses x e z k) =
        (runHours x' (initConsts x') r (L.map (hourInput x' win w)) st').map (fun z => hourEndUses x' e' z k) := by
    intro L
    induction L with
    | nil => intros; rfl
    | cons i L ih =>
      intro st st' e e' k hk
      simp only [List.map_cons, hourInput, runHours]
      exact congrArg₂ List.cons (hu _ _ _ _ _ _ _ _ _ _ hk) (ih _ _ _ _ _ hk)
  intro k hk
  simp only [endUses, List.map_map]
  exact key L _ _ _ _ k hk

/-- **C56** (hourly model) The lights inside change nothing but their own energy and that for heating, cooling, fans and pumps. -/
theorem C56_hourly_interiorLights (x y : Sim α) (w : Weather α) (p : Pushed α) (agg : Bool) :
    SameExcept [interiorLights, heatingElectricity, coolingElectricity, heatingGas, Spec.fans, Spec.pumps]
      ((simulate agg ⟨x, w, p⟩).map Prod.snd) ((simulate agg ⟨takeInteriorLights x y, w, p⟩).map Prod.snd) := by
  have hw : window (takeInteriorLights x y).pop = window x.pop := rfl
  have hp : pushOne (takeInteriorLights x y).bldg = pushOne x.bldg := rfl
  refine hourly_inside _ x (takeInteriorLights x y) hw hp ?_ w p agg
  intro r win h d w st st' e e' k hk
  exact hour_frame _ _ _ _ _ _ _ k hk (fun h => absurd (by decide) h) (fun h => absurd (by decide) h)
    (fun h => absurd (by decide) h) (fun h => absurd (by decide) h) (fun _ => rfl) (fun h => absurd (by decide) h)
    (fun h => absurd (by decide) h) (fun _ => rfl) (fun _ => rfl) rfl

/-- **C56** (hourly model) The electric appliances change nothing but their own energy and that for heating, cooling, fans and pumps. -/
theorem C56_hourly_electricAppliances (x y : Sim α) (w : Weather α) (p : Pushed α) (agg : Bool) :
    SameExcept [equipment, heatingElectricity, coolingElectricity, heatingGas, Spec.fans, Spec.pumps]
      ((simulate agg ⟨x, w, p⟩).map Prod.snd) ((simulate agg ⟨takeElectricAppliances x y, w, p⟩).map Prod.snd) := by
  have hw : window (takeElectricAppliances x y).pop = window x.pop := rfl
  have hp : pushOne (takeElectricAppliances x y).bldg = pushOne x.bldg := rfl
  refine hourly_inside _ x (takeElectricAppliances x y) hw hp ?_ w p agg
  intro r win h d w st st' e e' k hk
  exact hour_frame _ _ _ _ _ _ _ k hk (fun h => absurd (by decide) h) (fun h => absurd (by decide) h)
    (fun h => absurd (by decide) h) (fun _ => rfl) (fun _ => rfl) (fun h => absurd (by decide) h)
    (fun h => absurd (by decide) h) (fun h => absurd (by decide) h) (fun _ => rfl) rfl

/-- two hourly simulations that both give results, or both do not -/
theorem hourly_free (uses : List (Fin 13)) (x x' : Sim α) (agg : Bool) (w : Weather α) (p : Pushed α)
    (hs : (window x'.pop).isSome = (window x.pop).isSome)
    (hu : ∀ r r' win win' h d w st st' e e' k, k ∉ uses →
      hourEndUses x e (calculateHour x (initConsts x) r (scheduleCell x win h d) w st).2 k =
        hourEndUses x' e' (calculateHour x' (initConsts x') r' (scheduleCell x' win' h d) w st').2 k) :
    SameExcept uses ((simulate agg ⟨x, w, p⟩).map Prod.snd) ((simulate agg ⟨x', w, p⟩).map Prod.snd) := by
  rw [simulate_results, simulate_results]
  simp only
  cases hw : window x.pop with
  | none =>
    rw [hw] at hs
    cases hw' : window x'.pop with
    | none => trivial
    | some win' => rw [hw'] at hs; cases hs
  | some win =>
    rw [hw] at hs
    cases hw' : window x'.pop with
    | none => rw [hw'] at hs; cases hs
    | some win' =>
      have h : Agree uses (endUses x (rawResults x (pushAll x.bldg p).ratios win w)) (endUses x' (rawResults x' (pushAll x'.bldg p).ratios win' w)) := by
        generalize (pushAll x.bldg p).ratios = r
        generalize (pushAll x'.bldg p).ratios = r'
        unfold rawResults
        rw [List.ofFn_eq_map, List.ofFn_eq_map]
        generalize List.finRange 8760 = L
        have key : ∀ (L : List (Fin 8760)) (st st' : ThermalState α) (e e' : α × α) (k : Fin 13), k ∉ uses →
            (runHours x (initConsts x) r (L.map (hourInput x win w)) st).map (fun z => hourEndUses x e z k) =
              (runHours x' (initConsts x') r' (L.map (hourInput x' win' w)) st').map (fun z => hourEndUses x' e' z k) := by
          intro L
          induction L with
          | nil => intros; rfl
          | cons i L ih =>
            intro st st' e e' k hk
            simp only [List.map_cons, hourInput, runHours]
            exact congrArg₂ List.cons (hu _ _ _ _ _ _ _ _ _ _ _ _ hk) (ih _ _ _ _ _ hk)
        intro k hk
        simp only [endUses, List.map_map]
        exact key L _ _ _ _ k hk
      have l1 : (endUses x (rawResults x (pushAll x.bldg p).ratios win w)).length = 8760 := by
        rw [endUses_length, rawResults_length]
      have l2 : (endUses x' (rawResults x' (pushAll x'.bldg p).ratios win' w)).length = 8760 := by
        rw [endUses_length, rawResults_length]
      simp only [Option.bind_some]
      revert h l1 l2
      generalize endUses x (rawResults x (pushAll x.bldg p).ratios win w) = l
      generalize endUses x' (rawResults x' (pushAll x'.bldg p).ratios win' w) = l'
      intro h l1 l2
      cases agg with
      | false =>
        simp only [cond_false]
        exact ⟨l1.trans l2.symm, fun i hi hi' k hk => agree_get h k hk i hi hi'⟩
      | true =>
        obtain ⟨o, a1, a2, a3⟩ := aggregate_order l1
        obtain ⟨o', b1, b2, b3⟩ := aggregate_order l2
        simp only [cond_true, a1, b1]
        exact ⟨a2.trans b2.symm, fun i hi hi' k hk => by rw [a3 i hi k, b3 i hi' k, h k hk]⟩

/-- **C56** (hourly model) The windows and their shading change nothing but the lights inside and the energy for heating, cooling, fans and pumps. -/
theorem C56_hourly_windows (x y : Sim α) (w : Weather α) (p : Pushed α) (agg : Bool) :
    SameExcept [interiorLights, heatingElectricity, coolingElectricity, heatingGas, Spec.fans, Spec.pumps]
      ((simulate agg ⟨x, w, p⟩).map Prod.snd) ((simulate agg ⟨takeWindows x y, w, p⟩).map Prod.snd) := by
  refine hourly_results _ agg x (takeWindows x y) w p rfl ?_
  intro win
  generalize (pushAll x.bldg p).ratios = r
  generalize (pushAll (takeWindows x y).bldg p).ratios = r'
  unfold rawResults
  rw [List.ofFn_eq_map, List.ofFn_eq_map]
  generalize List.finRange 8760 = L
  have key : ∀ (L : List (Fin 8760)) (st st' : ThermalState α) (e e' : α × α) (k : Fin 13),
      k ∉ [interiorLights, heatingElectricity, coolingElectricity, heatingGas, Spec.fans, Spec.pumps] →
      (runHours x (initConsts x) r (L.map (hourInput x win w)) st).map (fun z => hourEndUses x e z k) =
        (runHours (takeWindows x y) (initConsts (takeWindows x y)) r' (L.map (hourInput (takeWindows x y) win w)) st').map
          (fun z => hourEndUses (takeWindows x y) e' z k) := by
    intro L
    induction L with
    | nil => intros; rfl
    | cons i L ih =>
      intro st st' e e' k hk
      simp only [List.map_cons, hourInput, runHours]
      refine congrArg₂ List.cons ?_ (ih _ _ _ _ _ hk)
      exact hour_frame _ _ _ _ _ _ _ k hk (fun h => absurd (by decide) h) (fun h => absurd (by decide) h)
        (fun h => absurd (by decide) h) (fun h => absurd (by decide) h) (fun _ => rfl) (fun h => absurd (by decide) h)
        (fun h => absurd (by decide) h) (fun _ => rfl) (fun _ => rfl) rfl
  intro k hk
  simp only [endUses, List.map_map]
  exact key L _ _ _ _ k hk

/-- **C56** (hourly model) The floor area changes none of the appliances, which are given per square metre. -/
theorem C56_hourly_floor (x y : Sim α) (w : Weather α) (p : Pushed α) (agg : Bool) :
    SameExcept [heatingElectricity, coolingElectricity, interiorLights, exteriorLights, Spec.fans, Spec.pumps, exteriorEquipment, heatingGas]
      ((simulate agg ⟨x, w, p⟩).map Prod.snd) ((simulate agg ⟨takeFloor x y, w, p⟩).map Prod.snd) := by
  refine hourly_results _ agg x (takeFloor x y) w p rfl ?_
  intro win
  generalize (pushAll x.bldg p).ratios = r
  generalize (pushAll (takeFloor x y).bldg p).ratios = r'
  unfold rawResults
  rw [List.ofFn_eq_map, List.ofFn_eq_map]
  generalize List.finRange 8760 = L
  have key : ∀ (L : List (Fin 8760)) (st st' : ThermalState α) (e e' : α × α) (k : Fin 13),
      k ∉ [heatingElectricity, coolingElectricity, interiorLights, exteriorLights, Spec.fans, Spec.pumps, exteriorEquipment, heatingGas] →
      (runHours x (initConsts x) r (L.map (hourInput x win w)) st).map (fun z => hourEndUses x e z k) =
        (runHours (takeFloor x y) (initConsts (takeFloor x y)) r' (L.map (hourInput (takeFloor x y) win w)) st').map
          (fun z => hourEndUses (takeFloor x y) e' z k) := by
    intro L
    induction L with
    | nil => intros; rfl
    | cons i L ih =>
      intro st st' e e' k hk
      simp only [List.map_cons, hourInput, runHours]
      refine congrArg₂ List.cons ?_ (ih _ _ _ _ _ hk)
      exact hour_frame _ _ _ _ _ _ _ k hk (fun h => absurd (by decide) h) (fun h => absurd (by decide) h)
        (fun h => absurd (by decide) h) (fun h => absurd (by decide) h) (fun h => absurd (by decide) h) (fun h => absurd (by decide) h)
        (fun h => absurd (by decide) h) (fun _ => rfl) (fun h => absurd (by decide) h) rfl
  intro k hk
  simp only [endUses, List.map_map]
  exact key L _ _ _ _ k hk

/-- **C56** (hourly model) The days and hours of occupancy change neither the lights nor the equipment outside, as long as they are `int`s. -/
theorem C56_hourly_occupancy (x y : Sim α) (w : Weather α) (p : Pushed α) (agg : Bool)
    (hs : (window (takeOccupancy x y).pop).isSome = (window x.pop).isSome) :
    SameExcept [interiorLights, equipment, heatingElectricity, coolingElectricity, heatingGas, Spec.fans, Spec.pumps]
      ((simulate agg ⟨x, w, p⟩).map Prod.snd) ((simulate agg ⟨takeOccupancy x y, w, p⟩).map Prod.snd) := by
  refine hourly_free _ x (takeOccupancy x y) agg w p hs ?_
  intro r r' win win' h d w st st' e e' k hk
  exact hour_frame _ _ _ _ _ _ _ k hk (fun h => absurd (by decide) h) (fun h => absurd (by decide) h)
    (fun h => absurd (by decide) h) (fun h => absurd (by decide) h) (fun _ => rfl) (fun h => absurd (by decide) h)
    (fun h => absurd (by decide) h) (fun h => absurd (by decide) h) (fun _ => rfl) rfl

/-- a building with hourly results: with other lights its equipment is the same in every hour -/
example (y : Sim Dbl) (w : Weather Dbl) : ∃ r r', (simulate false ⟨smallOffice.map fin, w, .empty⟩).map Prod.snd = some r ∧
    (simulate false ⟨takeInteriorLights (smallOffice.map fin) y, w, .empty⟩).map Prod.snd = some r' ∧
    ∀ (i : Nat) (h : i < r.length) (h' : i < r'.length), r[i] equipment = r'[i] equipment := by
  obtain ⟨win, hw⟩ := window_ok (p := smallOffice.pop) (by norm_num [smallOffice]) (by norm_num [smallOffice])
    (by norm_num [smallOffice]) (by norm_num [smallOffice])
  have h := C56_hourly_interiorLights (smallOffice.map fin) y w .empty false
  have e := simulate_results false (⟨smallOffice.map fin, w, .empty⟩ : Model Dbl)
  have hw' : window (smallOffice.map fin).pop = some win := hw
  simp only [hw', Option.bind_some, cond_false] at e
  rw [e] at h ⊢
  cases hr : (simulate false ⟨takeInteriorLights (smallOffice.map fin) y, w, .empty⟩).map Prod.snd with
  | none => rw [hr] at h; exact h.elim
  | some r' =>
    rw [hr] at h
    exact ⟨_, r', rfl, rfl, fun i hi hi' => h.2 i hi hi' _ (by decide)⟩

end hourly
end ISO.Props
