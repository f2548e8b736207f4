import Verif.Spec.Effects
import Verif.Lemmas.HourlyFin
import Verif.Num.Sum
import Verif.Props.SmallOffice

/-! # C54: the hourly results per square metre do not depend on the size of the building -/

namespace ISO.Props
open ISO ISO.Hourly ISO.Spec ISO.Dbl CNum Epw

theorem scaled_div {k : ℝ} (hk : k ≠ 0) (a b : ℝ) : k * a / (k * b) = a / b := mul_div_mul_left a b hk

/-- the six results of a facade grow with the building -/
theorem facade_enlarged (k : ℝ) (x : Sim ℝ) (i : Fin 9) :
    (facade (enlarged k x).bldg i).nlams = k * (facade x.bldg i).nlams ∧ (facade (enlarged k x).bldg i).nla = k * (facade x.bldg i).nla ∧
    (facade (enlarged k x).bldg i).sams = k * (facade x.bldg i).sams ∧ (facade (enlarged k x).bldg i).sa = k * (facade x.bldg i).sa ∧
    (facade (enlarged k x).bldg i).htot = k * (facade x.bldg i).htot ∧
    (facade (enlarged k x).bldg i).hWindow = k * (facade x.bldg i).hWindow := by
  simp only [facade, structureCalculations, enlarged]
  refine ⟨?_, ?_, ?_, ?_, ?_, ?_⟩ <;> ring

theorem pushOne_enlarged (k : ℝ) (hk : k ≠ 0) (x : Sim ℝ) (hA : x.bldg.floorArea ≠ 0) :
    pushOne ((enlarged k x).map fin).bldg = pushOne (x.map fin).bldg := by
  have hkA : (enlarged k x).bldg.floorArea ≠ 0 := mul_ne_zero hk hA
  have hf : (enlarged k x).bldg.floorArea = k * x.bldg.floorArea := rfl
  funext p i
  obtain ⟨a1, a2, a3, a4, -, -⟩ := facade_fin (enlarged k x).bldg i
  obtain ⟨b1, b2, b3, b4, -, -⟩ := facade_fin x.bldg i
  obtain ⟨c1, c2, c3, c4, -, -⟩ := facade_enlarged k x i
  have e0 : ((enlarged k x).map fin).bldg = (enlarged k x).bldg.map fin := rfl
  have e0' : (x.map fin).bldg = x.bldg.map fin := rfl
  have f1 : ((enlarged k x).bldg.map fin).floorArea = fin (enlarged k x).bldg.floorArea := rfl
  have f2 : (x.bldg.map fin).floorArea = fin x.bldg.floorArea := rfl
  simp only [pushOne, e0, e0', a1, a2, a3, a4, b1, b2, b3, b4, f1, f2, fin_div _ hkA, fin_div _ hA]
  rw [c1, c2, c3, c4, hf, scaled_div hk, scaled_div hk, scaled_div hk, scaled_div hk]

theorem nine_scaled (k : ℝ) (f : Fin 9 → ℝ) : csum (nine fun i => k * f i) = k * csum (nine f) := by
  rw [csum_nine_real, csum_nine_real, Finset.mul_sum]

theorem initConsts_enlarged (k : ℝ) (hk : k ≠ 0) (x : Sim ℝ) (hA : x.bldg.floorArea ≠ 0)
    (h1 : 0.0001 ≤ x.lights.naturallyLightedArea) (h2 : 0.0001 ≤ k * x.lights.naturallyLightedArea) :
    initConsts ((enlarged k x).map fin) = initConsts (x.map fin) := by
  have hkA' : k * x.bldg.floorArea ≠ 0 := mul_ne_zero hk hA
  have e0 : ((enlarged k x).map fin).bldg = (enlarged k x).bldg.map fin := rfl
  have e0' : (x.map fin).bldg = x.bldg.map fin := rfl
  have f1 : ((enlarged k x).bldg.map fin).floorArea = fin (k * x.bldg.floorArea) := rfl
  have f2 : (x.bldg.map fin).floorArea = fin x.bldg.floorArea := rfl
  have n1 : (0.0001 : Dbl) = fin 0.0001 := fin_lit _ _ _
  have n2 : (0.19 : Dbl) = fin 0.19 := fin_lit _ _ _
  have g1 : cmax 0.0001 ((enlarged k x).map fin).lights.naturallyLightedArea / fin (k * x.bldg.floorArea)
      = cmax 0.0001 (x.map fin).lights.naturallyLightedArea / fin x.bldg.floorArea := by
    have q1 : ((enlarged k x).map fin).lights.naturallyLightedArea = fin (k * x.lights.naturallyLightedArea) := rfl
    have q2 : (x.map fin).lights.naturallyLightedArea = fin x.lights.naturallyLightedArea := rfl
    rw [q1, q2, n1, fin_cmax, fin_cmax, cmax_real, cmax_real, max_eq_right h1, max_eq_right h2, fin_div _ hkA', fin_div _ hA,
      scaled_div hk]
  have g2 : 0.19 * (((enlarged k x).map fin).ventilation.n50 * (fin (k * x.bldg.floorArea) * ((enlarged k x).bldg.map fin).buildingHeight))
      / fin (k * x.bldg.floorArea)
      = 0.19 * ((x.map fin).ventilation.n50 * (fin x.bldg.floorArea * (x.bldg.map fin).buildingHeight)) / fin x.bldg.floorArea := by
    have q1 : ((enlarged k x).map fin).ventilation.n50 = fin x.ventilation.n50 := rfl
    have q2 : (x.map fin).ventilation.n50 = fin x.ventilation.n50 := rfl
    have q3 : ((enlarged k x).bldg.map fin).buildingHeight = fin x.bldg.buildingHeight := rfl
    have q4 : (x.bldg.map fin).buildingHeight = fin x.bldg.buildingHeight := rfl
    rw [q1, q2, q3, q4, n2]
    generalize (0.19 : ℝ) = z
    rw [fin_mul, fin_mul, fin_mul, fin_mul, fin_mul, fin_mul, fin_div _ hkA', fin_div _ hA]
    congr 1
    field_simp
  have g3 : ((enlarged k x).bldg.map fin).wallHeatCapacity * csum (nine ((enlarged k x).bldg.map fin).wallArea) / fin (k * x.bldg.floorArea)
      = (x.bldg.map fin).wallHeatCapacity * csum (nine (x.bldg.map fin).wallArea) / fin x.bldg.floorArea := by
    have q1 : csum (nine ((enlarged k x).bldg.map fin).wallArea) = fin (csum (nine fun i => k * x.bldg.wallArea i)) := csum_nine _
    have q2 : csum (nine (x.bldg.map fin).wallArea) = fin (csum (nine x.bldg.wallArea)) := csum_nine _
    have q3 : ((enlarged k x).bldg.map fin).wallHeatCapacity = fin x.bldg.wallHeatCapacity := rfl
    have q4 : (x.bldg.map fin).wallHeatCapacity = fin x.bldg.wallHeatCapacity := rfl
    rw [q1, q2, q3, q4, nine_scaled, fin_mul, fin_mul, fin_div _ hkA', fin_div _ hA]
    congr 1
    field_simp
  have g4 : csum (nine fun i => (facade ((enlarged k x).bldg.map fin) i).hWindow) / fin (k * x.bldg.floorArea)
      = csum (nine fun i => (facade (x.bldg.map fin) i).hWindow) / fin x.bldg.floorArea := by
    simp only [(facade_fin (enlarged k x).bldg _).2.2.2.2.2, (facade_fin x.bldg _).2.2.2.2.2, (facade_enlarged k x _).2.2.2.2.2]
    rw [csum_nine, csum_nine, nine_scaled, fin_div _ hkA', fin_div _ hA, scaled_div hk]
  have g5 : csum (nine fun i => (facade ((enlarged k x).bldg.map fin) i).htot - (facade ((enlarged k x).bldg.map fin) i).hWindow)
        / fin (k * x.bldg.floorArea)
      = csum (nine fun i => (facade (x.bldg.map fin) i).htot - (facade (x.bldg.map fin) i).hWindow) / fin x.bldg.floorArea := by
    simp only [(facade_fin (enlarged k x).bldg _).2.2.2.2.2, (facade_fin x.bldg _).2.2.2.2.2, (facade_enlarged k x _).2.2.2.2.2,
      (facade_fin (enlarged k x).bldg _).2.2.2.2.1, (facade_fin x.bldg _).2.2.2.2.1, (facade_enlarged k x _).2.2.2.2.1, fin_sub,
      ← mul_sub]
    rw [csum_nine, csum_nine, nine_scaled, fin_div _ hkA', fin_div _ hA, scaled_div hk]
  simp only [initConsts, e0, e0', f1, f2, g1, g2, g3, g4, g5]
  rfl

theorem calculateHour_enlarged (k : ℝ) (hk : k ≠ 0) (x : Sim ℝ) (hA : x.bldg.floorArea ≠ 0) (c : Consts Dbl) (r : Ratios Dbl)
    (win : Window) (h d : Int) (w : HourWeather Dbl) (st : ThermalState Dbl) :
    calculateHour ((enlarged k x).map fin) c r (scheduleCell ((enlarged k x).map fin) win h d) w st
      = calculateHour (x.map fin) c r (scheduleCell (x.map fin) win h d) w st := by
  have hkA : k * x.bldg.floorArea ≠ 0 := mul_ne_zero hk hA
  have q : ∀ a : ℝ, fin (k * a) / fin (k * x.bldg.floorArea) = fin a / fin x.bldg.floorArea := by
    intro a; rw [fin_div _ hkA, fin_div _ hA, scaled_div hk]
  have n1 : (3.6 : Dbl) = fin 3.6 := fin_lit _ _ _
  have n2 : (1.0 : Dbl) = fin 1.0 := fin_lit _ _ _
  have n3 : (0.0 : Dbl) = fin 0.0 := fin_lit _ _ _
  have v : (scheduleCell ((enlarged k x).map fin) win h d).ventilation * 3.6 / ((enlarged k x).map fin).bldg.floorArea
      = (scheduleCell (x.map fin) win h d).ventilation * 3.6 / (x.map fin).bldg.floorArea := by
    have f1 : ((enlarged k x).map fin).bldg.floorArea = fin (k * x.bldg.floorArea) := rfl
    have f2 : (x.map fin).bldg.floorArea = fin x.bldg.floorArea := rfl
    have f3 : ((enlarged k x).map fin).ventilation.supplyRate = fin (k * x.ventilation.supplyRate) := rfl
    have f4 : (x.map fin).ventilation.supplyRate = fin x.ventilation.supplyRate := rfl
    simp only [scheduleCell, f1, f2, f3, f4]
    cases decide (win.hourStart ≤ h) && decide (h ≤ win.hourEnd)
    · simp only [cond_false, n3, n1]
      generalize (3.6 : ℝ) = z
      rw [zero_lit_real, fin_mul, zero_mul, fin_div _ hkA, fin_div _ hA, zero_div, zero_div]
    · simp only [cond_true, n1]
      rw [fin_mul, fin_mul, mul_assoc, q]
  have l : ((enlarged k x).map fin).lights.exteriorEnergy * (scheduleCell ((enlarged k x).map fin) win h d).exteriorLighting
      / ((enlarged k x).map fin).bldg.floorArea
      = (x.map fin).lights.exteriorEnergy * (scheduleCell (x.map fin) win h d).exteriorLighting / (x.map fin).bldg.floorArea := by
    show fin (k * x.lights.exteriorEnergy) * 1.0 / fin (k * x.bldg.floorArea) = fin x.lights.exteriorEnergy * 1.0 / fin x.bldg.floorArea
    rw [n2, fin_mul, fin_mul, mul_assoc, q]
  have e : (scheduleCell ((enlarged k x).map fin) win h d).exteriorEquipment / ((enlarged k x).map fin).bldg.floorArea
      = (scheduleCell (x.map fin) win h d).exteriorEquipment / (x.map fin).bldg.floorArea := q _
  simp only [calculateHour, v, l, e]
  rfl

/-- the results of the simulation without the object it leaves behind -/
theorem simulate_results {α : Type} [CNum α] [OfInt α] (agg : Bool) (m : Model α) :
    (simulate agg m).map Prod.snd = (window m.sim.pop).bind fun win =>
      bif agg then aggregate (endUses m.sim (rawResults m.sim (pushAll m.sim.bldg m.pushed).ratios win m.weather))
      else some (endUses m.sim (rawResults m.sim (pushAll m.sim.bldg m.pushed).ratios win m.weather)) := by
  unfold simulate
  cases window m.sim.pop with
  | none => rfl
  | some win =>
    simp only [Option.bind_eq_bind, Option.bind_some]
    generalize endUses m.sim (rawResults m.sim (pushAll m.sim.bldg m.pushed).ratios win m.weather) = e
    cases agg
    · rfl
    · simp only [if_true, cond_true]
      cases aggregate e <;> rfl

/-- C54: with all areas, the outside air, the exterior lights and the exterior equipment multiplied by the same factor, the hourly
simulation gives the same results (they are per square metre), hour by hour and month by month. -/
theorem C54_hourly (k : ℝ) (hk : k ≠ 0) (x : Sim ℝ) (hA : x.bldg.floorArea ≠ 0)
    (h1 : 0.0001 ≤ x.lights.naturallyLightedArea) (h2 : 0.0001 ≤ k * x.lights.naturallyLightedArea)
    (w : Weather Dbl) (p : Pushed Dbl) (agg : Bool) :
    (simulate agg ⟨(enlarged k x).map fin, w, p⟩).map Prod.snd = (simulate agg ⟨x.map fin, w, p⟩).map Prod.snd := by
  have hw : window ((enlarged k x).map fin).pop = window (x.map fin).pop := rfl
  have hp : pushAll ((enlarged k x).map fin).bldg p = pushAll (x.map fin).bldg p := by
    unfold pushAll; rw [pushOne_enlarged k hk x hA]
  have hr : ∀ win r, rawResults ((enlarged k x).map fin) r win w = rawResults (x.map fin) r win w := by
    intro win r
    unfold rawResults
    rw [initConsts_enlarged k hk x hA h1 h2]
    have key : ∀ (l : List (Fin 8760)) (st : ThermalState Dbl),
        runHours ((enlarged k x).map fin) (initConsts (x.map fin)) r (l.map (hourInput ((enlarged k x).map fin) win w)) st
          = runHours (x.map fin) (initConsts (x.map fin)) r (l.map (hourInput (x.map fin) win w)) st := by
      intro l
      induction l with
      | nil => intro st; rfl
      | cons i l ih =>
        intro st
        simp only [List.map_cons, hourInput, runHours]
        rw [calculateHour_enlarged k hk x hA, ← ih]
    rw [List.ofFn_eq_map, List.ofFn_eq_map]
    exact key _ _
  have he : ∀ rs, endUses ((enlarged k x).map fin) rs = endUses (x.map fin) rs := fun _ => rfl
  rw [simulate_results, simulate_results]
  simp only [hw, hp, hr, he]

/-- the small office with half of its floor near windows; enlarged three times it still meets the hypotheses -/
noncomputable def daylitOffice : Sim ℝ := { smallOffice with lights := { smallOffice.lights with naturallyLightedArea := 250 } }

example (w : Weather Dbl) : daylitOffice.bldg.floorArea ≠ 0 ∧ (enlarged 3 daylitOffice).bldg.floorArea ≠ daylitOffice.bldg.floorArea ∧
    (simulate true ⟨(enlarged 3 daylitOffice).map fin, w, .empty⟩).map Prod.snd = (simulate true ⟨daylitOffice.map fin, w, .empty⟩).map Prod.snd := by
  have h : daylitOffice.bldg.floorArea = 511.16 := by norm_num [daylitOffice, smallOffice]
  have h' : (enlarged 3 daylitOffice).bldg.floorArea = 3 * daylitOffice.bldg.floorArea := rfl
  have h'' : daylitOffice.lights.naturallyLightedArea = 250 := rfl
  exact ⟨by rw [h]; norm_num, by rw [h', h]; norm_num,
    C54_hourly 3 (by norm_num) _ (by rw [h]; norm_num) (by rw [h'']; norm_num) (by rw [h'']; norm_num) w .empty true⟩

end ISO.Props
