import Verif.Lemmas.MonthlyWeek
import Verif.Spec.MonthlyGains

/-! Helper lemmas: lighting, envelope and solar gains of the monthly model on finite input. -/

namespace ISO.Monthly
open ISO CNum Dbl ISO.Spec

theorem fin_lighting (x : Sim ℝ) (s : Fin 12 → ℝ) :
    lightingEnergyUse (x.map fin) (fun m => fin (s m)) = (lightingEnergyUse x s).map fin := by
  have h : (1000.0 : ℝ) ≠ 0 := by norm_num
  have e : ∀ p : Population ℝ, daysPerWeek (p.map fin) = fin (daysPerWeek p) := fin_daysPerWeek
  have ed : lightingDayHours (x.lights.map fin) (x.pop.map fin) = fin (lightingDayHours x.lights x.pop) := by
    simp only [lightingDayHours, Lighting.map, Population.map, dblfin]
  have en : lightingNightHours (x.lights.map fin) (x.pop.map fin) = fin (lightingNightHours x.lights x.pop) := by
    simp only [lightingNightHours, Lighting.map, Population.map, dblfin]
  simp only [lightingEnergyUse, LightingUse.map, Sim.map, e, ed, en]
  simp only [Lighting.map, Building.map, Structure.map, dblfin, ne_eq, h, not_false_eq_true]

theorem fin_envelope (s : Structure ℝ) : envelopCalculations (s.map fin) = fin (envelopCalculations s) := by
  simp only [envelopCalculations, Structure.map, dblfin]

theorem envelope_real (s : Structure ℝ) :
    envelopCalculations s = ∑ i, (s.wallArea i * s.wallUniform i + s.windowArea i * s.windowUniform i) := by
  simp only [envelopCalculations, realnum]
  norm_num

theorem allFacades_some {β : Type} (f : Fin 9 → β) : (allFacades fun m => some (f m)) = some f := by
  unfold allFacades
  rw [dif_pos (by intro m; rfl)]; rfl

theorem allFacades_eq {β : Type} {f : Fin 9 → Option β} {g : Fin 9 → β} : allFacades f = some g ↔ ∀ m, f m = some (g m) := by
  constructor
  · intro h m
    unfold allFacades at h
    split_ifs at h with hs
    rw [← Option.some.inj h, Option.some_get]
  · intro h
    rw [funext h, allFacades_some]

theorem allFacades_none {β : Type} {f : Fin 9 → Option β} : allFacades f = none ↔ ∃ m, f m = none := by
  unfold allFacades
  split_ifs with hs
  · simp only [false_iff, not_exists]
    intro m h; have := hs m; rw [h] at this; simp at this
  · simp only [true_iff]
    rw [not_forall] at hs
    obtain ⟨m, hm⟩ := hs
    exact ⟨m, by simpa using hm⟩

theorem trunc_eq {r : ℝ} {n : ℕ} (hn : 0 < n) (hn' : n ≤ 2147483647) : cintR r = some (n : ℤ) ↔ (n : ℝ) ≤ r ∧ r < n + 1 := by
  have key : truncR r = n ↔ (n : ℝ) ≤ r ∧ r < n + 1 := by
    unfold truncR
    split_ifs with h
    · rw [Int.floor_eq_iff]; simp
    · rw [not_le] at h
      constructor
      · intro h1
        have h2 : ⌈r⌉ ≤ 0 := Int.ceil_le.mpr (by simpa using h.le)
        omega
      · rintro ⟨h1, -⟩
        have : (0:ℝ) < n := by exact_mod_cast hn
        linarith
  unfold cintR
  constructor
  · intro h
    split_ifs at h with hr
    exact key.mp (Option.some.inj h)
  · intro h
    rw [key.mpr h, if_pos]
    constructor <;> omega

theorem shadingFactor_fin (c : ℝ) :
    ((1 ≤ c ∧ c < 4) → shadingFactor (fin c) = some (fin (shading c))) ∧ (¬(1 ≤ c ∧ c < 4) → shadingFactor (fin c) = none) := by
  have h1 := trunc_eq (r := c) (n := 1) (by norm_num) (by norm_num)
  have h2 := trunc_eq (r := c) (n := 2) (by norm_num) (by norm_num)
  have h3 := trunc_eq (r := c) (n := 3) (by norm_num) (by norm_num)
  norm_num at h1 h2 h3
  constructor
  · rintro ⟨ha, hb⟩
    unfold shadingFactor
    rw [fin_cint]
    show (match cintR c with | some 1 => _ | some 2 => _ | some 3 => _ | _ => none) = _
    unfold shading
    by_cases c1 : c < 2
    · rw [h1.mpr ⟨ha, c1⟩, if_pos c1]
      show some (fin _) = _
      norm_num
    · by_cases c2 : c < 3
      · rw [h2.mpr ⟨not_lt.mp c1, c2⟩, if_neg c1, if_pos c2]
        show some (fin _) = _
        norm_num
      · rw [h3.mpr ⟨not_lt.mp c2, hb⟩, if_neg c1, if_neg c2]
        show some (fin _) = _
        norm_num
  · intro hne
    unfold shadingFactor
    rw [fin_cint]
    show (match cintR c with | some 1 => _ | some 2 => _ | some 3 => _ | _ => none) = _
    have n1 : cintR c ≠ some 1 := fun h => hne ⟨(h1.mp h).1, by linarith [(h1.mp h).2]⟩
    have n2 : cintR c ≠ some 2 := fun h => hne ⟨by linarith [(h2.mp h).1], by linarith [(h2.mp h).2]⟩
    have n3 : cintR c ≠ some 3 := fun h => hne ⟨by linarith [(h3.mp h).1], (h3.mp h).2⟩
    split
    · exact absurd (by assumption) n1
    · exact absurd (by assumption) n2
    · exact absurd (by assumption) n3
    · rfl

theorem fin_solarAreas (s : Structure ℝ) (f : Fin 9 → ℝ) :
    solarAreas (s.map fin) (fun i => fin (f i)) = (solarAreas s f).map fin := by
  simp only [solarAreas, SolarAreas.map, Structure.map, dblfin]

theorem windowSolarGain_some {s : Structure ℝ} (h : ∀ i, 1 ≤ s.windowShadingDevice i ∧ s.windowShadingDevice i < 4) :
    windowSolarGain (s.map fin) = some ((solarAreas s fun i => shading (s.windowShadingDevice i)).map fin) := by
  unfold windowSolarGain
  have e : (fun i => shadingFactor ((s.map fin).windowShadingDevice i))
      = fun i => some (fin (shading (s.windowShadingDevice i))) := funext fun i => (shadingFactor_fin _).1 (h i)
  rw [e, allFacades_some, Option.bind_eq_bind, Option.bind_some, fin_solarAreas]; rfl

theorem irradiance_real (w : WeatherData ℝ) (m : Fin 12) (j : Fin 9) : irradiance w m j = irradianceOn w m j := by
  unfold irradiance irradianceOn Fin.snoc
  split_ifs <;> rfl

theorem fin_irradiance (w : WeatherData ℝ) (m : Fin 12) (j : Fin 9) : irradiance (w.map fin) m j = fin (irradiance w m j) := by
  unfold irradiance Fin.snoc
  split_ifs <;> rfl

theorem fin_solarHeatGain (s : Structure ℝ) (w : WeatherData ℝ) (a : SolarAreas ℝ) (m : Fin 12) :
    solarHeatGain (s.map fin) (w.map fin) (a.map fin) m = fin (solarHeatGain s w a m) := by
  simp only [solarHeatGain, windowGain, wallGain, fin_irradiance]
  simp only [Structure.map, SolarAreas.map, dblfin]

theorem form_real (j : Fin 9) : (formFactors j : ℝ) = skyView j := by
  fin_cases j <;> norm_num [formFactors, skyView]

theorem solarHeatGain_real (s : Structure ℝ) (w : WeatherData ℝ) (m : Fin 12) :
    solarHeatGain s w (solarAreas s fun i => shading (s.windowShadingDevice i)) m
      = megaseconds m * (windowHeat s w m + opaqueHeat s w m - skyLoss s) := by
  rw [solarHeatGain, mega_eq, mul_comm]
  congr 1
  rw [windowGain, wallGain, vsum_real, vsum_real, windowHeat, opaqueHeat, skyLoss, add_sub_assoc, ← Finset.sum_sub_distrib]
  congr 1
  · apply Finset.sum_congr rfl
    intro j _
    simp only [solarAreas, irradiance_real]
    norm_num
    ring
  · apply Finset.sum_congr rfl
    intro j _
    simp only [solarAreas, irradiance_real, form_real]
    norm_num
    ring

end ISO.Monthly
