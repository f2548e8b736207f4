import Verif.Lemmas.MonthlyGains
import Verif.Props.MonthlyWeek

/-! # C31, C32, C33: lighting, transmission and solar gains of the monthly model -/

namespace ISO.Props
open ISO ISO.Monthly ISO.Spec Dbl CNum

/-- C31: the annual lighting energy.  In occupied time, the power density for the hours of the window, dimmed by day, and
reduced by sensor and constant-illuminance control; in the rest of the year the unoccupied density.  Day and night hours
together are the window. -/
theorem C31_year (x : Sim ℝ) (h : LightingData x) (down : Fin 12 → ℝ) :
    ∃ occ unocc : ℝ,
      (lightingEnergyUse (x.map fin) fun m => fin (down m)).Q_illum_occ = fin occ ∧
      (lightingEnergyUse (x.map fin) fun m => fin (down m)).Q_illum_unocc = fin unocc ∧
      (lightingEnergyUse (x.map fin) fun m => fin (down m)).Q_illum_tot_yr = fin (occ + unocc) ∧
      litByDay x + litByNight x = x.pop.hoursEnd - x.pop.hoursStart ∧
      1000 * occ = x.bldg.floorArea * x.lights.powerDensityOccupied
        * (x.building.constantIllumination * x.building.lightingOccupancySensor)
        * (litDays x * (x.lights.dimmingFraction * litByDay x + litByNight x)) ∧
      1000 * unocc = x.bldg.floorArea * x.lights.powerDensityUnoccupied
        * (8760 - litDays x * (x.pop.hoursEnd - x.pop.hoursStart)) ∧
      0 ≤ occ ∧ 0 ≤ unocc := by
  rw [fin_lighting]
  refine ⟨_, _, rfl, rfl, rfl, ?_⟩
  have hD : lightingDayHours x.lights x.pop = litByDay x := by
    have := h.overlap
    unfold litByDay at this
    simp only [lightingDayHours, litByDay, realnum]
    rw [min_comm, if_neg]
    rw [zero_lit_real, not_lt]
    exact this
  have hN : lightingNightHours x.lights x.pop = litByNight x := by
    simp only [lightingNightHours, litByNight, realnum]
    rw [zero_lit_real, max_comm, max_comm (x.pop.hoursEnd - _)]
  have hsum : litByDay x + litByNight x = x.pop.hoursEnd - x.pop.hoursStart := by
    unfold litByDay litByNight
    rcases le_total x.pop.hoursEnd x.lights.n_day_end with a | a <;>
    rcases le_total x.pop.hoursStart x.lights.n_day_start with b | b
    · rw [min_eq_left a, max_eq_right b, max_eq_right (by linarith), max_eq_left (by linarith)]; ring
    · rw [min_eq_left a, max_eq_left b, max_eq_left (by linarith), max_eq_left (by linarith)]; ring
    · rw [min_eq_right a, max_eq_right b, max_eq_right (by linarith), max_eq_right (by linarith)]; ring
    · rw [min_eq_right a, max_eq_left b, max_eq_left (by linarith), max_eq_right (by linarith)]; ring
  have hN0 : 0 ≤ litByNight x := add_nonneg (le_max_left _ _) (le_max_left _ _)
  have e1 : 1000 * (lightingEnergyUse x down).Q_illum_occ = x.bldg.floorArea * x.lights.powerDensityOccupied
        * (x.building.constantIllumination * x.building.lightingOccupancySensor)
        * (litDays x * (x.lights.dimmingFraction * litByDay x + litByNight x)) := by
    simp only [lightingEnergyUse, hD, hN, days_eq h.notJustBefore, litDays]
    norm_num
    ring
  have e2 : 1000 * (lightingEnergyUse x down).Q_illum_unocc = x.bldg.floorArea * x.lights.powerDensityUnoccupied
        * (8760 - litDays x * (x.pop.hoursEnd - x.pop.hoursStart)) := by
    rw [← hsum]
    simp only [lightingEnergyUse, hD, hN, days_eq h.notJustBefore, litDays]
    norm_num
    ring
  refine ⟨hsum, e1, e2, ?_, ?_⟩
  · have : 0 ≤ 1000 * (lightingEnergyUse x down).Q_illum_occ := by
      rw [e1]
      have := h.overlap; have := h.days; have := h.floorArea; have := h.occupied; have := h.dimming
      have := h.sensor; have := h.constant
      positivity
    linarith
  · have : 0 ≤ 1000 * (lightingEnergyUse x down).Q_illum_unocc := by
      rw [e2]
      exact mul_nonneg (mul_nonneg h.floorArea h.unoccupied) (by linarith [h.year])
    linarith

/-- C31: with control factors of at most one, occupied lighting energy is at most that of uncontrolled lighting (the power
density for all hours of the window). -/
theorem C31_controls (x : Sim ℝ) (h : LightingData x) (down : Fin 12 → ℝ) (h1 : x.lights.dimmingFraction ≤ 1)
    (h2 : x.building.lightingOccupancySensor ≤ 1) (h3 : x.building.constantIllumination ≤ 1) :
    ∃ occ : ℝ, (lightingEnergyUse (x.map fin) fun m => fin (down m)).Q_illum_occ = fin occ ∧
      1000 * occ ≤ x.bldg.floorArea * x.lights.powerDensityOccupied * (litDays x * (x.pop.hoursEnd - x.pop.hoursStart)) := by
  obtain ⟨occ, _, h4, -, -, h5, h6, -⟩ := C31_year x h down
  refine ⟨occ, h4, ?_⟩
  rw [h6, ← h5, mul_assoc]
  have hN0 : 0 ≤ litByNight x := add_nonneg (le_max_left _ _) (le_max_left _ _)
  apply mul_le_mul_of_nonneg_left _ (mul_nonneg h.floorArea h.occupied)
  have a1 : x.building.constantIllumination * x.building.lightingOccupancySensor ≤ 1 :=
    mul_le_one₀ h3 h.sensor h2
  have a2 : litDays x * (x.lights.dimmingFraction * litByDay x + litByNight x) ≤ litDays x * (litByDay x + litByNight x) := by
    apply mul_le_mul_of_nonneg_left _ h.days
    have := mul_le_of_le_one_left h.overlap h1
    linarith
  have a3 : 0 ≤ litDays x * (x.lights.dimmingFraction * litByDay x + litByNight x) := by
    have := h.overlap; have := h.days; have := h.dimming
    positivity
  calc _ ≤ 1 * (litDays x * (x.lights.dimmingFraction * litByDay x + litByNight x)) := mul_le_mul_of_nonneg_right a1 a3
    _ = litDays x * (x.lights.dimmingFraction * litByDay x + litByNight x) := one_mul _
    _ ≤ _ := a2

/-- a building with both lighting power densities multiplied by `k` -/
noncomputable def scaleLights (k : ℝ) (x : Sim ℝ) : Sim ℝ :=
  { x with lights := { x.lights with
      powerDensityOccupied := k * x.lights.powerDensityOccupied
      powerDensityUnoccupied := k * x.lights.powerDensityUnoccupied } }

/-- C31: the monthly interior lighting energy is linear in the power densities, for every building. -/
theorem C31_linear (x : Sim ℝ) (k : ℝ) (down : Fin 12 → ℝ) (m : Fin 12) :
    ∃ r : ℝ, (lightingEnergyUse (x.map fin) fun m => fin (down m)).v_Q_illum_tot m = fin r ∧
      (lightingEnergyUse ((scaleLights k x).map fin) fun m => fin (down m)).v_Q_illum_tot m = fin (k * r) := by
  rw [fin_lighting, fin_lighting]
  refine ⟨_, rfl, ?_⟩
  show fin _ = fin _
  congr 1
  simp only [lightingEnergyUse, scaleLights]
  have e1 : lightingDayHours (scaleLights k x).lights x.pop = lightingDayHours x.lights x.pop := rfl
  have e2 : lightingNightHours (scaleLights k x).lights x.pop = lightingNightHours x.lights x.pop := rfl
  simp only [scaleLights] at e1 e2
  rw [e1, e2]
  generalize lightingDayHours x.lights x.pop * daysPerWeek x.pop * x.lights.n_weeks = a
  generalize lightingNightHours x.lights x.pop * daysPerWeek x.pop * x.lights.n_weeks = b
  generalize (8760.0 : ℝ) - a - b = c
  generalize (1000.0 : ℝ) = d
  generalize (monthFractionOfYear m : ℝ) = f
  ring

/-- C31: every month gets its share of the annual energy: the number of its days over 365, up to one part in 10^15; the months
together give the annual energy up to one part in 10^15.  Exterior lights burn while the sun is down. -/
theorem C31_months (x : Sim ℝ) (down : Fin 12 → ℝ) :
    ∃ (year : ℝ) (month : Fin 12 → ℝ),
      (lightingEnergyUse (x.map fin) fun m => fin (down m)).Q_illum_tot_yr = fin year ∧
      (∀ m, (lightingEnergyUse (x.map fin) fun m => fin (down m)).v_Q_illum_tot m = fin (month m)) ∧
      (∀ m, |month m - year * (days m / 365)| ≤ |year| / 10 ^ 15) ∧
      |∑ m, month m - year| ≤ |year| / 10 ^ 15 ∧
      (∀ m, (lightingEnergyUse (x.map fin) fun m => fin (down m)).v_Q_illum_ext_tot m
        = fin (down m * x.lights.exteriorEnergy / 1000)) := by
  rw [fin_lighting]
  refine ⟨_, fun m => (lightingEnergyUse x down).v_Q_illum_tot m, rfl, fun m => rfl, ?_, ?_, ?_⟩
  · intro m
    have e : (lightingEnergyUse x down).v_Q_illum_tot m
        = monthFractionOfYear m * (lightingEnergyUse x down).Q_illum_tot_yr := rfl
    beta_reduce
    rw [e]
    generalize (lightingEnergyUse x down).Q_illum_tot_yr = y
    have hm : |(monthFractionOfYear m : ℝ) - days m / 365| ≤ 1 / 10 ^ 15 := by
      rw [abs_le]
      fin_cases m <;> norm_num [monthFractionOfYear, days, monthDays]
    rw [show (monthFractionOfYear m : ℝ) * y - y * (days m / 365) = y * (monthFractionOfYear m - days m / 365) by ring, abs_mul]
    calc _ ≤ |y| * (1 / 10 ^ 15) := mul_le_mul_of_nonneg_left hm (abs_nonneg _)
      _ = _ := by ring
  · have e : ∀ m, (lightingEnergyUse x down).v_Q_illum_tot m
        = monthFractionOfYear m * (lightingEnergyUse x down).Q_illum_tot_yr := fun m => rfl
    simp only [e]
    generalize (lightingEnergyUse x down).Q_illum_tot_yr = y
    rw [← Finset.sum_mul]
    have hs : (∑ m, (monthFractionOfYear m : ℝ)) = 10000000000000002 / 10 ^ 16 := by
      have e12 : ∀ f : Fin 12 → ℝ, ∑ m, f m
          = f 0 + f 1 + f 2 + f 3 + f 4 + f 5 + f 6 + f 7 + f 8 + f 9 + f 10 + f 11 := by
        intro f
        repeat rw [Fin.sum_univ_castSucc]
        rw [Fin.sum_univ_zero, zero_add]
        rfl
      rw [e12]
      show (0.0849315068493151 + 0.0767123287671233 + 0.0849315068493151 + 0.0821917808219178 + 0.0849315068493151 + 0.0821917808219178 + 0.0849315068493151 + 0.0849315068493151 + 0.0821917808219178 + 0.0849315068493151 + 0.0821917808219178 + 0.0849315068493151 : ℝ) = _
      norm_num
    rw [hs, show 10000000000000002 / 10 ^ 16 * y - y = y * (2 / 10 ^ 16) by ring, abs_mul]
    rw [show |(2 / 10 ^ 16 : ℝ)| = 2 / 10 ^ 16 by rw [abs_of_pos]; norm_num]
    have := abs_nonneg y
    calc |y| * (2 / 10 ^ 16) ≤ |y| * (1 / 10 ^ 15) := mul_le_mul_of_nonneg_left (by norm_num) this
      _ = _ := by ring
  · intro m
    show fin _ = fin _
    congr 1
    show (lightingEnergyUse x down).v_Q_illum_ext_tot m = _
    simp only [lightingEnergyUse]
    norm_num
    ring

/-- C31, the disagreement: for a window that starts after the lighting day (an evening shift) 24 hours too many are counted:
lights without controls burn for the window plus a whole day. -/
theorem C31_evening (x : Sim ℝ) (down : Fin 12 → ℝ) (h1 : x.lights.n_day_end < x.pop.hoursStart)
    (h2 : x.pop.hoursStart ≤ x.pop.hoursEnd) (h3 : x.lights.n_day_start ≤ x.pop.hoursStart)
    (h4 : x.pop.daysEnd < x.pop.daysStart → x.pop.daysEnd + 1 < x.pop.daysStart)
    (h5 : x.lights.dimmingFraction = 1) (h6 : x.building.lightingOccupancySensor = 1) (h7 : x.building.constantIllumination = 1) :
    ∃ occ : ℝ, (lightingEnergyUse (x.map fin) fun m => fin (down m)).Q_illum_occ = fin occ ∧
      1000 * occ = x.bldg.floorArea * x.lights.powerDensityOccupied
        * (litDays x * (24 + (x.pop.hoursEnd - x.pop.hoursStart))) := by
  rw [fin_lighting]
  refine ⟨_, rfl, ?_⟩
  have hD : lightingDayHours x.lights x.pop = x.lights.n_day_end - x.pop.hoursStart + 24 := by
    simp only [lightingDayHours, realnum]
    rw [min_eq_left (by linarith), max_eq_left h3, if_pos (by rw [zero_lit_real]; linarith)]
    norm_num
  have hN : lightingNightHours x.lights x.pop = x.pop.hoursEnd - x.lights.n_day_end := by
    simp only [lightingNightHours, realnum]
    rw [zero_lit_real, max_eq_right (by linarith), max_eq_left (by linarith), zero_add]
  simp only [lightingEnergyUse, hD, hN, days_eq h4, litDays, h5, h6, h7]
  norm_num
  ring

/-! ## C32 -/

/-- C32: the transmission coefficient is the sum of U-value times area over walls and windows of the nine facades. -/
theorem C32_sum (s : Structure ℝ) :
    envelopCalculations (s.map fin)
      = fin ((∑ i, s.wallUniform i * s.wallArea i) + ∑ i, s.windowUniform i * s.windowArea i) := by
  rw [fin_envelope, envelope_real, ← Finset.sum_add_distrib]
  congr 1
  apply Finset.sum_congr rfl
  intro i _
  ring

/-- C32: it is not negative and does not decrease when U-values or areas increase. -/
theorem C32_monotone (s t : Structure ℝ)
    (h : ∀ i, 0 ≤ s.wallArea i ∧ 0 ≤ s.wallUniform i ∧ 0 ≤ s.windowArea i ∧ 0 ≤ s.windowUniform i)
    (hst : ∀ i, s.wallArea i ≤ t.wallArea i ∧ s.wallUniform i ≤ t.wallUniform i ∧ s.windowArea i ≤ t.windowArea i ∧
      s.windowUniform i ≤ t.windowUniform i) :
    ∃ a b : ℝ, envelopCalculations (s.map fin) = fin a ∧ envelopCalculations (t.map fin) = fin b ∧ 0 ≤ a ∧ a ≤ b := by
  rw [fin_envelope, fin_envelope, envelope_real, envelope_real]
  refine ⟨_, _, rfl, rfl, Finset.sum_nonneg fun i _ => ?_, Finset.sum_le_sum fun i _ => ?_⟩
  · obtain ⟨a, b, c, d⟩ := h i
    positivity
  · obtain ⟨a, b, c, d⟩ := h i
    obtain ⟨a', b', c', d'⟩ := hst i
    exact add_le_add (mul_le_mul a' b' b (a.trans a')) (mul_le_mul c' d' d (c.trans c'))

/-- the same building with its facades listed in another order -/
def permuteFacades {α : Type} (σ : Equiv.Perm (Fin 9)) (s : Structure α) : Structure α :=
  { s with wallArea := s.wallArea ∘ σ, wallUniform := s.wallUniform ∘ σ, windowArea := s.windowArea ∘ σ,
           windowUniform := s.windowUniform ∘ σ }

/-- C32: it does not depend on the order of the facades, for all (also infinite or undefined) numbers. -/
theorem C32_order (s : Structure Dbl) (σ : Equiv.Perm (Fin 9)) :
    envelopCalculations (permuteFacades σ s) = envelopCalculations s := by
  unfold envelopCalculations
  have e : ∀ v : Fin 9 → Dbl, vsum v = ∑ i, v i := fun v => by unfold vsum; rw [csum_dbl, List.sum_ofFn]
  simp only [e]
  congr 3
  exact Equiv.sum_comp σ fun i => s.wallArea i * s.wallUniform i + s.windowArea i * s.windowUniform i

/-! ## C33 -/

/-- C33: codes from 1 up to (not including) 4 select the tabulated factors; with any other code on any facade the program reads
outside the table. -/
theorem C33_codes (s : Structure ℝ) :
    windowSolarGain (s.map fin) = none ↔ ∃ i, ¬(1 ≤ s.windowShadingDevice i ∧ s.windowShadingDevice i < 4) := by
  constructor
  · intro h
    by_contra hc
    rw [not_exists] at hc
    rw [windowSolarGain_some fun i => not_not.mp (hc i)] at h
    cases h
  · rintro ⟨i, hi⟩
    unfold windowSolarGain
    have : allFacades (fun i => shadingFactor ((s.map fin).windowShadingDevice i)) = none :=
      allFacades_none.mpr ⟨i, (shadingFactor_fin _).2 hi⟩
    rw [this]; rfl

/-- C33: the solar gain of a month: what enters through the windows plus what the walls pass on minus what they lose to the sky. -/
theorem C33_gain (s : Structure ℝ) (w : WeatherData ℝ) (a : SolarAreas Dbl) (ha : windowSolarGain (s.map fin) = some a)
    (m : Fin 12) :
    solarHeatGain (s.map fin) (w.map fin) a m
      = fin (megaseconds m * (windowHeat s w m + opaqueHeat s w m - skyLoss s)) := by
  have hc : ∀ i, 1 ≤ s.windowShadingDevice i ∧ s.windowShadingDevice i < 4 := by
    by_contra hc
    rw [not_forall] at hc
    rw [(C33_codes s).mpr hc] at ha
    cases ha
  rw [windowSolarGain_some hc] at ha
  rw [← Option.some.inj ha, fin_solarHeatGain, solarHeatGain_real]

/-- facade and weather data that are not negative -/
structure NonNegative (s : Structure ℝ) (w : WeatherData ℝ) : Prop where
  solar : ∀ m j, 0 ≤ w.msolar m j
  horizontal : ∀ m, 0 ≤ w.mEgh m
  window : ∀ j, 0 ≤ s.windowArea j
  frame : s.win_ff ≤ 1
  transmittance : ∀ j, 0 ≤ s.windowNormalIncidenceSolarEnergyTransmittance j
  glazing : 0 ≤ s.win_F_W
  correction : ∀ j, 0 ≤ s.windowShadingCorrectionFactor j
  absorption : ∀ j, 0 ≤ s.wallSolarAbsorption j
  resistance : 0 ≤ s.R_sc_ext
  wallU : ∀ j, 0 ≤ s.wallUniform j
  wall : ∀ j, 0 ≤ s.wallArea j

/-- C33: solar gains through windows are not negative, and neither are those of the walls; without windows there are none.  More
irradiance never gives less gain. -/
theorem C33_nonneg (s : Structure ℝ) (w : WeatherData ℝ) (h : NonNegative s w) (m : Fin 12) :
    0 ≤ windowHeat s w m ∧ 0 ≤ opaqueHeat s w m ∧
      ((∀ j, s.windowArea j = 0) → windowHeat s w m = 0) ∧
      (∀ w' : WeatherData ℝ, (∀ j, irradianceOn w m j ≤ irradianceOn w' m j) →
        windowHeat s w m ≤ windowHeat s w' m ∧ opaqueHeat s w m ≤ opaqueHeat s w' m) := by
  have hI : ∀ j, 0 ≤ irradianceOn w m j := by
    intro j
    unfold irradianceOn
    split_ifs
    · exact h.solar _ _
    · exact h.horizontal _
  have hs : ∀ c, 0 ≤ shading c := by
    intro c
    unfold shading
    split_ifs <;> norm_num
  have hW : ∀ j, 0 ≤ s.windowArea j * (1 - s.win_ff) * (s.windowNormalIncidenceSolarEnergyTransmittance j * s.win_F_W)
    * shading (s.windowShadingDevice j) * s.windowShadingCorrectionFactor j := by
    intro j
    have h1 := h.window j; have h2 : 0 ≤ 1 - s.win_ff := by linarith [h.frame]
    have h3 := h.transmittance j; have h4 := h.glazing; have h5 := h.correction j; have h6 := hs (s.windowShadingDevice j)
    positivity
  have hO : ∀ j, 0 ≤ s.wallSolarAbsorption j * s.R_sc_ext * s.wallUniform j * s.wallArea j := by
    intro j
    have h1 := h.absorption j; have h2 := h.resistance; have h3 := h.wallU j; have h4 := h.wall j
    positivity
  refine ⟨Finset.sum_nonneg fun j _ => mul_nonneg (hI j) (hW j), Finset.sum_nonneg fun j _ => mul_nonneg (hI j) (hO j), ?_, ?_⟩
  · intro hz
    unfold windowHeat
    apply Finset.sum_eq_zero
    intro j _
    rw [hz j]; ring
  · intro w' hw
    exact ⟨Finset.sum_le_sum fun j _ => mul_le_mul_of_nonneg_right (hw j) (hW j),
      Finset.sum_le_sum fun j _ => mul_le_mul_of_nonneg_right (hw j) (hO j)⟩

/-- the office with a shading code on every facade -/
noncomputable def monthlyOffice : Sim ℝ :=
  { smallOffice with bldg := { smallOffice.bldg with windowShadingDevice := fun _ => 1 } }

/-- the hypotheses of C31 to C33 -/
example : LightingData monthlyOffice := by
  constructor <;> norm_num [monthlyOffice, smallOffice, litByDay, litDays, windowDays]
example : NonNegative monthlyOffice.bldg monthlyOffice.weather := by
  constructor <;> intros <;> norm_num [monthlyOffice, smallOffice]
  all_goals (rename_i j; fin_cases j <;> norm_num [nineOf])
example : ∃ a, windowSolarGain (monthlyOffice.bldg.map fin) = some a :=
  ⟨_, windowSolarGain_some fun i => by norm_num [monthlyOffice]⟩
/-- an evening shift from 20 to 22 o'clock, lighting day from 7 to 18 -/
example : ∃ x : Sim ℝ, x.lights.n_day_end < x.pop.hoursStart ∧ x.pop.hoursStart ≤ x.pop.hoursEnd ∧
    x.lights.n_day_start ≤ x.pop.hoursStart ∧ (x.pop.daysEnd < x.pop.daysStart → x.pop.daysEnd + 1 < x.pop.daysStart) ∧
    x.lights.dimmingFraction = 1 ∧ x.building.lightingOccupancySensor = 1 ∧ x.building.constantIllumination = 1 :=
  ⟨{ smallOffice with pop := { smallOffice.pop with hoursStart := 20, hoursEnd := 22 } }, by norm_num [smallOffice]⟩

end ISO.Props
