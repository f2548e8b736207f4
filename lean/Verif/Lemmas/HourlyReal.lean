import Verif.Lemmas.HourlyFin
import Verif.Spec.Physical

/-! Helper lemmas: the hourly model over the reals. -/

namespace ISO.Hourly
open ISO CNum Dbl Spec

theorem amOfCm_bounds (c : ℝ) : 2.5 ≤ amOfCm c ∧ amOfCm c ≤ 3.5 := by
  simp only [amOfCm, realnum]
  split_ifs with h1 h2 h3
  · norm_num
  · constructor
    · have : (0:ℝ) ≤ (c - 260.0) / 110.0 := div_nonneg (by linarith) (by norm_num)
      norm_num at this ⊢; linarith
    · have : (c - 260.0) / 110.0 ≤ (1:ℝ) := by rw [div_le_one (by norm_num)]; norm_num at *; linarith
      norm_num at this ⊢; linarith
  · constructor
    · have : (0:ℝ) ≤ (c - 165.0) / 95.0 := div_nonneg (by linarith) (by norm_num)
      norm_num at this ⊢; linarith
    · have : (c - 165.0) / 95.0 ≤ (1:ℝ) := by rw [div_le_one (by norm_num)]; norm_num at *; linarith
      norm_num at this ⊢; linarith
  · norm_num

/-- what the constants of a physical building satisfy -/
structure ConstsPos (c : Consts ℝ) : Prop where
  H_tris : 0 < c.H_tris
  H_ms : 0 < c.H_ms
  hw : 0 ≤ c.hwindowWperkm2
  hem : 0 < c.hem
  Cm : 0 < c.Cm
  q4Pa : 0 < c.q4Pa
  hz : 0 < c.windImpactHz
  ratio : 0 < c.windImpactSupplyRatio
  nat : 0 < c.areaNaturallyLightedRatio
  lux : 0 < c.elightNatural

theorem facade_window_nonneg {x : Sim ℝ} (h : Physical x) (i : Fin 9) : 0 ≤ (facade x.bldg i).hWindow :=
  mul_nonneg (h.windowArea i) (h.windowU i)

theorem facade_wall {s : Structure ℝ} (i : Fin 9) :
    (facade s i).htot - (facade s i).hWindow = s.wallArea i * s.wallUniform i := by
  simp only [facade, structureCalculations]; ring

theorem physical_consts {x : Sim ℝ} (h : Physical x) : InitOk x ∧ ConstsPos (initConsts x) := by
  have h1 := h.floor
  have h2 := h.hci
  have h3 := h.hri
  have hms : (initConsts x).h_ms = x.simSettings.hci + x.simSettings.hri * 1.2 := rfl
  have hmsp : 0 < (initConsts x).h_ms := by rw [hms]; positivity
  have hmslt : x.simSettings.hci < (initConsts x).h_ms := by
    rw [hms]; have : 0 < x.simSettings.hri * 1.2 := by positivity
    linarith
  have hdiff : 0 < 1.0 / x.simSettings.hci - 1.0 / (initConsts x).h_ms := by
    have := one_div_lt_one_div_of_lt h2 hmslt
    norm_num; simpa using this
  have hHms : (initConsts x).H_ms = (initConsts x).h_ms * (initConsts x).Am := rfl
  have hAm : 2.5 ≤ (initConsts x).Am := (amOfCm_bounds _).1
  have hAmp : 0 < (initConsts x).Am := lt_of_lt_of_le (by norm_num) hAm
  have hHmsp : 0 < (initConsts x).H_ms := by rw [hHms]; positivity
  have hop : (initConsts x).hOpaqueWperkm2 =
      max ((∑ i, x.bldg.wallArea i * x.bldg.wallUniform i) / x.bldg.floorArea) 0.000001 := by
    have : (initConsts x).hOpaqueWperkm2 =
      cmax (csum (nine fun i => (facade x.bldg i).htot - (facade x.bldg i).hWindow) / x.bldg.floorArea) 0.000001 := rfl
    rw [this, csum_nine_real, cmax_real]
    simp only [facade_wall]
  have hopp : 0 < (initConsts x).hOpaqueWperkm2 := by
    rw [hop]; exact lt_max_of_lt_right (by norm_num)
  have hoplt : (initConsts x).hOpaqueWperkm2 < (initConsts x).H_ms := by
    rw [hop, hHms]
    refine lt_of_lt_of_le h.opaque_ ?_
    rw [hms]
    have : 0 < x.simSettings.hci + x.simSettings.hri * 1.2 := by positivity
    nlinarith
  have hemd : 0 < 1.0 / (initConsts x).hOpaqueWperkm2 - 1.0 / (initConsts x).H_ms := by
    have := one_div_lt_one_div_of_lt hopp hoplt
    norm_num; simpa using this
  have hwsum : 0 ≤ ∑ i, (facade x.bldg i).hWindow :=
    Finset.sum_nonneg fun i _ => facade_window_nonneg h i
  have hwall : 0 ≤ ∑ i, x.bldg.wallArea i := Finset.sum_nonneg fun i _ => h.wallArea i
  refine ⟨⟨h1.ne', h2.ne', hmsp.ne', hdiff.ne', h.totalArea.ne', h.irradiance.ne', hopp.ne', hHmsp.ne', hemd.ne'⟩, ?_⟩
  refine ⟨?_, hHmsp, ?_, ?_, ?_, ?_, ?_, ?_, ?_, ?_⟩
  · have : (initConsts x).H_tris = 1.0 / (1.0 / x.simSettings.hci - 1.0 / (initConsts x).h_ms) *
      x.bldg.totalAreaPerFloorArea := rfl
    rw [this]; have := h.totalArea
    exact mul_pos (div_pos (by norm_num) hdiff) this
  · have : (initConsts x).hwindowWperkm2 = csum (nine fun i => (facade x.bldg i).hWindow) / x.bldg.floorArea := rfl
    rw [this, csum_nine_real]; positivity
  · have : (initConsts x).hem = 1.0 / (1.0 / (initConsts x).hOpaqueWperkm2 - 1.0 / (initConsts x).H_ms) := rfl
    rw [this]; exact div_pos (by norm_num) hemd
  · have : (initConsts x).Cm = x.bldg.interiorHeatCapacity / 1000.0 +
      (x.bldg.wallHeatCapacity * csum (nine x.bldg.wallArea) / x.bldg.floorArea) / 1000.0 := rfl
    rw [this, csum_nine_real]
    have := h.interiorHeatCapacity; have := h.wallHeatCapacity
    positivity
  · have : (initConsts x).q4Pa = cmax 0.000001
      (0.19 * (x.ventilation.n50 * (x.bldg.floorArea * x.bldg.buildingHeight)) / x.bldg.floorArea) := rfl
    rw [this, cmax_real]; exact lt_max_of_lt_left (by norm_num)
  · have : (initConsts x).windImpactHz = cmax 0.1 x.ventilation.hzone := rfl
    rw [this, cmax_real]; exact lt_max_of_lt_left (by norm_num)
  · have : (initConsts x).windImpactSupplyRatio = cmax 0.00001 x.ventilation.fanControlFactor := rfl
    rw [this, cmax_real]; exact lt_max_of_lt_left (by norm_num)
  · have : (initConsts x).areaNaturallyLightedRatio = cmax 0.0001 x.lights.naturallyLightedArea / x.bldg.floorArea := rfl
    rw [this, cmax_real]; exact div_pos (lt_max_of_lt_left (by norm_num)) h1
  · have : (initConsts x).elightNatural =
      (lightingControl x.building.lightingOccupancySensor x.lights.dimmingFraction x.lights).2 := rfl
    rw [this]
    unfold lightingControl
    cases clt x.building.lightingOccupancySensor 1.0 <;> cases clt x.lights.dimmingFraction 1.0
    · exact h.luxManual
    · exact h.luxAuto
    · exact h.luxSensor
    · exact h.luxBoth

theorem qStack_pos {c : Consts ℝ} (h : ConstsPos c) (t ti : ℝ) : 0 < qStack c t ti := by
  have h1 := h.q4Pa
  have h2 := h.hz
  have h3 : (0:ℝ) < max 0.00001 (cabs (t - ti)) := lt_max_of_lt_left (by norm_num)
  unfold qStack
  rw [cmax_real, cpow_real]
  have : (0:ℝ) < 0.5 * c.windImpactHz * max 0.00001 (cabs (t - ti)) := by positivity
  have := Real.rpow_pos_of_pos this 0.667
  positivity

theorem qWind_nonneg {v : Ventilation ℝ} {c : Consts ℝ} (h : ConstsPos c) {w : ℝ} (hd : 0 ≤ v.dCp) :
    0 ≤ qWind v c w := by
  have h1 := h.q4Pa
  unfold qWind
  rw [cpow_real]
  have : 0 ≤ v.dCp * w * w := by rw [mul_assoc]; exact mul_nonneg hd (mul_self_nonneg w)
  have := Real.rpow_nonneg this 0.667
  positivity

theorem airFlow_eq (v : Ventilation ℝ) (c : Consts ℝ) (vent t w ti : ℝ) :
    (airFlow v c vent t w ti).qEnteringTotal =
      max 0.0 (-(vent * c.windImpactSupplyRatio - vent)) +
      max 0.0 (max (qStack c t ti) (qWind v c w) - |-(vent * c.windImpactSupplyRatio - vent)| *
        (0.5 * qStack c t ti + 0.667 * qWind v c w / (qStack c t ti + qWind v c w))) +
      vent * c.windImpactSupplyRatio := by
  simp only [airFlow, qStack, qWind, realnum]

theorem qEnteringTotal_pos {v : Ventilation ℝ} {c : Consts ℝ} (h : ConstsPos c) {vent : ℝ} (hv : 0 ≤ vent) (t w ti : ℝ) :
    0 < (airFlow v c vent t w ti).qEnteringTotal := by
  rw [airFlow_eq]
  have hs := qStack_pos h t ti
  have hr := h.ratio
  rcases hv.eq_or_lt with rfl | hv
  · simp only [zero_mul, sub_zero, neg_zero, abs_zero, add_zero]
    have h0 : (0.0:ℝ) = 0 := by norm_num
    rw [h0]
    have : 0 < max (qStack c t ti) (qWind v c w) := lt_max_of_lt_left hs
    have := lt_max_of_lt_right (b := 0) this
    simpa using this
  · have h1 : (0:ℝ) ≤ max 0.0 (-(vent * c.windImpactSupplyRatio - vent)) := le_max_of_le_left (by norm_num)
    have h2 : (0:ℝ) ≤ max 0.0 (max (qStack c t ti) (qWind v c w) - |-(vent * c.windImpactSupplyRatio - vent)| *
        (0.5 * qStack c t ti + 0.667 * qWind v c w / (qStack c t ti + qWind v c w))) := le_max_of_le_left (by norm_num)
    have : 0 < vent * c.windImpactSupplyRatio := by positivity
    linarith

theorem network_pos {x : Sim ℝ} {c : Consts ℝ} (h : ConstsPos c) {a : Air ℝ} (ha : 0 < a.qEnteringTotal) (t qs pi : ℝ) :
    NetPos (network x c a t qs pi) := by
  have k0 : (1.0:ℝ) = 1 := by norm_num
  have hei : 0 < (network x c a t qs pi).hei := by simp only [network]; positivity
  have e1 : (network x c a t qs pi).h1 =
      1 / (1 / (network x c a t qs pi).hei + 1 / (network x c a t qs pi).H_tris) := by simp only [network, k0]
  have hT : 0 < (network x c a t qs pi).H_tris := h.H_tris
  have hM : 0 < (network x c a t qs pi).H_ms := h.H_ms
  have hW : 0 ≤ (network x c a t qs pi).hw := h.hw
  have h1 : 0 < (network x c a t qs pi).h1 := by rw [e1]; positivity
  have e2 : (network x c a t qs pi).h2 = (network x c a t qs pi).h1 + (network x c a t qs pi).hw := rfl
  have h2 : 0 < (network x c a t qs pi).h2 := by rw [e2]; positivity
  have e3 : (network x c a t qs pi).h3 =
      1 / (1 / (network x c a t qs pi).h2 + 1 / (network x c a t qs pi).H_ms) := by simp only [network, k0]
  have h3 : 0 < (network x c a t qs pi).h3 := by rw [e3]; positivity
  exact ⟨hei, h1, h2, h3, hM, hT, h.hem, hW, h.Cm, e1, e2, e3⟩

/-- change of the mass temperature per unit of heat flow -/
noncomputable def gainTm (n : Net ℝ) : ℝ := n.h3 * n.h1 / (n.h2 * n.hei) / (n.Cm / 3.6 + 0.5 * (n.h3 + n.hem))
/-- change of the air temperature per unit of heat flow -/
noncomputable def gainAir (n : Net ℝ) : ℝ :=
  (n.H_tris * ((n.H_ms * (0.5 * gainTm n) + n.h1 / n.hei) / (n.H_ms + n.hw + n.h1)) + 1) / (n.H_tris + n.hei)
/-- weight of the previous mass temperature -/
noncomputable def memory (n : Net ℝ) : ℝ :=
  (n.Cm / 3.6 - 0.5 * (n.h3 + n.hem)) / (n.Cm / 3.6 + 0.5 * (n.h3 + n.hem))

theorem denom_pos {n : Net ℝ} (h : NetPos n) : 0 < n.Cm / 3.6 + 0.5 * (n.h3 + n.hem) := by
  have := h.Cm; have := h.h3; have := h.hem; positivity

theorem tmNext_affine {n : Net ℝ} (h : NetPos n) (phi T : ℝ) :
    tmNext n phi T = tmNext n 0 0 + gainTm n * phi + memory n * T := by
  have h1 := h.hei.ne'
  have h2 := h.h2.ne'
  have h3 := (denom_pos h).ne'
  unfold tmNext gainTm memory
  generalize n.Cm / 3.6 + 0.5 * (n.h3 + n.hem) = D at *
  field_simp
  ring

theorem gainTm_pos {n : Net ℝ} (h : NetPos n) : 0 < gainTm n := by
  have := denom_pos h; have := h.h3; have := h.h1; have := h.h2; have := h.hei
  unfold gainTm; positivity

theorem memory_bounds {n : Net ℝ} (h : NetPos n) : -1 < memory n ∧ memory n < 1 := by
  have hd := denom_pos h
  have h1 := h.Cm; have h2 := h.h3; have h3 := h.hem
  unfold memory
  constructor
  · rw [lt_div_iff₀ hd]
    have : 0 < n.Cm / 3.6 := by positivity
    linarith
  · rw [div_lt_one hd]
    have : 0 < 0.5 * (n.h3 + n.hem) := by positivity
    linarith

theorem gainAir_pos {n : Net ℝ} (h : NetPos n) : 0 < gainAir n := by
  have := gainTm_pos h; have := h.H_tris; have := h.H_ms; have := h.hw; have := h.h1; have := h.hei
  unfold gainAir; positivity

/-- change of the air temperature per unit of initial mass temperature -/
noncomputable def memoryAir (n : Net ℝ) : ℝ :=
  n.H_tris * (n.H_ms * (0.5 * (1 + memory n)) / (n.H_ms + n.hw + n.h1)) / (n.H_tris + n.hei)

theorem tAir_affine {n : Net ℝ} (h : NetPos n) (phi T : ℝ) :
    tAir n phi T = tAir n 0 0 + gainAir n * phi + memoryAir n * T := by
  have h1 := h.hei.ne'
  have h2 : n.H_ms + n.hw + n.h1 ≠ 0 := by have := h.H_ms; have := h.hw; have := h.h1; positivity
  have h3 : n.H_tris + n.hei ≠ 0 := by have := h.H_tris; have := h.hei; positivity
  unfold tAir
  simp only []
  rw [tmNext_affine h phi T, tmNext_affine h 0 0]
  unfold gainAir memoryAir
  generalize tmNext n 0 0 = A
  generalize memory n = M
  generalize gainTm n = G
  field_simp
  ring

theorem phiActual_eq {n : Net ℝ} (h : NetPos n) (heat cool T : ℝ) :
    phiActual n heat cool T =
      max 0 ((heat - tAir n n.phii T) / gainAir n) + min ((cool - tAir n n.phii T) / gainAir n) 0 := by
  have hg := (gainAir_pos h).ne'
  have h10 : tAir n (n.phii + 10.0) T - tAir n n.phii T = 10 * gainAir n := by
    rw [tAir_affine h (n.phii + 10.0) T, tAir_affine h n.phii T]; norm_num; ring
  simp only [phiActual, realnum, h10]
  have e : ∀ y : ℝ, 10.0 * y / (10 * gainAir n) = y / gainAir n := by
    intro y; norm_num; rw [mul_div_mul_left _ _ (by norm_num)]
  rw [e, e]; norm_num

/-- the heat flow the thermostat asks for brings the air temperature into the allowed band -/
theorem tAir_controlled {n : Net ℝ} (h : NetPos n) {heat cool : ℝ} (hc : heat ≤ cool) (T : ℝ) :
    tAir n (phiActual n heat cool T + n.phii) T = max heat (min cool (tAir n n.phii T)) ∧
    (0 < phiActual n heat cool T ↔ tAir n n.phii T < heat) ∧
    (phiActual n heat cool T < 0 ↔ cool < tAir n n.phii T) := by
  have hg := gainAir_pos h
  have e : ∀ p, tAir n (p + n.phii) T = tAir n n.phii T + gainAir n * p := by
    intro p; rw [tAir_affine h (p + n.phii) T, tAir_affine h n.phii T]; ring
  rw [e, phiActual_eq h]
  generalize tAir n n.phii T = t0
  generalize gainAir n = g at hg
  have cancel : ∀ y : ℝ, g * (y / g) = y := by intro y; field_simp
  rcases lt_or_ge t0 heat with h1 | h1
  · have a1 : 0 < (heat - t0) / g := div_pos (by linarith) hg
    have a2 : 0 < (cool - t0) / g := div_pos (by linarith) hg
    rw [max_eq_right a1.le, min_eq_right a2.le, add_zero, cancel]
    have b1 : min cool t0 = t0 := min_eq_right (by linarith)
    rw [b1, max_eq_left h1.le]
    refine ⟨by ring, by simp [h1, a1], ?_⟩
    constructor <;> intro <;> linarith
  · have a1 : (heat - t0) / g ≤ 0 := div_nonpos_of_nonpos_of_nonneg (by linarith) hg.le
    rw [max_eq_left a1, zero_add]
    rcases lt_or_ge cool t0 with h2 | h2
    · have a2 : (cool - t0) / g < 0 := div_neg_of_neg_of_pos (by linarith) hg
      rw [min_eq_left a2.le, cancel, min_eq_left h2.le, max_eq_right hc]
      refine ⟨by ring, ?_, by simp [h2, a2]⟩
      constructor <;> intro <;> linarith
    · have a2 : 0 ≤ (cool - t0) / g := div_nonneg (by linarith) hg.le
      rw [min_eq_right a2, min_eq_right h2, max_eq_right h1]
      refine ⟨by ring, ?_, ?_⟩ <;> constructor <;> intro <;> linarith

end ISO.Hourly
