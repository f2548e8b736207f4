import Verif.Model.Solar
import Verif.Num.Lemmas
import Verif.Lemmas.TimeFrame
import Mathlib.Analysis.Real.Pi.Bounds
import Mathlib.Analysis.SpecialFunctions.Trigonometric.Bounds

/-! Helper lemmas: solar geometry. -/

namespace ISO.Solar
open ISO CNum Dbl Epw

/-- `cos a cos b cos c + sin a sin b` is between -1 and 1 -/
theorem dir_bound (a b c : ℝ) :
    -1 ≤ Real.cos a * Real.cos b * Real.cos c + Real.sin a * Real.sin b ∧
    Real.cos a * Real.cos b * Real.cos c + Real.sin a * Real.sin b ≤ 1 := by
  have h1 := Real.sin_sq_add_cos_sq a
  have h2 := Real.sin_sq_add_cos_sq b
  have h3 := Real.sin_sq_add_cos_sq c
  have key : (Real.cos a * Real.cos b * Real.cos c + Real.sin a * Real.sin b) ^ 2 ≤ 1 := by
    have e : (Real.cos a * Real.cos b * Real.cos c + Real.sin a * Real.sin b) ^ 2 +
        ((Real.sin c * Real.cos b) ^ 2 + (Real.cos c * Real.cos b * Real.sin a - Real.sin b * Real.cos a) ^ 2) = 1 := by
      have s1 : Real.sin a ^ 2 = 1 - Real.cos a ^ 2 := by linarith
      have s2 : Real.sin b ^ 2 = 1 - Real.cos b ^ 2 := by linarith
      have s3 : Real.sin c ^ 2 = 1 - Real.cos c ^ 2 := by linarith
      linear_combination (Real.cos b ^ 2 * Real.cos c ^ 2 + Real.sin b ^ 2) * h1 + h2 + Real.cos b ^ 2 * h3
    nlinarith [sq_nonneg (Real.sin c * Real.cos b),
      sq_nonneg (Real.cos c * Real.cos b * Real.sin a - Real.sin b * Real.cos a)]
  exact abs_le.mp (abs_le_one_iff_mul_self_le_one.mpr (by nlinarith [key]))

/-- the other two components of the direction of the sun -/
theorem dir_identity (a b c : ℝ) :
    (Real.cos a * Real.cos b * Real.cos c + Real.sin a * Real.sin b) ^ 2 +
        ((Real.sin c * Real.cos b) ^ 2 + (Real.cos c * Real.cos b * Real.sin a - Real.sin b * Real.cos a) ^ 2) = 1 := by
  have h1 := Real.sin_sq_add_cos_sq a
  have h2 := Real.sin_sq_add_cos_sq b
  have h3 := Real.sin_sq_add_cos_sq c
  linear_combination (Real.cos b ^ 2 * Real.cos c ^ 2 + Real.sin b ^ 2) * h1 + h2 + Real.cos b ^ 2 * h3

theorem PI_pos : (0:ℝ) < PI := by unfold PI; norm_num
theorem PI_lt : (PI:ℝ) < Real.pi := by
  unfold PI; refine lt_trans ?_ Real.pi_gt_d20; norm_num
theorem PI_close : Real.pi - (PI:ℝ) < 1e-12 := by
  have := Real.pi_lt_d20
  unfold PI; norm_num at *; linarith

/-! ### finiteness -/

theorem fin_PI : (PI : Dbl) = fin PI := rfl

def Site.map {α β : Type} (f : α → β) (s : Site α) : Site β :=
  ⟨f s.surfaceTilt, f s.localMeridian, f s.longitude, f s.latitude, f s.groundReflectance⟩
def Sun.map {α β : Type} (f : α → β) (s : Sun α) : Sun β := ⟨f s.altitude, f s.azimuth⟩

theorem site_fin (w : Weather ℝ) : site (w.map fin) = (site w).map fin := by
  have h1 : (180.0 : ℝ) ≠ 0 := by norm_num
  have h2 : (2.0 : ℝ) ≠ 0 := by norm_num
  simp only [site, Weather.map, Site.map, fin_PI, dblfin, ne_eq, h1, h2, not_false_eq_true]

theorem solarAltitude_fin (s : Site ℝ) (d h : ℝ) :
    solarAltitude (s.map fin) (fin d) (fin h) = fin (solarAltitude s d h) := by
  have hb := dir_bound s.latitude d h
  simp only [solarAltitude, Site.map, dblfin]
  exact fin_casin hb.1 hb.2

/-- declination and hour angle of one hour, as computed -/
noncomputable def decl (day : Int) : ℝ := solarDeclination (revolutionAngle day)
noncomputable def hourAngle (s : Site ℝ) (day hour : Int) : ℝ :=
  solarHourAngle (apparentSolarTime s hour (equationOfTime (revolutionAngle day)))

theorem sun_altitude (s : Site ℝ) (day hour : Int) :
    (sun s day hour).altitude = Real.arcsin (Real.cos s.latitude * Real.cos (decl day) * Real.cos (hourAngle s day hour)
      + Real.sin s.latitude * Real.sin (decl day)) := rfl

theorem sin_altitude (s : Site ℝ) (day hour : Int) :
    Real.sin (sun s day hour).altitude = Real.cos s.latitude * Real.cos (decl day) * Real.cos (hourAngle s day hour)
      + Real.sin s.latitude * Real.sin (decl day) := by
  rw [sun_altitude]
  exact Real.sin_arcsin (dir_bound _ _ _).1 (dir_bound _ _ _).2

theorem cos_altitude_nonneg (s : Site ℝ) (day hour : Int) : 0 ≤ Real.cos (sun s day hour).altitude := by
  rw [sun_altitude]; exact Real.cos_arcsin_nonneg _

theorem sun_fin (s : Site ℝ) (day hour : Int) (h : Real.cos (sun s day hour).altitude ≠ 0) :
    sun (s.map fin) day hour = (sun s day hour).map fin := by
  have h1 : (365.0 : ℝ) ≠ 0 := by norm_num
  have h2 : (60.0 : ℝ) ≠ 0 := by norm_num
  have h3 : (12.0 : ℝ) ≠ 0 := by norm_num
  have h4 : (PI : ℝ) / 12.0 ≠ 0 := by have := PI_pos; positivity
  have h5 : (180.0 : ℝ) ≠ 0 := by norm_num
  have e1 : (revolutionAngle day : Dbl) = fin (revolutionAngle day) := by
    simp only [revolutionAngle, fin_PI, dblfin, ne_eq, h1, not_false_eq_true]
  have e2 : ∀ r : ℝ, equationOfTime (fin r) = fin (equationOfTime r) := by
    intro r; simp only [equationOfTime, dblfin]
  have e3 : ∀ r : ℝ, apparentSolarTime (s.map fin) hour (fin r) = fin (apparentSolarTime s hour r) := by
    intro r
    simp only [apparentSolarTime, fin_PI, dblfin, ne_eq, h2, h3, h4, not_false_eq_true, Site.map]
  have e4 : ∀ r : ℝ, solarDeclination (fin r) = fin (solarDeclination r) := by
    intro r; simp only [solarDeclination, dblfin]
  have e5 : ∀ r : ℝ, solarHourAngle (fin r) = fin (solarHourAngle r) := by
    intro r; simp only [solarHourAngle, fin_PI, dblfin, ne_eq, h5, not_false_eq_true]
  have h6 : ccos (sun s day hour).altitude ≠ 0 := h
  simp only [sun] at h6
  simp only [sun, e1, e2, e3, e4, e5, solarAltitude_fin, Sun.map]
  simp only [solarAzimuthSin, solarAzimuthCos, solarAzimuth, Site.map, dblfin, ne_eq, h6, not_false_eq_true]

theorem sun_altitude_fin (s : Site ℝ) (day hour : Int) :
    (sun (s.map fin) day hour).altitude = fin (sun s day hour).altitude := by
  have h1 : (365.0 : ℝ) ≠ 0 := by norm_num
  have h2 : (60.0 : ℝ) ≠ 0 := by norm_num
  have h3 : (12.0 : ℝ) ≠ 0 := by norm_num
  have h4 : (PI : ℝ) / 12.0 ≠ 0 := by have := PI_pos; positivity
  have h5 : (180.0 : ℝ) ≠ 0 := by norm_num
  have e1 : (revolutionAngle day : Dbl) = fin (revolutionAngle day) := by
    simp only [revolutionAngle, fin_PI, dblfin, ne_eq, h1, not_false_eq_true]
  have e2 : ∀ r : ℝ, equationOfTime (fin r) = fin (equationOfTime r) := by
    intro r; simp only [equationOfTime, dblfin]
  have e3 : ∀ r : ℝ, apparentSolarTime (s.map fin) hour (fin r) = fin (apparentSolarTime s hour r) := by
    intro r
    simp only [apparentSolarTime, fin_PI, dblfin, ne_eq, h2, h3, h4, not_false_eq_true, Site.map]
  have e4 : ∀ r : ℝ, solarDeclination (fin r) = fin (solarDeclination r) := by
    intro r; simp only [solarDeclination, dblfin]
  have e5 : ∀ r : ℝ, solarHourAngle (fin r) = fin (solarHourAngle r) := by
    intro r; simp only [solarHourAngle, fin_PI, dblfin, ne_eq, h5, not_false_eq_true]
  simp only [sun, e1, e2, e3, e4, e5, solarAltitude_fin]

theorem aoi_bound (alt az t : ℝ) : -1 ≤ Real.cos alt * Real.cos az * Real.sin t + Real.sin alt * Real.cos t ∧
    Real.cos alt * Real.cos az * Real.sin t + Real.sin alt * Real.cos t ≤ 1 := by
  have h := dir_bound alt (Real.pi / 2 - t) az
  rw [Real.cos_pi_div_two_sub, Real.sin_pi_div_two_sub] at h
  constructor <;> nlinarith [h.1, h.2]

theorem cpow_two_fin (a : ℝ) : cpow (fin a) (fin 2.0) = fin (cpow a 2.0) := by
  show Dbl.pow _ _ = _
  have h2 : (2.0 : ℝ) = 2 := by norm_num
  have h1 : ¬ (a < 0 ∧ ¬ ∃ n : ℤ, (2.0 : ℝ) = n) := by
    rintro ⟨-, h⟩; exact h ⟨2, by norm_num⟩
  have h3 : ¬ (a = 0 ∧ (2.0 : ℝ) < 0) := by rintro ⟨-, h⟩; norm_num at h
  simp only [Dbl.pow]
  rw [if_neg h1, if_neg h3]; rfl

theorem angleOfIncidence_fin (alt az surf t : ℝ) :
    angleOfIncidence (fin alt) (surfaceSolarAzimuth (fin az) (fin surf)) (fin t) =
      fin (angleOfIncidence alt (surfaceSolarAzimuth az surf) t) := by
  have hb := aoi_bound alt |az - surf| t
  simp only [angleOfIncidence, surfaceSolarAzimuth, dblfin]
  exact fin_cacos hb.1 hb.2

theorem surfaceIrradiance_fin (s : Site ℝ) (p : Sun ℝ) (eb ed az : ℝ) :
    surfaceIrradiance (s.map fin) (p.map fin) (fin eb) (fin ed) (fin az) = fin (surfaceIrradiance s p eb ed az) := by
  have h2 : (2.0 : ℝ) ≠ 0 := by norm_num
  have hb := aoi_bound p.altitude |p.azimuth - az| s.surfaceTilt
  have e1 : angleOfIncidence (fin p.altitude) (surfaceSolarAzimuth (fin p.azimuth) (fin az)) (fin s.surfaceTilt) =
      fin (angleOfIncidence p.altitude (surfaceSolarAzimuth p.azimuth az) s.surfaceTilt) := by
    simp only [angleOfIncidence, surfaceSolarAzimuth, dblfin]
    exact fin_cacos hb.1 hb.2
  have e2 : ∀ r : ℝ, diffuseFactor (fin r) = fin (diffuseFactor r) := by
    intro r; simp only [diffuseFactor, dblfin, cpow_two_fin]
  simp only [surfaceIrradiance, Sun.map, Site.map, e1, e2]
  simp only [groundReflected, directBeam, diffuseIrradiance, totalIrradiance, fin_PI, dblfin, ne_eq, h2, not_false_eq_true]

theorem surfaceAzimuths_fin (i : Fin 8) : (surfaceAzimuths i : Dbl) = fin (surfaceAzimuths i) := by
  have h2 : (2.0 : ℝ) ≠ 0 := by norm_num
  have h4 : (4.0 : ℝ) ≠ 0 := by norm_num
  fin_cases i <;> simp only [surfaceAzimuths, fin_PI, dblfin, ne_eq, h2, h4, not_false_eq_true]

theorem eglobe_fin (w : Weather ℝ) (i : Fin 8760) (surf : Fin 8)
    (h : Real.cos (sun (site w) (sliceAt i).ytd (sliceAt i).hour).altitude ≠ 0) :
    eglobe (w.map fin) i surf = fin (eglobe w i surf) := by
  simp only [eglobe, site_fin, sun_fin _ _ _ h, surfaceAzimuths_fin]
  exact surfaceIrradiance_fin _ _ _ _ _

/-- the calendar of hour `i` -/
theorem sliceAt_spec (i : Fin 8760) :
    (sliceAt i).ytd = i.1 / 24 ∧ (sliceAt i).hour = i.1 % 24 ∧ (sliceAt i).dayOfWeek = (i.1 / 24) % 7 := by
  have h : i.1 < TimeFrame.slices.length := by rw [TimeFrame.slices_length]; exact i.2
  have e : sliceAt i = TimeFrame.slices[i.1] := by
    unfold sliceAt; rw [List.getD_eq_getElem?_getD, List.getElem?_eq_getElem h]; rfl
  obtain ⟨hv, hh, h2, h3, h4⟩ := TimeFrame.slices_get i.1 h
  rw [e]
  refine ⟨h3, ?_, h4⟩
  have := hv.2.2.2.2
  unfold Spec.hourOfYear at hh
  omega

theorem sliceAt_eq (i : Fin 8760) :
    (((sliceAt i).ytd : ℕ) : ℤ) = (i.1 / 24 : ℕ) ∧ (((sliceAt i).hour : ℕ) : ℤ) = (i.1 % 24 : ℕ) := by
  obtain ⟨h1, h2, -⟩ := sliceAt_spec i
  rw [h1, h2]; exact ⟨rfl, rfl⟩

/-! ### azimuth -/

theorem azimuth_spec (s : Site ℝ) (day hour : Int) (h : Real.cos (sun s day hour).altitude ≠ 0) :
    Real.cos (sun s day hour).altitude * Real.sin (sun s day hour).azimuth =
      Real.sin (hourAngle s day hour) * Real.cos (decl day) ∧
    Real.cos (sun s day hour).altitude * Real.cos (sun s day hour).azimuth =
      Real.cos (hourAngle s day hour) * Real.cos (decl day) * Real.sin s.latitude
        - Real.sin (decl day) * Real.cos s.latitude := by
  set ca := Real.cos (sun s day hour).altitude with hca
  set S := Real.sin (hourAngle s day hour) * Real.cos (decl day) with hS
  set C := Real.cos (hourAngle s day hour) * Real.cos (decl day) * Real.sin s.latitude
        - Real.sin (decl day) * Real.cos s.latitude with hC
  have haz : (sun s day hour).azimuth = Complex.arg ⟨C / ca, S / ca⟩ := rfl
  have hid := dir_identity s.latitude (decl day) (hourAngle s day hour)
  have hs := sin_altitude s day hour
  have hsc := Real.sin_sq_add_cos_sq (sun s day hour).altitude
  have hsum : S ^ 2 + C ^ 2 = ca ^ 2 := by
    rw [hs] at hsc; rw [hS, hC, hca]; linarith
  have hn : ‖(⟨C / ca, S / ca⟩ : ℂ)‖ = 1 := by
    rw [Complex.norm_def, Complex.normSq_mk]
    have : C / ca * (C / ca) + S / ca * (S / ca) = 1 := by
      field_simp; linarith
    rw [this, Real.sqrt_one]
  have hne : (⟨C / ca, S / ca⟩ : ℂ) ≠ 0 := by
    intro h0; rw [h0, norm_zero] at hn; exact zero_ne_one hn
  rw [haz, Complex.sin_arg, Complex.cos_arg hne, hn]
  constructor <;> field_simp

end ISO.Solar
