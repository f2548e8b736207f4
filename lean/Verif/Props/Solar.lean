import Verif.Lemmas.Solar
import Verif.Spec.Sun
import Verif.Props.SmallOffice

/-!
# C19, C20: sun position and irradiance of the facades
-/

namespace ISO.Props
open ISO ISO.Solar ISO.Epw CNum Dbl
open ISO.Spec.Sun (Place)
namespace SunLemmas
open ISO.Spec

/-- the place of a weather record -/
def place (w : Weather ℝ) : Place := ⟨w.latitude, w.longitude, w.timezone⟩

theorem pi_eq : (PI : ℝ) = Sun.pi13 := rfl

theorem decl_eq (n : ℤ) : Solar.decl n = Sun.declination n := by
  simp only [Solar.decl, solarDeclination, revolutionAngle, Sun.declination, Sun.orbit, ← pi_eq, realnum]
  norm_num

theorem lat_eq (w : Weather ℝ) : (site w).latitude = Sun.deg w.latitude := by
  simp only [site, Sun.deg, ← pi_eq]; norm_num

theorem hourAngle_eq (w : Weather ℝ) (n h : ℤ) :
    Solar.hourAngle (site w) n h = Sun.hourAngle n h w.longitude w.timezone := by
  have h1 : (PI : ℝ) ≠ 0 := PI_pos.ne'
  simp only [Solar.hourAngle, solarHourAngle, apparentSolarTime, equationOfTime, revolutionAngle, Sun.hourAngle,
    Sun.deg, Sun.solarTime, Sun.equationOfTime, Sun.orbit, ← pi_eq, realnum, site]
  have e : (w.longitude * PI / 180.0 - (w.timezone : ℝ) * 15.0 * PI / 180.0) / (PI / 12.0)
      = (w.longitude - 15 * w.timezone) / 15 := by
    field_simp; norm_num; ring
  rw [e]; norm_num

theorem sinAlt_eq (w : Weather ℝ) (n h : ℤ) :
    Real.sin (sun (site w) n h).altitude = Sun.up (place w) n h := by
  rw [sin_altitude, decl_eq, lat_eq, hourAngle_eq]; rfl

theorem cosAlt_ne (w : Weather ℝ) (n h : ℤ) (hz : |Sun.up (place w) n h| < 1) :
    Real.cos (sun (site w) n h).altitude ≠ 0 := by
  intro h0
  have h1 := Real.sin_sq_add_cos_sq (sun (site w) n h).altitude
  rw [h0, sinAlt_eq] at h1
  have h2 := abs_lt.mp hz
  nlinarith [h2.1, h2.2]

theorem facing_eq (k : Fin 8) : (surfaceAzimuths k : ℝ) = Sun.deg (Sun.facing k) := by
  fin_cases k <;> simp only [surfaceAzimuths, Sun.deg, Sun.facing, ← pi_eq] <;> norm_num <;> ring

theorem wall_eq (w : Weather ℝ) : (site w).surfaceTilt = Sun.wall := by
  simp only [site, Sun.wall, Sun.deg, ← pi_eq]; norm_num; ring

/-- the cosine inside the `acos` is the dot product of the two directions -/
theorem cosInc_eq (w : Weather ℝ) (n h : ℤ) (k : Fin 8) (hz : |Sun.up (place w) n h| < 1) :
    Real.cos (angleOfIncidence (sun (site w) n h).altitude
      (surfaceSolarAzimuth (sun (site w) n h).azimuth (surfaceAzimuths k)) (site w).surfaceTilt)
      = Sun.cosIncidence (place w) n h k := by
  have hb := aoi_bound (sun (site w) n h).altitude
    (surfaceSolarAzimuth (sun (site w) n h).azimuth (surfaceAzimuths k)) (site w).surfaceTilt
  simp only [angleOfIncidence, realnum]
  rw [Real.cos_arccos hb.1 hb.2]
  simp only [surfaceSolarAzimuth, realnum, Real.cos_abs]
  obtain ⟨a1, a2⟩ := azimuth_spec (site w) n h (cosAlt_ne w n h hz)
  rw [decl_eq, hourAngle_eq] at a1 a2
  rw [lat_eq] at a2
  rw [Real.cos_sub, wall_eq, facing_eq, sinAlt_eq]
  unfold Sun.cosIncidence Sun.south Sun.west
  simp only [place] at *
  linear_combination Real.sin Sun.wall * Real.cos (Sun.deg (Sun.facing k)) * a2
    + Real.sin Sun.wall * Real.sin (Sun.deg (Sun.facing k)) * a1

theorem wall_pos : 0 < Sun.wall ∧ Sun.wall < Real.pi / 2 ∧ Real.pi / 2 - Sun.wall < 1e-12 := by
  have h1 := PI_pos; have h2 := PI_lt; have h3 := PI_close
  have e : Sun.wall = (PI:ℝ) / 2 := by simp only [Sun.wall, Sun.deg, ← pi_eq]; ring
  rw [e]; norm_num at *; refine ⟨by linarith, by linarith, by linarith⟩

theorem wall_trig : 0 < Real.cos Sun.wall ∧ Real.cos Sun.wall < 1e-12 ∧ Real.sin Sun.wall ≤ 1 ∧ 0 < Real.sin Sun.wall ∧
    0.45 ≤ 0.45 * Real.sin Sun.wall + Real.cos Sun.wall := by
  obtain ⟨h1, h2, h3⟩ := wall_pos
  have hpi := Real.pi_pos
  set e := Real.pi / 2 - Sun.wall with he
  have hc : Real.cos Sun.wall = Real.sin e := by rw [he, Real.sin_pi_div_two_sub]
  have hs : Real.sin Sun.wall = Real.cos e := by rw [he, Real.cos_pi_div_two_sub]
  have e0 : 0 < e := by linarith
  have e1 : e ≤ 1 := by norm_num at h3; linarith
  have k1 := Real.sin_lt e0
  have k2 := Real.sin_gt_sub_cube e0
  have k3 := Real.one_sub_sq_div_two_le_cos (x := e)
  have k4 := Real.cos_le_one e
  have e3 : e ^ 3 ≤ e ^ 2 := by nlinarith [sq_nonneg e]
  have e2 : e ^ 2 ≤ e := by nlinarith
  have e4 : e ^ 2 < 1e-12 := by linarith
  norm_num at *
  rw [hc, hs]
  refine ⟨by nlinarith, by linarith, k4, by linarith, by nlinarith⟩

end SunLemmas
open SunLemmas

/-- C19: for every day, hour, latitude, longitude and time zone the solar altitude is a number (the argument of
the arcsine is in [-1,1]) between -π/2 and π/2, and its sine is the vertical component of the direction to the
sun. -/
theorem C19_altitude (w : Weather ℝ) (day hour : ℤ) :
    ∃ a, (sun (site (w.map fin)) day hour).altitude = fin a ∧ -(Real.pi / 2) ≤ a ∧ a ≤ Real.pi / 2 ∧
      Real.sin a = Spec.Sun.up (place w) day hour := by
  refine ⟨(sun (site w) day hour).altitude, ?_, ?_, ?_, sinAlt_eq w day hour⟩
  · rw [site_fin]; exact sun_altitude_fin _ _ _
  · rw [sun_altitude]; exact Real.neg_pi_div_two_le_arcsin _
  · rw [sun_altitude]; exact Real.arcsin_le_pi_div_two _

/-- C19: unless the sun is exactly in the zenith or nadir, the azimuth is a number and altitude and azimuth give the
direction (south, west, up) to the sun. -/
theorem C19_azimuth (w : Weather ℝ) (day hour : ℤ) (hz : |Spec.Sun.up (place w) day hour| < 1) :
    ∃ a z, (sun (site (w.map fin)) day hour) = ⟨fin a, fin z⟩ ∧
      Real.cos a * Real.cos z = Spec.Sun.south (place w) day hour ∧
      Real.cos a * Real.sin z = Spec.Sun.west (place w) day hour ∧
      Real.sin a = Spec.Sun.up (place w) day hour := by
  have hc := cosAlt_ne w day hour hz
  obtain ⟨a1, a2⟩ := azimuth_spec (site w) day hour hc
  rw [decl_eq, hourAngle_eq] at a1 a2
  rw [lat_eq] at a2
  exact ⟨_, _, by rw [site_fin, sun_fin _ _ _ hc]; rfl, a2, a1, sinAlt_eq w day hour⟩

/-- C19: the direction to the sun is a unit vector. -/
theorem C19_unit (p : Place) (day hour : ℤ) :
    Spec.Sun.south p day hour ^ 2 + Spec.Sun.west p day hour ^ 2 + Spec.Sun.up p day hour ^ 2 = 1 := by
  have := dir_identity (Spec.Sun.deg p.lat) (Spec.Sun.declination day) (Spec.Sun.hourAngle day hour p.lon p.tz)
  unfold Spec.Sun.south Spec.Sun.west Spec.Sun.up; linarith

/-- C19: the angle of incidence on each facade is a number (the argument of the arccosine is in [-1,1]) between 0
and π, namely the angle between the direction to the sun and the normal of the facade. -/
theorem C19_incidence (w : Weather ℝ) (day hour : ℤ) (k : Fin 8)
    (hz : |Spec.Sun.up (place w) day hour| < 1) :
    ∃ t, angleOfIncidence (sun (site (w.map fin)) day hour).altitude
        (surfaceSolarAzimuth (sun (site (w.map fin)) day hour).azimuth (surfaceAzimuths k))
        (site (w.map fin)).surfaceTilt = fin t ∧ 0 ≤ t ∧ t ≤ Real.pi ∧
      Real.cos t = Spec.Sun.cosIncidence (place w) day hour k := by
  have hc := cosAlt_ne w day hour hz
  refine ⟨_, ?_, ?_, ?_, cosInc_eq w day hour k hz⟩
  · rw [site_fin, sun_fin _ _ _ hc, surfaceAzimuths_fin]
    exact angleOfIncidence_fin _ _ _ _
  · exact Real.arccos_nonneg _
  · exact Real.arccos_le_pi _

/-- C19: at latitudes between 28.1 and 90 degrees north or south the sun is never exactly in the zenith or nadir,
whatever the longitude, time zone, day and hour. -/
theorem C19_never_zenith (p : Place) (h1 : 28.1 ≤ |p.lat|) (h2 : |p.lat| ≤ 90) (day hour : ℤ) :
    |Spec.Sun.up p day hour| < 1 := by
  have hd : |Spec.Sun.declination day| ≤ 0.48993 := by
    unfold Spec.Sun.declination
    generalize Spec.Sun.orbit day = r
    have c1 := abs_le.mp (Real.abs_cos_le_one r)
    have c2 := abs_le.mp (Real.abs_cos_le_one (2 * r))
    have c3 := abs_le.mp (Real.abs_cos_le_one (3 * r))
    have s1 := abs_le.mp (Real.abs_sin_le_one r)
    have s2 := abs_le.mp (Real.abs_sin_le_one (2 * r))
    have s3 := abs_le.mp (Real.abs_sin_le_one (3 * r))
    rw [abs_le]
    constructor <;> norm_num <;> linarith [c1.1, c1.2, c2.1, c2.2, c3.1, c3.2, s1.1, s1.2, s2.1, s2.2, s3.1, s3.2]
  have hp : |Spec.Sun.deg p.lat| = |p.lat| * Spec.Sun.pi13 / 180 := by
    unfold Spec.Sun.deg Spec.Sun.pi13
    rw [abs_div, abs_mul]; norm_num [abs_of_pos]
  have hlo : 0.4904 < |Spec.Sun.deg p.lat| := by
    rw [hp]; unfold Spec.Sun.pi13; norm_num at h1 ⊢; linarith
  have hhi : |Spec.Sun.deg p.lat| < Real.pi / 2 := by
    rw [hp]; have := PI_lt; rw [pi_eq] at this
    have : |p.lat| * Spec.Sun.pi13 / 180 ≤ Spec.Sun.pi13 / 2 := by
      unfold Spec.Sun.pi13; norm_num; linarith
    linarith
  unfold Spec.Sun.up
  generalize Spec.Sun.deg p.lat = a at *
  generalize Spec.Sun.declination day = d at *
  have hpi := Real.pi_gt_three
  have ha := abs_lt.mp hhi
  have hd' := abs_le.mp hd
  have ca : 0 < Real.cos a := Real.cos_pos_of_mem_Ioo ⟨by linarith [ha.1], ha.2⟩
  have cd : 0 < Real.cos d := Real.cos_pos_of_mem_Ioo ⟨by norm_num at hd'; linarith [hd'.1], by norm_num at hd'; linarith [hd'.2]⟩
  have hlt : ∀ y, y ≠ 0 → |y| < Real.pi → Real.cos y < 1 := by
    intro y h0 hy
    have hy' := abs_lt.mp hy
    refine lt_of_le_of_ne (Real.cos_le_one y) ?_
    intro h
    rw [Real.cos_eq_one_iff_of_lt_of_lt (by linarith [hy'.1]) (by linarith [hy'.2])] at h
    exact h0 h
  have n1 : a - d ≠ 0 := by
    intro h; have : a = d := by linarith
    rw [this] at hlo; norm_num at *; linarith
  have n2 : a + d ≠ 0 := by
    intro h; have : a = -d := by linarith
    rw [this, abs_neg] at hlo; norm_num at *; linarith
  have b1 : |a - d| < Real.pi := by
    rw [abs_lt]; norm_num at hd'; constructor <;> linarith [hd'.1, hd'.2, ha.1, ha.2]
  have b2 : |a + d| < Real.pi := by
    rw [abs_lt]; norm_num at hd'; constructor <;> linarith [hd'.1, hd'.2, ha.1, ha.2]
  have k1 := hlt _ n1 b1
  have k2 := hlt _ n2 b2
  rw [Real.cos_sub] at k1
  rw [Real.cos_add] at k2
  have c1 := Real.cos_le_one (Spec.Sun.hourAngle day hour p.lon p.tz)
  have c2 := Real.neg_one_le_cos (Spec.Sun.hourAngle day hour p.lon p.tz)
  have m := mul_pos ca cd
  rw [abs_lt]
  constructor <;> nlinarith

/-- hypothesis met: Chicago -/
example : 28.1 ≤ |(place someWeather).lat| ∧ |(place someWeather).lat| ≤ 90 := by
  simp only [place, someWeather]; norm_num [abs_of_pos]

/-- C20: in every hour, the irradiance of each of the eight facades is the sum of beam, sky and ground-reflected
radiation. -/
theorem C20_sum (w : Weather ℝ) (i : Fin 8760) (k : Fin 8)
    (hz : |Spec.Sun.up (place w) (i.1 / 24 : ℕ) (i.1 % 24 : ℕ)| < 1) :
    eglobe (w.map fin) i k = fin (
      Spec.Sun.direct (w.data EB i) (Spec.Sun.cosIncidence (place w) (i.1 / 24 : ℕ) (i.1 % 24 : ℕ) k) +
      Spec.Sun.sky (w.data ED i) (Spec.Sun.cosIncidence (place w) (i.1 / 24 : ℕ) (i.1 % 24 : ℕ) k) +
      Spec.Sun.ground (w.data EB i) (w.data ED i) (Spec.Sun.up (place w) (i.1 / 24 : ℕ) (i.1 % 24 : ℕ))) := by
  obtain ⟨e1, e2⟩ := sliceAt_eq i
  have hc := cosAlt_ne w _ _ hz
  rw [eglobe_fin w i k (by rw [e1, e2]; exact hc)]
  congr 1
  simp only [eglobe, e1, e2, surfaceIrradiance]
  have hi := cosInc_eq w (i.1 / 24 : ℕ) (i.1 % 24 : ℕ) k hz
  have hs := sinAlt_eq w (i.1 / 24 : ℕ) (i.1 % 24 : ℕ)
  have hr : (site w).groundReflectance = 0.14 := rfl
  have ht : ¬ ((PI : ℝ) / 2.0 < Spec.Sun.wall) := by
    have e : Spec.Sun.wall = (PI:ℝ) / 2 := by simp only [Spec.Sun.wall, Spec.Sun.deg, ← pi_eq]; ring
    rw [e]; norm_num
  rw [wall_eq] at hi ⊢
  simp only [groundReflected, directBeam, diffuseIrradiance, totalIrradiance, diffuseFactor, realnum, hi, hs, hr,
    ht, Spec.Sun.direct, Spec.Sun.sky, Spec.Sun.ground]
  norm_num

/-- C20: for non-negative beam and diffuse radiation, the beam part is between 0 and the beam radiation and the sky
part between .45 and 1.3 times the diffuse radiation (up to the 13 decimals of the constant used for π). -/
theorem C20_bounds {beam diffuse : ℝ} (hb : 0 ≤ beam) (hd : 0 ≤ diffuse) (p : Place) (day hour : ℤ) (k : Fin 8) :
    (0 ≤ Spec.Sun.direct beam (Spec.Sun.cosIncidence p day hour k) ∧
      Spec.Sun.direct beam (Spec.Sun.cosIncidence p day hour k) ≤ beam) ∧
    (0.45 * diffuse ≤ Spec.Sun.sky diffuse (Spec.Sun.cosIncidence p day hour k) ∧
      Spec.Sun.sky diffuse (Spec.Sun.cosIncidence p day hour k) ≤ (1.3 + 1e-12) * diffuse) := by
  have hc : |Spec.Sun.cosIncidence p day hour k| ≤ 1 := by
    have hu := C19_unit p day hour
    have h1 := Real.sin_sq_add_cos_sq Spec.Sun.wall
    have h2 := Real.sin_sq_add_cos_sq (Spec.Sun.deg (Spec.Sun.facing k))
    rw [← sq_le_one_iff_abs_le_one]
    unfold Spec.Sun.cosIncidence
    generalize Spec.Sun.south p day hour = x at *
    generalize Spec.Sun.west p day hour = y at *
    generalize Spec.Sun.up p day hour = z at *
    generalize Real.sin Spec.Sun.wall = st at *
    generalize Real.cos Spec.Sun.wall = ct at *
    generalize Real.sin (Spec.Sun.deg (Spec.Sun.facing k)) = sf at *
    generalize Real.cos (Spec.Sun.deg (Spec.Sun.facing k)) = cf at *
    have hn : (st * cf) ^ 2 + (st * sf) ^ 2 + ct ^ 2 = 1 := by
      linear_combination h1 + st ^ 2 * h2
    nlinarith [sq_nonneg (x * (st * sf) - y * (st * cf)), sq_nonneg (x * ct - z * (st * cf)),
      sq_nonneg (y * ct - z * (st * sf))]
  obtain ⟨w1, w2, w3, w4, w5⟩ := wall_trig
  generalize Spec.Sun.cosIncidence p day hour k = c at *
  obtain ⟨c1, c2⟩ := abs_le.mp hc
  unfold Spec.Sun.direct Spec.Sun.sky
  have y1 : (0.45:ℝ) ≤ max 0.45 (0.55 + 0.437 * c + 0.313 * c ^ 2) := le_max_left _ _
  have y2 : max 0.45 (0.55 + 0.437 * c + 0.313 * c ^ 2) ≤ 1.3 := by
    refine max_le (by norm_num) ?_
    have : c ^ 2 ≤ 1 := by nlinarith
    norm_num; linarith
  generalize max 0.45 (0.55 + 0.437 * c + 0.313 * c ^ 2) = y at *
  refine ⟨⟨mul_nonneg hb (le_max_right _ _), ?_⟩, ?_, ?_⟩
  · calc beam * max c 0 ≤ beam * 1 := mul_le_mul_of_nonneg_left (max_le c2 zero_le_one) hb
      _ = beam := mul_one _
  · have : 0.45 ≤ y * Real.sin Spec.Sun.wall + Real.cos Spec.Sun.wall := by nlinarith
    nlinarith
  · have : y * Real.sin Spec.Sun.wall + Real.cos Spec.Sun.wall ≤ 1.3 + 1e-12 := by nlinarith
    nlinarith

/-- C20: when the sun is not below the horizon, the irradiance of every facade is at least .45 times the diffuse
radiation, in particular not negative, and at most 1.15 times the beam plus 1.5 times the diffuse radiation. -/
theorem C20_total (w : Weather ℝ) (i : Fin 8760) (k : Fin 8)
    (hz : |Spec.Sun.up (place w) (i.1 / 24 : ℕ) (i.1 % 24 : ℕ)| < 1)
    (hup : 0 ≤ Spec.Sun.up (place w) (i.1 / 24 : ℕ) (i.1 % 24 : ℕ))
    (hb : 0 ≤ w.data EB i) (hd : 0 ≤ w.data ED i) :
    ∃ e, eglobe (w.map fin) i k = fin e ∧ 0.45 * w.data ED i ≤ e ∧ e ≤ 1.15 * w.data EB i + 1.5 * w.data ED i := by
  refine ⟨_, C20_sum w i k hz, ?_⟩
  obtain ⟨⟨b1, b2⟩, b3, b4⟩ := C20_bounds hb hd (place w) (i.1 / 24 : ℕ) (i.1 % 24 : ℕ) k
  obtain ⟨w1, w2, -⟩ := wall_trig
  have hu := (abs_lt.mp hz).2
  have g0 : 0 ≤ w.data EB i * Spec.Sun.up (place w) (i.1 / 24 : ℕ) (i.1 % 24 : ℕ) + w.data ED i := by positivity
  have g1 : w.data EB i * Spec.Sun.up (place w) (i.1 / 24 : ℕ) (i.1 % 24 : ℕ) ≤ w.data EB i := by nlinarith
  have g : 0 ≤ Spec.Sun.ground (w.data EB i) (w.data ED i) (Spec.Sun.up (place w) (i.1 / 24 : ℕ) (i.1 % 24 : ℕ)) ∧
      Spec.Sun.ground (w.data EB i) (w.data ED i) (Spec.Sun.up (place w) (i.1 / 24 : ℕ) (i.1 % 24 : ℕ)) ≤
        0.07 * (w.data EB i + w.data ED i) := by
    unfold Spec.Sun.ground
    norm_num at w2
    constructor
    · have : 0 ≤ 1 - Real.cos Spec.Sun.wall := by linarith
      positivity
    · have gq : w.data EB i * Spec.Sun.up (place w) (i.1 / 24 : ℕ) (i.1 % 24 : ℕ) + w.data ED i ≤
          w.data EB i + w.data ED i := by linarith
      generalize w.data EB i * Spec.Sun.up (place w) (i.1 / 24 : ℕ) (i.1 % 24 : ℕ) + w.data ED i = q at *
      have : q * (1 - Real.cos Spec.Sun.wall) ≤ q := by nlinarith
      norm_num; nlinarith
  obtain ⟨g2, g3⟩ := g
  norm_num at *
  constructor <;> nlinarith

/-- C20: with the sun below the horizon the ground-reflected part is negative when a weather file gives beam
radiation; the total on a facade turned away from the sun can then be negative. -/
theorem C20_below_horizon (s : Site ℝ) (hs : s.groundReflectance = 0.14) (ht : s.surfaceTilt = Spec.Sun.wall) :
    ∃ e, surfaceIrradiance (s.map fin) (⟨fin (-(Real.pi / 2)), fin 0⟩ : Sun Dbl) (fin 100) (fin 0) (fin 0) = fin e
      ∧ e < 0 := by
  obtain ⟨w1, w2, w3, w4, -⟩ := wall_trig
  have hb := aoi_bound (-(Real.pi / 2)) |(0:ℝ) - 0| s.surfaceTilt
  have k : Real.cos (Real.arccos (-Real.cos Spec.Sun.wall)) = -Real.cos Spec.Sun.wall :=
    Real.cos_arccos (by linarith [Real.cos_le_one Spec.Sun.wall]) (by linarith)
  refine ⟨_, surfaceIrradiance_fin s ⟨-(Real.pi / 2), 0⟩ 100 0 0, ?_⟩
  simp only [surfaceIrradiance, groundReflected, directBeam, diffuseIrradiance, totalIrradiance, diffuseFactor,
    angleOfIncidence, surfaceSolarAzimuth, realnum, hs, ht, Real.sin_neg, Real.cos_neg, Real.sin_pi_div_two,
    Real.cos_pi_div_two, zero_mul, zero_add, neg_mul, one_mul, k]
  rw [max_eq_right (by norm_num; linarith)]
  norm_num at w2 ⊢
  linarith

end ISO.Props
