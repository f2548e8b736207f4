import Mathlib.Analysis.SpecialFunctions.Trigonometric.Basic
import Mathlib.Tactic.NormNum.OfScientific

/-!
# Specification: where the sun is and what a surface receives

Textbook formulas (ASHRAE Fundamentals), with angles given in degrees and the day counted from 0.
Directions are vectors (south, west, up), so no inverse function is needed.
-/

namespace ISO.Spec.Sun
open Real

/-- the constant the program uses for π -/
noncomputable def pi13 : ℝ := 3.1415926535897
/-- degrees to radians -/
noncomputable def deg (x : ℝ) : ℝ := x * pi13 / 180

/-- position of the earth on its orbit on day `n` -/
noncomputable def orbit (n : ℤ) : ℝ := 2 * pi13 * n / 365

/-- equation of time, minutes -/
noncomputable def equationOfTime (n : ℤ) : ℝ :=
  2.2918 * (0.0075 + 0.1868 * cos (orbit n) - 3.2077 * sin (orbit n) - 1.4615 * cos (2 * orbit n)
    - 4.089 * sin (2 * orbit n))

/-- declination of the sun, radians -/
noncomputable def declination (n : ℤ) : ℝ :=
  0.006918 - 0.399912 * cos (orbit n) + 0.070257 * sin (orbit n) - 0.006758 * cos (2 * orbit n)
    + 0.000907 * sin (2 * orbit n) - 0.002697 * cos (3 * orbit n) + 0.00148 * sin (3 * orbit n)

/-- apparent solar time (hours) at clock hour `h`, longitude `lon` (degrees east), time zone `tz` (hours) -/
noncomputable def solarTime (n h : ℤ) (lon : ℝ) (tz : ℤ) : ℝ := h + equationOfTime n / 60 + (lon - 15 * tz) / 15

/-- hour angle, radians: 15 degrees per hour from noon -/
noncomputable def hourAngle (n h : ℤ) (lon : ℝ) (tz : ℤ) : ℝ := deg (15 * (solarTime n h lon tz - 12))

/-- a place: latitude and longitude in degrees, time zone in hours -/
structure Place where
  lat : ℝ
  lon : ℝ
  tz : ℤ

/-- components of the direction to the sun -/
noncomputable def south (p : Place) (n h : ℤ) : ℝ :=
  cos (hourAngle n h p.lon p.tz) * cos (declination n) * sin (deg p.lat) - sin (declination n) * cos (deg p.lat)
noncomputable def west (p : Place) (n h : ℤ) : ℝ := sin (hourAngle n h p.lon p.tz) * cos (declination n)
noncomputable def up (p : Place) (n h : ℤ) : ℝ :=
  cos (deg p.lat) * cos (declination n) * cos (hourAngle n h p.lon p.tz) + sin (deg p.lat) * sin (declination n)

/-- azimuth of the surfaces S, SE, E, NE, N, NW, W, SW in degrees from south, west positive -/
noncomputable def facing : Fin 8 → ℝ
  | 0 => 0 | 1 => -45 | 2 => -90 | 3 => -135 | 4 => 180 | 5 => 135 | 6 => 90 | 7 => 45

/-- tilt of a wall: 90 degrees from horizontal -/
noncomputable def wall : ℝ := deg 90

/-- cosine of the angle between the direction to the sun and the outward normal of a wall -/
noncomputable def cosIncidence (p : Place) (n h : ℤ) (k : Fin 8) : ℝ :=
  south p n h * (sin wall * cos (deg (facing k))) + west p n h * (sin wall * sin (deg (facing k)))
    + up p n h * cos wall

/-- beam radiation received by the wall -/
noncomputable def direct (beam c : ℝ) : ℝ := beam * max c 0
/-- sky radiation received by the wall -/
noncomputable def sky (diffuse c : ℝ) : ℝ :=
  diffuse * (max 0.45 (0.55 + 0.437 * c + 0.313 * c ^ 2) * sin wall + cos wall)
/-- radiation reflected by the ground (reflectance 0.14) -/
noncomputable def ground (beam diffuse u : ℝ) : ℝ := (beam * u + diffuse) * 0.14 * (1 - cos wall) / 2

end ISO.Spec.Sun
