import Verif.Props.Solar

/-! # C20: a facade can receive less than nothing, in a year of weather that the program accepts -/

namespace ISO.Props
open ISO ISO.Solar ISO.Epw CNum Dbl SunLemmas
open ISO.Spec

/-- **C20, below the horizon.** In an hour for which the weather file gives beam radiation but no diffuse radiation although the sun is
below the horizon, the irradiance of every facade that is turned away from the sun is negative. -/
theorem C20_night (w : Weather ℝ) (i : Fin 8760) (k : Fin 8)
    (hz : |Spec.Sun.up (place w) (i.1 / 24 : ℕ) (i.1 % 24 : ℕ)| < 1) (hup : Spec.Sun.up (place w) (i.1 / 24 : ℕ) (i.1 % 24 : ℕ) < 0)
    (hc : Spec.Sun.cosIncidence (place w) (i.1 / 24 : ℕ) (i.1 % 24 : ℕ) k ≤ 0) (hb : 0 < w.data EB i) (hd : w.data ED i = 0) :
    ∃ e, eglobe (w.map fin) i k = fin e ∧ e < 0 := by
  refine ⟨_, C20_sum w i k hz, ?_⟩
  obtain ⟨w1, w2, w3, w4, -⟩ := wall_trig
  unfold Spec.Sun.direct Spec.Sun.sky Spec.Sun.ground
  rw [max_eq_right hc, hd, mul_zero, zero_mul, zero_add, zero_add, add_zero]
  have h1 : w.data EB i * Spec.Sun.up (place w) (i.1 / 24 : ℕ) (i.1 % 24 : ℕ) < 0 := mul_neg_of_pos_of_neg hb hup
  have h2 : (0:ℝ) < 0.14 * (1 - Real.cos Spec.Sun.wall) := by
    have : Real.cos Spec.Sun.wall < 1 := by linarith
    have : (0:ℝ) < 1 - Real.cos Spec.Sun.wall := by linarith
    positivity
  rw [mul_assoc]
  exact div_neg_of_neg_of_pos (mul_neg_of_neg_of_pos h1 h2) (by norm_num)

/-- at midnight in Chicago the sun is below the horizon, in the north, on every day -/
theorem SunLemmas.midnight (n : ℤ) : Spec.Sun.up ⟨41.98, -87.92, -6⟩ n 0 < 0 ∧ Spec.Sun.south ⟨41.98, -87.92, -6⟩ n 0 < 0 := by
  unfold Spec.Sun.up Spec.Sun.south
  simp only
  have hpi : Spec.Sun.pi13 = 3.1415926535897 := rfl
  have c1 := Real.abs_cos_le_one (Spec.Sun.orbit n)
  have c2 := Real.abs_sin_le_one (Spec.Sun.orbit n)
  have c3 := Real.abs_cos_le_one (2 * Spec.Sun.orbit n)
  have c4 := Real.abs_sin_le_one (2 * Spec.Sun.orbit n)
  have c5 := Real.abs_cos_le_one (3 * Spec.Sun.orbit n)
  have c6 := Real.abs_sin_le_one (3 * Spec.Sun.orbit n)
  rw [abs_le] at c1 c2 c3 c4 c5 c6
  have d : |Spec.Sun.declination n| ≤ 0.49 := by
    unfold Spec.Sun.declination
    rw [abs_le]
    constructor <;> linarith [c1.1, c1.2, c2.1, c2.2, c3.1, c3.2, c4.1, c4.2, c5.1, c5.2, c6.1, c6.2]
  have p1 := Real.pi_gt_d6
  have p2 := Real.pi_lt_d6
  have e : |Spec.Sun.hourAngle n 0 (-87.92) (-6) + Real.pi| ≤ 0.141 := by
    unfold Spec.Sun.hourAngle Spec.Sun.solarTime Spec.Sun.equationOfTime Spec.Sun.deg
    rw [hpi, abs_le]
    push_cast
    constructor <;> linarith [c1.1, c1.2, c2.1, c2.2, c3.1, c3.2, c4.1, c4.2]
  generalize Spec.Sun.declination n = D at *
  generalize Spec.Sun.hourAngle n 0 (-87.92) (-6) = H at *
  have f : 0.732 ≤ Spec.Sun.deg 41.98 ∧ Spec.Sun.deg 41.98 ≤ 0.733 := by
    unfold Spec.Sun.deg
    rw [hpi]
    constructor <;> norm_num
  generalize Spec.Sun.deg 41.98 = F at *
  have q : ∀ (y b : ℝ), |y| ≤ b → 1 - b ^ 2 / 2 ≤ Real.cos y := by
    intro y b h
    have := Real.one_sub_sq_div_two_le_cos (x := y)
    have h2 : y ^ 2 ≤ b ^ 2 := sq_le_sq' (by linarith [(abs_le.mp h).1]) (abs_le.mp h).2
    linarith
  have q1 := q F 0.733 (abs_le.mpr ⟨by linarith [f.1], f.2⟩)
  have q2 := q D _ d
  have q3 := q (H + Real.pi) _ e
  rw [Real.cos_add_pi] at q3
  have q4 := Real.cos_le_one F
  have s0 : 0.63 ≤ Real.sin F := by
    have := Real.sin_gt_sub_cube (show 0 < F by linarith [f.1])
    have h3 : F ^ 3 ≤ 0.733 ^ 3 := by
      have := f.1
      have := f.2
      gcongr
    norm_num at h3 this ⊢
    linarith [f.1]
  have s1 : Real.sin F ≤ 0.733 := (Real.sin_le (by linarith [f.1])).trans f.2
  have s2 : |Real.sin D| ≤ 0.49 := (Real.abs_sin_le_abs).trans d
  rw [abs_le] at s2
  generalize Real.cos H = h at *
  generalize Real.cos D = cd at *
  generalize Real.cos F = cf at *
  generalize Real.sin F = sf at *
  generalize Real.sin D = sd at *
  have hcd : (0.87:ℝ) * 0.99 ≤ cd * -h := mul_le_mul (by linarith) (by linarith) (by norm_num) (by linarith)
  constructor
  · have m1 : (0.73:ℝ) * (0.87 * 0.99) ≤ cf * (cd * -h) := mul_le_mul (by linarith) hcd (by norm_num) (by linarith)
    have m2 : sf * sd ≤ 0.733 * 0.49 := by nlinarith [s2.1, s2.2]
    nlinarith
  · have m1 : (0.63:ℝ) * (0.87 * 0.99) ≤ sf * (cd * -h) := mul_le_mul (by linarith) hcd (by norm_num) (by linarith)
    have m2 : -(sd * cf) ≤ 0.49 := by nlinarith [s2.1, s2.2]
    nlinarith

/-- **C20, at midnight.** With the weather of Chicago in which a midnight hour has beam radiation and no diffuse radiation, the irradiance
of the south facade in that hour is negative: nothing in the program rejects or limits such data. -/
theorem C20_midnight (w : Weather ℝ) (h1 : w.latitude = 41.98) (h2 : w.longitude = -87.92) (h3 : w.timezone = -6) (i : Fin 8760) (hi : i.1 % 24 = 0) (hb : 0 < w.data EB i)
    (hd : w.data ED i = 0) : ∃ e, eglobe (w.map fin) i 0 = fin e ∧ e < 0 := by
  have hw : place w = ⟨41.98, -87.92, -6⟩ := by
    unfold place
    rw [h1, h2, h3]
  obtain ⟨u, s⟩ := SunLemmas.midnight ((i.1 / 24 : ℕ) : ℤ)
  refine C20_night w i 0 ?_ ?_ ?_ hb hd
  · refine C19_never_zenith _ ?_ ?_ _ _ <;> rw [hw] <;> simp only <;> rw [abs_of_pos (by norm_num)] <;> norm_num
  · rw [hw, hi]
    exact u
  · rw [hw, hi]
    obtain ⟨w1, w2, w3, w4, -⟩ := wall_trig
    have hsin : 0 ≤ Real.sin Spec.Sun.wall := by linarith
    unfold Spec.Sun.cosIncidence
    have h0 : Spec.Sun.deg (Spec.Sun.facing 0) = 0 := by
      unfold Spec.Sun.deg Spec.Sun.facing
      norm_num
    rw [h0, Real.cos_zero, Real.sin_zero, mul_one, mul_zero, mul_zero, add_zero]
    have h1 := mul_nonpos_of_nonpos_of_nonneg s.le hsin
    have h2 := mul_nonpos_of_nonpos_of_nonneg u.le w1.le
    push_cast at h1 h2 ⊢
    linarith

/-- the hypotheses of `C20_midnight` (and by its proof those of `C20_night`) are met: 100 W/m2 of beam radiation all year, midnight of the
first of July -/
example : ∃ e, eglobe ((⟨41.98, -87.92, -6, fun c _ => if c = EB then 100 else 0⟩ : Weather ℝ).map fin) ⟨24 * 181, by norm_num⟩ 0 = fin e ∧ e < 0 :=
  C20_midnight _ rfl rfl rfl _ rfl (by norm_num) (by show (if ED = EB then (100:ℝ) else 0) = 0; exact if_neg (by decide))

end ISO.Props
