import Verif.Lemmas.HourlyYear

/-! Helper lemmas: the mass temperature from hour to hour. -/

namespace ISO.Hourly
open ISO CNum Dbl Spec

/-- the factor by which a difference of mass temperatures shrinks in one hour -/
noncomputable def decay (cm hem hms : ℝ) : ℝ :=
  max ((cm / 3.6 - 0.5 * hem) / (cm / 3.6 + 0.5 * hem))
    ((0.5 * (hem + hms) - cm / 3.6) / (0.5 * (hem + hms) + cm / 3.6))

theorem decay_lt {cm hem hms : ℝ} (h1 : 0 < cm) (h2 : 0 < hem) (h3 : 0 < hms) :
    0 ≤ decay cm hem hms ∧ decay cm hem hms < 1 := by
  have hc : 0 < cm / 3.6 := by positivity
  unfold decay
  generalize cm / 3.6 = c at *
  have a : 0 < 0.5 * hem := by positivity
  have b : 0.5 * hem < 0.5 * (hem + hms) := by norm_num; linarith
  generalize 0.5 * hem = g at *
  generalize 0.5 * (hem + hms) = k at *
  constructor
  · rcases le_total g c with h | h
    · exact le_max_of_le_left (div_nonneg (by linarith) (by linarith))
    · exact le_max_of_le_right (div_nonneg (by linarith) (by linarith))
  · refine max_lt ?_ ?_
    · rw [div_lt_one (by linarith)]; linarith
    · rw [div_lt_one (by linarith)]; linarith

/-- a slope `(c - g)/(c + g)` with `g` between the two conductances is at most the decay factor -/
theorem slope_le {cm hem hms g : ℝ} (h1 : 0 < cm) (h2 : 0 < hem) (h3 : 0.5 * hem ≤ g) (h4 : g ≤ 0.5 * (hem + hms)) :
    |(cm / 3.6 - g) / (cm / 3.6 + g)| ≤ decay cm hem hms := by
  have hc : 0 < cm / 3.6 := by positivity
  unfold decay
  generalize cm / 3.6 = c at *
  have a : 0 < 0.5 * hem := by positivity
  generalize 0.5 * hem = u at *
  generalize 0.5 * (hem + hms) = k at *
  have hg : 0 < g := by linarith
  have hk : 0 < k := by linarith
  rw [abs_le']
  constructor
  · apply le_max_of_le_left
    rw [div_le_div_iff₀ (by linarith) (by linarith)]; nlinarith
  · apply le_max_of_le_right
    rw [← neg_div, div_le_div_iff₀ (by linarith) (by linarith)]; nlinarith

/-- with the air temperature held by the thermostat -/
theorem slope_on {n : Net ℝ} (h : NetPos n) :
    ∃ g, 0.5 * n.hem ≤ g ∧ g ≤ 0.5 * (n.hem + n.H_ms) ∧
      memory n - gainTm n * memoryAir n / gainAir n = (n.Cm / 3.6 - g) / (n.Cm / 3.6 + g) := by
  obtain ⟨p1, p2, p3, p4, p5, p6, p7, p8, p9, e1, e2, e3⟩ := h
  have hc : 0 < n.Cm / 3.6 := by positivity
  unfold gainAir memoryAir
  have eg : gainTm n = n.h3 * n.h1 / (n.h2 * n.hei) / (n.Cm / 3.6 + 0.5 * (n.h3 + n.hem)) := rfl
  have em : memory n = (n.Cm / 3.6 - 0.5 * (n.h3 + n.hem)) / (n.Cm / 3.6 + 0.5 * (n.h3 + n.hem)) := rfl
  generalize n.Cm / 3.6 = c at *
  generalize memory n = mem at *
  generalize gainTm n = gt at *
  generalize n.hei = a at *
  generalize n.H_tris = t at *
  generalize n.H_ms = m at *
  generalize n.hw = w at *
  generalize n.hem = q at *
  have e1' : n.h1 = a * t / (a + t) := by rw [e1]; field_simp; ring
  have e3' : n.h3 = n.h2 * m / (n.h2 + m) := by rw [e3]; field_simp; ring
  have k1 : n.h3 * n.h1 / (n.h2 * a) = m * t / ((n.h2 + m) * (a + t)) := by
    rw [e3', e1']; field_simp
  have hS : m + w + n.h1 = n.h2 + m := by rw [e2]; ring
  have hM : t * n.h1 / a + (m + w + n.h1) = m + w + t := by
    rw [e1']; field_simp; ring
  generalize n.h1 = b1 at *
  generalize n.h2 = b2 at *
  generalize n.h3 = b3 at *
  have hk : 0 < m * t / ((b2 + m) * (a + t)) := by positivity
  rw [k1] at eg
  generalize hkk : m * t / ((b2 + m) * (a + t)) = k at *
  have hD : 0 < c + 0.5 * (b3 + q) := by positivity
  refine ⟨0.5 * (b3 + q + t * m * k / (m + w + t)), ?_, ?_, ?_⟩
  · have : 0 < t * m * k / (m + w + t) := by positivity
    nlinarith
  · have h1 : b3 + t * m * k / (m + w + t) ≤ m := by
      have e : b3 = m - m ^ 2 / (b2 + m) := by rw [e3']; field_simp; ring
      have : t * m * k / (m + w + t) ≤ m ^ 2 / (b2 + m) := by
        rw [← hkk, div_le_div_iff₀ (by positivity) (by positivity)]
        have : t * m * (m * t / ((b2 + m) * (a + t))) * (b2 + m) = m ^ 2 * (t ^ 2 / (a + t)) := by
          field_simp
        rw [this]
        apply mul_le_mul_of_nonneg_left _ (by positivity)
        rw [div_le_iff₀ (by positivity)]; nlinarith [mul_pos p1 p6, mul_nonneg p8 p1.le, mul_pos p5 p1, mul_pos p5 p6, mul_nonneg p8 p6.le]
      linarith
    linarith
  · have hM' : (t * ((m * (0.5 * gt) + b1 / a) / (m + w + b1)) + 1) / (t + a) =
        (0.5 * t * m * gt + (m + w + t)) / ((m + w + b1) * (t + a)) := by
      rw [← hM]; field_simp; ring
    have hmem : 1 + mem = 2 * c / (c + 0.5 * (b3 + q)) := by
      rw [em]; field_simp; norm_num; ring
    rw [hM', hmem, eg, em]
    have hw1 : 0 < m + w + b1 := by positivity
    have hw2 : 0 < m + w + t := by positivity
    have hta : 0 < t + a := by positivity
    have e0 : ((0.5:ℝ)) = 1 / 2 := by norm_num
    have hD2 : 0 < c + 1 / 2 * (b3 + q) := by positivity
    rw [e0]
    generalize m + w + b1 = S at *
    generalize hM2 : m + w + t = M at *
    generalize t + a = ta at *
    have hx : 0 < 1 / 2 * t * m * (k / (c + 1 / 2 * (b3 + q))) + M := by positivity
    have hy : 0 < c + 1 / 2 * (b3 + q + t * m * k / M) := by positivity
    generalize hDD : c + 1 / 2 * (b3 + q) = D at *
    have hbq : b3 + q = 2 * (D - c) := by rw [← hDD]; ring
    rw [hbq]
    have hden : c + 1 / 2 * (2 * (D - c) + t * m * k / M) = (D * M + 1 / 2 * t * m * k) / M := by
      field_simp; ring
    have hnum : c - 1 / 2 * (2 * (D - c) + t * m * k / M) = (2 * c * M - D * M - 1 / 2 * t * m * k) / M := by
      field_simp; ring
    rw [hden, hnum]
    have hz : 0 < D * M + 1 / 2 * t * m * k := by positivity
    have hx' : 1 / 2 * t * m * (k / D) + M = (D * M + 1 / 2 * t * m * k) / D := by field_simp; ring
    rw [hx']
    generalize hZ : D * M + 1 / 2 * t * m * k = Z at *
    field_simp
    rw [← hZ]; ring

/-- without heating and cooling -/
theorem slope_off {n : Net ℝ} (h : NetPos n) : |memory n| ≤ decay n.Cm n.hem n.H_ms := by
  have h1 : n.h3 ≤ n.H_ms := by
    rw [h.e3, div_le_iff₀ (by have := h.h2; have := h.H_ms; positivity)]
    have := h.h2; have := h.H_ms
    rw [mul_add, mul_one_div, mul_one_div, div_self h.H_ms.ne']
    have : 0 < n.H_ms / n.h2 := by positivity
    linarith
  have h2 := h.h3
  exact slope_le h.Cm h.hem (by linarith) (by linarith)

/-- mass temperature at the end of an hour, thermostat included -/
noncomputable def massNext (n : Net ℝ) (heat cool T : ℝ) : ℝ := tmNext n (phiActual n heat cool T + n.phii) T

theorem massNext_contract {n : Net ℝ} (h : NetPos n) {heat cool : ℝ} (hc : heat ≤ cool) (T T' : ℝ) :
    |massNext n heat cool T - massNext n heat cool T'| ≤ decay n.Cm n.hem n.H_ms * |T - T'| := by
  wlog hle : T' ≤ T generalizing T T'
  · rw [abs_sub_comm, abs_sub_comm T T']; exact this T' T (le_of_not_ge hle)
  have hg := gainAir_pos h
  have hgt := gainTm_pos h
  have hphi : ∀ T, phiActual n heat cool T =
      (max heat (min cool (tAir n n.phii T)) - tAir n n.phii T) / gainAir n := by
    intro T
    rw [← (tAir_controlled h hc T).1, tAir_affine h (phiActual n heat cool T + n.phii) T, tAir_affine h n.phii T]
    field_simp; ring
  have hm : 0 < memoryAir n := by
    have := memory_bounds h
    have : 0 < 1 + memory n := by linarith [this.1]
    have := h.H_tris; have := h.H_ms; have := h.hw; have := h.h1; have := h.hei
    unfold memoryAir; positivity
  have hu : tAir n n.phii T - tAir n n.phii T' = memoryAir n * (T - T') := by
    rw [tAir_affine h n.phii T, tAir_affine h n.phii T']; ring
  have hu0 : 0 ≤ memoryAir n * (T - T') := mul_nonneg hm.le (by linarith)
  have hd : massNext n heat cool T - massNext n heat cool T' = memory n * (T - T') +
      gainTm n / gainAir n * ((max heat (min cool (tAir n n.phii T)) - max heat (min cool (tAir n n.phii T')))
        - memoryAir n * (T - T')) := by
    unfold massNext
    rw [tmNext_affine h _ T, tmNext_affine h _ T', hphi T, hphi T', ← hu]
    field_simp; ring
  have hcl : 0 ≤ max heat (min cool (tAir n n.phii T)) - max heat (min cool (tAir n n.phii T')) ∧
      max heat (min cool (tAir n n.phii T)) - max heat (min cool (tAir n n.phii T')) ≤ memoryAir n * (T - T') := by
    rw [← hu] at hu0 ⊢
    generalize tAir n n.phii T = u at *
    generalize tAir n n.phii T' = v at *
    constructor
    · have : max heat (min cool v) ≤ max heat (min cool u) :=
        max_le_max le_rfl (min_le_min le_rfl (by linarith))
      linarith
    · have a1 : max heat (min cool u) ≤ max heat (min cool v) + (u - v) := by
        apply max_le
        · have := le_max_left heat (min cool v); linarith
        · have h2 := le_max_right heat (min cool v)
          rcases le_total cool v with hv | hv
          · rw [min_eq_left hv] at h2 ⊢
            have := min_le_left cool u; linarith
          · rw [min_eq_right hv] at h2 ⊢
            have := min_le_right cool u; linarith
      linarith
  generalize max heat (min cool (tAir n n.phii T)) - max heat (min cool (tAir n n.phii T')) = C at *
  have hG : 0 < gainTm n / gainAir n := by positivity
  have k1 := abs_le.mp (slope_off h)
  obtain ⟨g, g1, g2, g3⟩ := slope_on h
  have k2 := slope_le h.Cm h.hem g1 g2
  rw [← g3] at k2
  have k2 := abs_le.mp k2
  have hT : |T - T'| = T - T' := abs_of_nonneg (by linarith)
  have hT0 : 0 ≤ T - T' := by linarith
  rw [hd, hT, abs_le]
  constructor
  · have l1 : memory n * (T - T') + gainTm n / gainAir n * (C - memoryAir n * (T - T')) ≥
        (memory n - gainTm n * memoryAir n / gainAir n) * (T - T') := by
      have e : (memory n - gainTm n * memoryAir n / gainAir n) * (T - T') =
        memory n * (T - T') + gainTm n / gainAir n * (0 - memoryAir n * (T - T')) := by field_simp; ring
      rw [e]
      have := mul_le_mul_of_nonneg_left (sub_le_sub_right hcl.1 (memoryAir n * (T - T'))) hG.le
      linarith
    have := mul_le_mul_of_nonneg_right k2.1 hT0
    linarith
  · have l1 : gainTm n / gainAir n * (C - memoryAir n * (T - T')) ≤ 0 :=
      mul_nonpos_of_nonneg_of_nonpos hG.le (by linarith [hcl.2])
    have := mul_le_mul_of_nonneg_right k1.2 hT0
    linarith

end ISO.Hourly
