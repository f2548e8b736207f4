import Verif.Spec.Utilisation
import Verif.Lemmas.MonthlyStages
import Mathlib.Analysis.Convex.SpecificFunctions.Basic
import Mathlib.Analysis.SpecialFunctions.Pow.Deriv
import Mathlib.Analysis.Calculus.Deriv.Slope

/-! Helper lemmas: the utilisation factor.  `sec a γ` is the slope of `x ^ (a + 1)` between 1 and `γ`. -/

namespace ISO.Monthly
open ISO CNum Dbl ISO.Spec

noncomputable def sec (a γ : ℝ) : ℝ := (γ ^ (a + 1) - 1) / (γ - 1)

theorem pow_ne {a γ : ℝ} (ha : 0 < a) (hγ : 0 < γ) (h1 : γ ≠ 1) : (1 : ℝ) - γ ^ (a + 1) ≠ 0 := by
  intro h
  have h2 : γ ^ (a + 1) = 1 := by linarith
  rcases lt_or_gt_of_ne h1 with h3 | h3
  · have := Real.rpow_lt_one hγ.le h3 (by linarith : 0 < a + 1)
    linarith
  · have := Real.one_lt_rpow h3 (by linarith : 0 < a + 1)
    linarith

theorem sec_strictMono {a x y : ℝ} (ha : 0 < a) (hx : 0 ≤ x) (hx1 : x ≠ 1) (hy1 : y ≠ 1) (hxy : x < y) : sec a x < sec a y := by
  have hc := strictConvexOn_rpow (p := a + 1) (by linarith)
  have := hc.secant_strict_mono (a := 1) (x := x) (y := y) (by simp) (by simpa using hx)
    (by simpa using hx.trans hxy.le) hx1 hy1 hxy
  simpa [sec, Real.one_rpow] using this

theorem one_lt_sec {a γ : ℝ} (ha : 0 < a) (hγ : 0 < γ) (h1 : γ ≠ 1) : 1 < sec a γ := by
  have := sec_strictMono (x := 0) ha le_rfl zero_ne_one h1 hγ
  rwa [sec, Real.zero_rpow (by linarith : a + 1 ≠ 0), zero_sub, div_self (by norm_num)] at this

theorem sec_inertia {a b γ : ℝ} (hab : a < b) (hγ : 0 < γ) (h1 : γ ≠ 1) : sec a γ < sec b γ := by
  unfold sec
  rcases lt_or_gt_of_ne h1 with h | h
  · rw [div_lt_div_right_of_neg (by linarith)]
    have := Real.rpow_lt_rpow_of_exponent_gt hγ h (by linarith : a + 1 < b + 1)
    linarith
  · rw [div_lt_div_iff_of_pos_right (by linarith)]
    have := Real.rpow_lt_rpow_of_exponent_lt h (by linarith : a + 1 < b + 1)
    linarith

/-- `1 - γ η = 1 / sec` and `1 - η = γ ^ a / sec` -/
theorem util_sec {a γ : ℝ} (ha : 0 < a) (hγ : 0 < γ) (h1 : γ ≠ 1) :
    1 - γ * utilisation a γ = 1 / sec a γ ∧ 1 - utilisation a γ = γ ^ a / sec a γ := by
  have hne := pow_ne ha hγ h1
  have hne' : γ ^ (a + 1) - 1 ≠ 0 := by intro h; apply hne; linarith
  have hg : γ - 1 ≠ 0 := sub_ne_zero.mpr h1
  have hp : γ ^ (a + 1) = γ ^ a * γ := by rw [Real.rpow_add hγ, Real.rpow_one]
  unfold utilisation sec
  rw [if_neg h1]
  generalize γ ^ (a + 1) = q at *
  generalize γ ^ a = r at *
  constructor
  · field_simp
    rw [hp]; ring
  · field_simp
    rw [hp]; ring

theorem util_bounds {a γ : ℝ} (ha : 0 < a) (hγ : 0 < γ) (h1 : γ ≠ 1) :
    0 < utilisation a γ ∧ utilisation a γ < 1 ∧ γ * utilisation a γ < 1 := by
  obtain ⟨e1, e2⟩ := util_sec ha hγ h1
  have hs := one_lt_sec ha hγ h1
  have hp := Real.rpow_pos_of_pos hγ a
  have i1 : 0 < 1 / sec a γ := by positivity
  have i2 : 1 / sec a γ < 1 := by rw [div_lt_one (by linarith)]; exact hs
  have i3 : 0 < γ ^ a / sec a γ := by positivity
  refine ⟨?_, by linarith, by linarith⟩
  have : 0 < γ * utilisation a γ := by linarith
  exact (mul_pos_iff_of_pos_left hγ).mp this

theorem fin_eta {a γ : ℝ} (ha : 0 < a) (hγ : 0 < γ) (h1 : γ ≠ 1) :
    etaHeating (fin a) (fin γ) = fin (utilisation a γ) ∧ etaCooling (fin a) (fin γ) = fin (utilisation a γ) := by
  have hc : clt (0.0 : ℝ) γ = true := by rw [clt_real, zero_lit_real]; exact hγ
  have hne : (1.0 : ℝ) - cpow γ (a + 1.0) ≠ 0 := by
    have := pow_ne ha hγ h1
    rw [cpow_real]; norm_num; norm_num at this; exact this
  have key : (1.0 - cpow (fin γ) (fin a)) / (1.0 - cpow (fin γ) (fin a + 1.0)) = fin (utilisation a γ) := by
    rw [fin_lit, fin_add, fin_cpow _ hγ, fin_cpow _ hγ, fin_sub, fin_sub, fin_div _ hne, fin_inj, utilisation, if_neg h1,
      cpow_real, cpow_real]
    norm_num
  unfold etaHeating etaCooling
  rw [fin_lit, fin_clt, hc]
  exact ⟨key, key⟩

/-- need against a total of `L`, of which the utilised part of `g` is subtracted -/
theorem need_sec {a g L : ℝ} (ha : 0 < a) (hg : 0 < g) (hL : 0 < L) (h : g ≠ L) :
    L - utilisation a (g / L) * g = L / sec a (g / L) := by
  have hγ : 0 < g / L := by positivity
  have h1 : g / L ≠ 1 := by rw [Ne, div_eq_one_iff_eq hL.ne']; exact h
  have e1 := (util_sec ha hγ h1).1
  have : L - utilisation a (g / L) * g = L * (1 - g / L * utilisation a (g / L)) := by field_simp
  rw [this, e1]; ring

theorem fin_heatingNeed {a g l : ℝ} (ha : 0 < a) (hg : 0 < g) (hl : 0 < l + dblMin) (h : g ≠ l + dblMin) :
    heatingNeed (fin a) (fin g) (fin l) = fin ((l + dblMin) / sec a (g / (l + dblMin)) - dblMin) := by
  have hγ : 0 < g / (l + dblMin) := by positivity
  have h1 : g / (l + dblMin) ≠ 1 := by rw [Ne, div_eq_one_iff_eq hl.ne']; exact h
  unfold heatingNeed
  rw [fin_dblMin, fin_add, fin_vdiv, vdiv_ne _ hl.ne', (fin_eta ha hγ h1).1, fin_mul, fin_sub, fin_inj, ← need_sec ha hg hl h]
  ring

theorem fin_coolingNeed {a g l : ℝ} (ha : 0 < a) (hl : 0 < l) (hg : 0 < g + dblMin) (h : l ≠ g + dblMin) :
    coolingNeed (fin a) (fin g) (fin l) = fin ((g + dblMin) / sec a (l / (g + dblMin)) - dblMin) := by
  have hγ : 0 < l / (g + dblMin) := by positivity
  have h1 : l / (g + dblMin) ≠ 1 := by rw [Ne, div_eq_one_iff_eq hg.ne']; exact h
  unfold coolingNeed
  rw [fin_dblMin, fin_add, fin_vdiv, vdiv_ne _ hg.ne', (fin_eta ha hγ h1).2, fin_mul, fin_sub, fin_inj, ← need_sec ha hl hg h]
  ring

theorem need_bounds {a g L : ℝ} (ha : 0 < a) (hg : 0 < g) (hL : 0 < L) (h : g ≠ L) :
    0 < L / sec a (g / L) ∧ L - g < L / sec a (g / L) ∧ L / sec a (g / L) < L := by
  have hγ : 0 < g / L := by positivity
  have h1 : g / L ≠ 1 := by rw [Ne, div_eq_one_iff_eq hL.ne']; exact h
  obtain ⟨u1, u2, -⟩ := util_bounds ha hγ h1
  have hs := one_lt_sec ha hγ h1
  rw [← need_sec ha hg hL h]
  refine ⟨?_, ?_, ?_⟩
  · rw [need_sec ha hg hL h]; positivity
  · have := mul_lt_of_lt_one_left hg u2
    linarith
  · have := mul_pos u1 hg
    linarith

theorem need_mono_gain {a g g' L : ℝ} (ha : 0 < a) (hg : 0 < g) (hL : 0 < L) (h : g ≠ L) (h' : g' ≠ L) (hgg : g < g') :
    L / sec a (g' / L) < L / sec a (g / L) := by
  have h1 : g / L ≠ 1 := by rw [Ne, div_eq_one_iff_eq hL.ne']; exact h
  have h1' : g' / L ≠ 1 := by rw [Ne, div_eq_one_iff_eq hL.ne']; exact h'
  have hlt : g / L < g' / L := by rw [div_lt_div_iff_of_pos_right hL]; exact hgg
  have hs := sec_strictMono ha (by positivity) h1 h1' hlt
  have h0 := one_lt_sec ha (by positivity : 0 < g / L) h1
  exact div_lt_div_of_pos_left hL (by linarith) hs

theorem need_mono_loss {a g L L' : ℝ} (ha : 0 < a) (hg : 0 < g) (hL : 0 < L) (h : g ≠ L) (h' : g ≠ L') (hLL : L < L') :
    L / sec a (g / L) < L' / sec a (g / L') := by
  have hL' : 0 < L' := hL.trans hLL
  have h1 : g / L ≠ 1 := by rw [Ne, div_eq_one_iff_eq hL.ne']; exact h
  have h1' : g / L' ≠ 1 := by rw [Ne, div_eq_one_iff_eq hL'.ne']; exact h'
  have hlt : g / L' < g / L := div_lt_div_of_pos_left hg hL hLL
  have hs := sec_strictMono ha (by positivity) h1' h1 hlt
  have h0 := one_lt_sec ha (by positivity : 0 < g / L') h1'
  exact div_lt_div₀ hLL hs.le hL'.le (by linarith)

theorem need_mono_inertia {a b g L : ℝ} (ha : 0 < a) (hab : a < b) (hg : 0 < g) (hL : 0 < L) (h : g ≠ L) :
    L / sec b (g / L) < L / sec a (g / L) := by
  have h1 : g / L ≠ 1 := by rw [Ne, div_eq_one_iff_eq hL.ne']; exact h
  have h0 := one_lt_sec ha (by positivity : 0 < g / L) h1
  exact div_lt_div_of_pos_left hL (by linarith) (sec_inertia hab (by positivity) h1)

open Filter Topology in
theorem util_tendsto {a : ℝ} (ha : 0 < a) :
    Tendsto (fun γ : ℝ => (1 - γ ^ a) / (1 - γ ^ (a + 1))) (𝓝[≠] 1) (𝓝 (a / (a + 1))) := by
  have h1 : HasDerivAt (fun x : ℝ => x ^ a) a 1 := by
    simpa using Real.hasDerivAt_rpow_const (x := 1) (p := a) (Or.inl one_ne_zero)
  have h2 : HasDerivAt (fun x : ℝ => x ^ (a + 1)) (a + 1) 1 := by
    simpa using Real.hasDerivAt_rpow_const (x := 1) (p := a + 1) (Or.inl one_ne_zero)
  rw [hasDerivAt_iff_tendsto_slope] at h1 h2
  have h3 := h1.div h2 (by linarith)
  refine h3.congr' ?_
  filter_upwards [self_mem_nhdsWithin] with γ hγ
  have hγ' : γ - 1 ≠ 0 := sub_ne_zero.mpr hγ
  simp only [Pi.div_apply, slope_def_field, Real.one_rpow]
  rw [div_div_div_cancel_right₀ hγ', ← neg_div_neg_eq, neg_sub, neg_sub]

end ISO.Monthly
