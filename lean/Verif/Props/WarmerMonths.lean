import Verif.Props.MonthlySetPoints
import Verif.Spec.WarmerMonths

/-! # C78: a warmer year in the monthly model -/

namespace ISO.Props
open ISO ISO.Monthly ISO.Spec Dbl CNum

namespace WarmerMonths

/-- warmer air outside acts on the loss of a month like a lower temperature inside -/
theorem loss_shift {x : Sim ℝ} {a a' : WeatherData ℝ} (h : a'.mwind = a.mwind) (T : ℝ) (m : Fin 12) :
    monthLoss { x with weather := a' } T m = monthLoss { x with weather := a } (T - (a'.mdbt m - a.mdbt m)) m := by
  have e1 : ∀ T', stack { x with weather := a' } m T' = stack { x with weather := a } m (T' - (a'.mdbt m - a.mdbt m)) := by
    intro T'
    show max 0.001 (_ * (_ * |a'.mdbt m - T'|) ^ _) = max 0.001 (_ * (_ * |a.mdbt m - (T' - (a'.mdbt m - a.mdbt m))|) ^ _)
    rw [show a.mdbt m - (T' - (a'.mdbt m - a.mdbt m)) = a'.mdbt m - T' by ring]
  have e2 : windDriven { x with weather := a' } m = windDriven { x with weather := a } m := by
    show _ * (_ * a'.mwind m ^ 2) ^ _ = _ * (_ * a.mwind m ^ 2) ^ _
    rw [h]
  have e3 : leakage { x with weather := a' } m T = leakage { x with weather := a } m (T - (a'.mdbt m - a.mdbt m)) := by
    unfold leakage
    rw [e1, e2]
  have e4 : T - a'.mdbt m = T - (a'.mdbt m - a.mdbt m) - a.mdbt m := by ring
  show megaseconds m * (T - a'.mdbt m) * (_ + (leakage { x with weather := a' } m T + _) * _ / _ * _) = _
  rw [e3, e4]
  rfl

theorem gain_same {x : Sim ℝ} {a a' : WeatherData ℝ} (h : WarmerMonths a a') (m : Fin 12) :
    monthGain { x with weather := a' } m = monthGain { x with weather := a } m := by
  have e : irradianceOn a' m = irradianceOn a m := by
    funext j
    unfold irradianceOn
    rw [h.facades, h.sun]
  show megaseconds m * (_ + (windowHeat x.bldg a' m + opaqueHeat x.bldg a' m - _)) =
    megaseconds m * (_ + (windowHeat x.bldg a m + opaqueHeat x.bldg a m - _))
  unfold windowHeat opaqueHeat
  rw [e]
  rfl

/-- a building loses heat in a month that is on average colder outside than inside -/
theorem loss_pos {x : Sim ℝ} (ht : TempData x) (hv : VentilationData x) (hU : 0 ≤ ∑ i, (x.bldg.wallArea i * x.bldg.wallUniform i
      + x.bldg.windowArea i * x.bldg.windowUniform i)) {T : ℝ} {m : Fin 12} (h : x.weather.mdbt m < T) : 0 < monthLoss x T m := by
  obtain ⟨d0, d1⟩ := share_bounds ht.week
  have hA := hv.floorArea
  have hw : 0 ≤ windDriven x m :=
    mul_nonneg (mul_nonneg hv.windCoeff hv.leaky.le) (Real.rpow_nonneg (mul_nonneg hv.windBase (sq_nonneg _)) _)
  have hs : 0.001 ≤ stack x m T := le_max_left _ _
  have h1 : 0 < leakage x m T := by
    unfold leakage
    have h1 : 0.001 ≤ max (stack x m T) (windDriven x m) := hs.trans (le_max_left _ _)
    have h2 : 0 ≤ 0.14 * (stack x m T * windDriven x m) / x.bldg.infiltrationRate :=
      div_nonneg (mul_nonneg (by norm_num) (mul_nonneg (by linarith) hw)) hv.leaky.le
    have h3 : (0:ℝ) ≤ max 0 (-(x.ventilation.supplyDifference / x.bldg.floorArea / 3.6)) := le_max_left _ _
    linarith
  have hfan : 0 ≤ fanFlow x (occupiedShare x) := by
    unfold fanFlow
    split_ifs
    · exact le_rfl
    · have h1 := running_nonneg hv d0 d1
      have h2 := hv.supply; have h3 := hv.floorArea
      have h4 : 0 ≤ 1 - x.ventilation.exhaustAirRecirculated := by linarith [hv.recirculated]
      have h5 : 0 ≤ 1 - x.ventilation.heatRecoveryEfficiency := by linarith [hv.recovered]
      positivity
  unfold monthLoss
  refine mul_pos (mul_pos (megaseconds_pos m) (by linarith)) (add_pos_of_nonneg_of_pos hU ?_)
  exact mul_pos (div_pos (mul_pos (by linarith) (mul_pos hv.air (by norm_num))) (by norm_num)) hA

end WarmerMonths
open WarmerMonths

/-- **C78, the monthly simulation.** Of two years with the same sun and wind the warmer one never means less energy for cooling in any month,
nor more for heating in a month that is on average colder outside than the set-point of heating, in a building that is kept at the same
temperatures all week. -/
theorem C78_monthly (x : Sim ℝ) (a a' : WeatherData ℝ) (hx : Ordinary { x with weather := a }) (hx' : Ordinary { x with weather := a' })
    (hst : SteadyTemperatures x) (hs : Sensible x) (hu : Unmixed x) (hw : ∀ i, 0 ≤ x.bldg.wallUniform i) (hg : ∀ i, 0 ≤ x.bldg.windowUniform i)
    (h : WarmerMonths a a') (r r' : List (Hourly.EndUses Dbl)) (hr : simulate (({ x with weather := a } : Sim ℝ).map fin) = some r)
    (hr' : simulate (({ x with weather := a' } : Sim ℝ).map fin) = some r') (m : Fin 12) :
    ∃ (_ : m.val < r.length) (_ : m.val < r'.length),
      (a'.mdbt m < heatTo x → NotAbove (r'[m.val] 0) (r[m.val] 0) ∧ NotAbove (r'[m.val] 9) (r[m.val] 9)) ∧
      NotAbove (r[m.val] 1) (r'[m.val] 1) ∧ NotAbove (r[m.val] 10) (r'[m.val] 10) := by
  obtain ⟨l, hL⟩ := C68_energy _ hx r hr
  obtain ⟨l', hL'⟩ := C68_energy _ hx' r' hr'
  obtain ⟨a0, a9, a1, a10⟩ := hL m
  obtain ⟨b0, b9, b1, b10⟩ := hL' m
  have hU : 0 ≤ ∑ i, (x.bldg.wallArea i * x.bldg.wallUniform i + x.bldg.windowArea i * x.bldg.windowUniform i) :=
    Finset.sum_nonneg fun i _ => add_nonneg (mul_nonneg (hs.walls i) (hw i)) (mul_nonneg (hs.windows i) (hg i))
  have hsa : SteadyTemperatures { x with weather := a } := ⟨hst.1, hst.2⟩
  have hsa' : SteadyTemperatures { x with weather := a' } := ⟨hst.1, hst.2⟩
  have t1 : heatedTo { x with weather := a } m = heatTo x := heatedTo_steady hx.temperatures hsa m
  have t2 : heatedTo { x with weather := a' } m = heatTo x := heatedTo_steady hx'.temperatures hsa' m
  have t3 : cooledTo { x with weather := a } m = coolTo x := cooledTo_steady hx.temperatures hsa m
  have t4 : cooledTo { x with weather := a' } m = coolTo x := cooledTo_steady hx'.temperatures hsa' m
  have hle : ∀ T, monthLoss { x with weather := a' } T m ≤ monthLoss { x with weather := a } T m := by
    intro T
    rw [loss_shift h.wind]
    exact monthLoss_mono hx.temperatures hx.flows hU (by linarith [h.temperature m]) m
  have g := gain_same (x := x) h m
  have p1 := hx.months.heating m
  have p2 := hx'.months.heating m
  have p3 := hx.months.cooling m
  have p4 := hx'.months.cooling m
  rw [t1] at p1; rw [t2, g] at p2; rw [t3] at p3; rw [t4, g] at p4
  have hc : monthCold { x with weather := a } m ≤ monthCold { x with weather := a' } m := by
    unfold monthCold
    rw [t3, t4, g]
    exact coolDemand_antitone (a := inertia { x with weather := a }) hx.inertia (hx.months.gain m) (hle _) p4 p3
  have ec := cold_energy' (x := { x with weather := a }) (y := { x with weather := a' }) hx.systems { hu with } hx.flows.floorArea
    ⟨rfl, rfl, rfl, rfl, rfl, rfl, rfl, rfl, rfl, rfl⟩ rfl hc
  refine ⟨by omega, by omega, fun hl => ?_, ⟨_, _, a1, b1, ec.1⟩, ⟨_, _, a10, b10, ec.2⟩⟩
  have hd : monthHeat { x with weather := a' } m ≤ monthHeat { x with weather := a } m := by
    unfold monthHeat
    rw [t1, t2, g]
    exact heatDemand_le (b := inertia { x with weather := a }) hx.inertia le_rfl (hx.months.gain m) (hx.months.gain m)
      (loss_pos hx'.temperatures hx'.flows hU hl) (hle _) p1 p2 (by rw [sub_self]; exact sub_nonneg.mpr (hle _))
  have e := heat_energy' (x := { x with weather := a }) (y := { x with weather := a' }) hx.systems { hu with } hx.flows.floorArea
    ⟨rfl, rfl, rfl, rfl, rfl, rfl, rfl, rfl⟩ rfl hd
  exact ⟨⟨_, _, b0, a0, e.1⟩, ⟨_, _, b9, a9, e.2⟩⟩

end ISO.Props
