import Verif.Props.SevenDays

/-!
# C71: lower heating and higher cooling set-points save energy in the monthly model
-/

namespace ISO.Props
open ISO ISO.Monthly ISO.Spec Dbl CNum

/-- temperatures that relax to the same target keep their order -/
theorem relax_mono {tau target s s' t : ℝ} (h : s' ≤ s) : relax tau target s' t ≤ relax tau target s t := by
  unfold relax
  have := mul_le_mul_of_nonneg_right (sub_le_sub_right h target) (Real.exp_pos (-t / tau)).le
  linarith

theorem freeRun_mono {tau : ℝ} {s : ℕ → Stretch} {a a' : ℝ} (h : a' ≤ a) (k : ℕ) : freeRun tau s a' k ≤ freeRun tau s a k := by
  induction k with
  | zero => exact h
  | succ k ih => exact relax_mono ih

theorem timeMean_mono {tau target s s' T : ℝ} (ht : 0 < tau) (hT : 0 < T) (h : s' ≤ s) :
    timeMean (relax tau target s') T ≤ timeMean (relax tau target s) T := by
  rw [timeMean_relax _ _ ht.ne' hT.ne', timeMean_relax _ _ ht.ne' hT.ne']
  have hy : -T / tau ≤ 0 := by rw [neg_div]; linarith [div_pos hT ht]
  have h1 : 0 ≤ 1 - Real.exp (-T / tau) := by linarith [Real.exp_le_one_iff.mpr hy]
  have h2 : 0 ≤ tau / T := (div_pos ht hT).le
  have := mul_le_mul_of_nonneg_right (mul_le_mul_of_nonneg_left (sub_le_sub_right h target) h2) h1
  linarith

theorem stretchMean_mono {tau : ℝ} {s : ℕ → Stretch} (ht : 0 < tau) (hs : ∀ k, 0 < (s k).hours) {first first' start start' floor floor' : ℝ}
    (h1 : first' ≤ first) (h2 : start' ≤ start) (h3 : floor' ≤ floor) (k : ℕ) :
    stretchMean tau s first' start' floor' k ≤ stretchMean tau s first start floor k := by
  unfold stretchMean
  refine max_le_max h3 (timeMean_mono ht (hs k) ?_)
  split_ifs
  · exact h1
  · exact max_le_max h3 (freeRun_mono h2 k)

theorem weekMean_mono {set set' d n e : ℝ} {mean mean' : ℕ → ℝ} (hd : 0 ≤ d) (hn : 0 ≤ n) (he : 0 ≤ e) (h : set' ≤ set)
    (hm : ∀ k, mean' k ≤ mean k) : weekMean set' d n e mean' ≤ weekMean set d n e mean := by
  unfold weekMean
  have a1 := mul_le_mul_of_nonneg_right h hd
  have a2 := mul_le_mul_of_nonneg_right (hm 1) hn
  have a3 := mul_le_mul_of_nonneg_right (show (mean' 0 + mean' 1 + mean' 2 + mean' 3 + mean' 4) / 5
      ≤ (mean 0 + mean 1 + mean 2 + mean 3 + mean 4) / 5 by linarith [hm 0, hm 1, hm 2, hm 3, hm 4]) he
  linarith

theorem weekend_hours {x : Sim ℝ} (h : TempData x) (m : Fin 12) (k : ℕ) : 0 < (weekend x m k).hours := by
  have h1 := h.someHour
  have h2 : 0 < 24 - windowHours x.pop := by linarith [h.notAllDay]
  unfold Spec.weekend nightAndDay
  split_ifs
  · exact h2
  · exact h1
  · exact h2

/-- the temperature the heating reckons with follows the set-points of heating -/
theorem heatedTo_mono {x y : Sim ℝ} (h : TempData x) (ht : 0 < buildingTau x)
    (h1 : y.heating.temperatureSetPointOccupied ≤ x.heating.temperatureSetPointOccupied)
    (h2 : y.heating.temperatureSetPointUnoccupied ≤ x.heating.temperatureSetPointUnoccupied) (m : Fin 12) :
    heatedTo (takeSetPoints x y) m ≤ heatedTo x m := by
  obtain ⟨d, n, e, -, -, -, q1, q2, p1, -, p2, -, p3, -, p4⟩ := C29_fractions x.pop h.week
  have hdd : occupiedShare x = d := by unfold occupiedShare; linarith
  have hn : nightShare x = n := by unfold nightShare; linarith
  have he : 1 - occupiedShare x - nightShare x = e := by rw [hdd, hn]; linarith
  have hT : heatTo (takeSetPoints x y) ≤ heatTo x := sub_le_sub_right h1 _
  have e1 : heatedTo (takeSetPoints x y) m = open Classical in if x.heating.T_ht_ctrl_flag = 1 then
    min (weekMean (heatTo (takeSetPoints x y)) (occupiedShare x) (nightShare x) (1 - occupiedShare x - nightShare x)
      (stretchMean (buildingTau x) (weekend x m) (heatTo (takeSetPoints x y)) (heatTo (takeSetPoints x y))
        y.heating.temperatureSetPointUnoccupied)) (heatTo (takeSetPoints x y))
    else heatTo (takeSetPoints x y) := rfl
  rw [e1]
  unfold heatedTo
  rw [he, hdd, hn]
  split_ifs
  · exact min_le_min (weekMean_mono p1 p2 p3 hT (stretchMean_mono ht (weekend_hours h m) hT hT h2)) hT
  · exact hT

/-- the temperature the cooling reckons with follows the set-points of both systems -/
theorem cooledTo_mono {x y : Sim ℝ} (h : TempData x) (ht : 0 < buildingTau x)
    (h1 : x.heating.temperatureSetPointOccupied ≤ y.heating.temperatureSetPointOccupied)
    (h2 : x.cooling.temperatureSetPointOccupied ≤ y.cooling.temperatureSetPointOccupied)
    (h3 : x.cooling.temperatureSetPointUnoccupied ≤ y.cooling.temperatureSetPointUnoccupied) (m : Fin 12) :
    cooledTo x m ≤ cooledTo (takeSetPoints x y) m := by
  obtain ⟨d, n, e, -, -, -, q1, q2, p1, -, p2, -, p3, -, p4⟩ := C29_fractions x.pop h.week
  have hdd : occupiedShare x = d := by unfold occupiedShare; linarith
  have hn : nightShare x = n := by unfold nightShare; linarith
  have he : 1 - occupiedShare x - nightShare x = e := by rw [hdd, hn]; linarith
  have hT : coolTo x ≤ coolTo (takeSetPoints x y) := add_le_add_left h2 _
  have hT' : heatTo x ≤ heatTo (takeSetPoints x y) := sub_le_sub_right h1 _
  have e1 : cooledTo (takeSetPoints x y) m = open Classical in if x.cooling.T_cl_ctrl_flag = 1 then
    min (weekMean (coolTo (takeSetPoints x y)) (occupiedShare x) (nightShare x) (1 - occupiedShare x - nightShare x)
      (stretchMean (buildingTau x) (weekend x m) (min (heatTo (takeSetPoints x y)) y.cooling.temperatureSetPointUnoccupied)
        (coolTo (takeSetPoints x y)) y.cooling.temperatureSetPointUnoccupied)) (coolTo (takeSetPoints x y))
    else coolTo (takeSetPoints x y) := rfl
  rw [e1]
  unfold cooledTo
  rw [he, hdd, hn]
  split_ifs
  · exact min_le_min (weekMean_mono p1 p2 p3 hT (stretchMean_mono ht (weekend_hours h m) (min_le_min hT' h3) hT h3)) hT
  · exact hT

/-- an odd function that grows -/
theorem odd_mono {f : ℝ → ℝ} (h0 : ∀ v, 0 ≤ f v) (hf : ∀ v w, 0 ≤ v → v ≤ w → f v ≤ f w) {u u' : ℝ} (h : u' ≤ u) :
    u' * f |u'| ≤ u * f |u| := by
  rcases le_total 0 u' with h1 | h1
  · rw [abs_of_nonneg h1, abs_of_nonneg (h1.trans h)]
    exact mul_le_mul h (hf _ _ h1 h) (h0 _) (h1.trans h)
  · rcases le_total 0 u with h2 | h2
    · exact (mul_nonpos_of_nonpos_of_nonneg h1 (h0 _)).trans (mul_nonneg h2 (h0 _))
    · rw [abs_of_nonpos h1, abs_of_nonpos h2]
      have := mul_le_mul (neg_le_neg h) (hf (-u) (-u') (by linarith) (by linarith)) (h0 _) (by linarith)
      linarith

/-- the loss of a month grows with the indoor temperature -/
theorem monthLoss_mono {x : Sim ℝ} (ht : TempData x) (hv : VentilationData x) (hU : 0 ≤ ∑ i, (x.bldg.wallArea i * x.bldg.wallUniform i
      + x.bldg.windowArea i * x.bldg.windowUniform i)) {T T' : ℝ} (h : T' ≤ T) (m : Fin 12) :
    monthLoss x T' m ≤ monthLoss x T m := by
  obtain ⟨d0, d1⟩ := share_bounds ht.week
  have hA := hv.floorArea
  have hw : 0 ≤ windDriven x m :=
    mul_nonneg (mul_nonneg hv.windCoeff hv.leaky.le) (Real.rpow_nonneg (mul_nonneg hv.windBase (sq_nonneg _)) _)
  set st : ℝ → ℝ := fun v => max 0.001 (x.ventilation.stack_coeff * x.bldg.infiltrationRate
    * (x.ventilation.zone_frac * max 0.1 x.bldg.buildingHeight * v) ^ x.ventilation.stack_exp) with hst
  set f : ℝ → ℝ := fun v => (∑ i, (x.bldg.wallArea i * x.bldg.wallUniform i + x.bldg.windowArea i * x.bldg.windowUniform i))
    + (max (st v) (windDriven x m) + 0.14 * (st v * windDriven x m) / x.bldg.infiltrationRate
      + max 0 (-(x.ventilation.supplyDifference / x.bldg.floorArea / 3.6)) + fanFlow x (occupiedShare x))
      * (x.phys.rhoCpAir * 1000000) / 3600 * x.bldg.floorArea with hf
  have st0 : ∀ v, 0 ≤ st v := fun v => le_trans (by norm_num) (le_max_left _ _)
  have hfan : 0 ≤ fanFlow x (occupiedShare x) := by
    unfold fanFlow
    split_ifs
    · exact le_rfl
    · have h1 := running_nonneg hv d0 d1
      have h2 := hv.supply; have h3 := hv.floorArea
      have h4 : 0 ≤ 1 - x.ventilation.exhaustAirRecirculated := by linarith [hv.recirculated]
      have h5 : 0 ≤ 1 - x.ventilation.heatRecoveryEfficiency := by linarith [hv.recovered]
      positivity
  have hair : 0 ≤ x.phys.rhoCpAir * 1000000 := mul_nonneg hv.air.le (by norm_num)
  have flow : ∀ {p q : ℝ}, p ≤ q → p * (x.phys.rhoCpAir * 1000000) / 3600 * x.bldg.floorArea
      ≤ q * (x.phys.rhoCpAir * 1000000) / 3600 * x.bldg.floorArea := fun hpq =>
    mul_le_mul_of_nonneg_right (div_le_div_of_nonneg_right (mul_le_mul_of_nonneg_right hpq hair) (by norm_num)) hA.le
  have f0 : ∀ v, 0 ≤ f v := by
    intro v
    refine add_nonneg hU ?_
    have := flow (p := 0) (q := max (st v) (windDriven x m) + 0.14 * (st v * windDriven x m) / x.bldg.infiltrationRate
      + max 0 (-(x.ventilation.supplyDifference / x.bldg.floorArea / 3.6)) + fanFlow x (occupiedShare x)) (by
        have h1 : 0 ≤ max (st v) (windDriven x m) := (st0 v).trans (le_max_left _ _)
        have h2 : 0 ≤ 0.14 * (st v * windDriven x m) / x.bldg.infiltrationRate :=
          div_nonneg (mul_nonneg (by norm_num) (mul_nonneg (st0 v) hw)) hv.leaky.le
        have h3 : (0:ℝ) ≤ max 0 (-(x.ventilation.supplyDifference / x.bldg.floorArea / 3.6)) := le_max_left _ _
        linarith)
    simpa using this
  have fm : ∀ v w, 0 ≤ v → v ≤ w → f v ≤ f w := by
    intro v w hv0 hvw
    have hz : 0 ≤ x.ventilation.zone_frac * max 0.1 x.bldg.buildingHeight :=
      mul_nonneg hv.zone (le_trans (by norm_num) (le_max_left _ _))
    have s1 : st v ≤ st w := by
      refine max_le_max le_rfl (mul_le_mul_of_nonneg_left ?_ (mul_nonneg hv.stackCoeff hv.leaky.le))
      exact Real.rpow_le_rpow (mul_nonneg hz hv0) (mul_le_mul_of_nonneg_left hvw hz) hv.stackExp
    refine add_le_add le_rfl (flow ?_)
    refine add_le_add (add_le_add (add_le_add (max_le_max s1 le_rfl) ?_) le_rfl) le_rfl
    exact div_le_div_of_nonneg_right (mul_le_mul_of_nonneg_left (mul_le_mul_of_nonneg_right s1 hw) (by norm_num)) hv.leaky.le
  have form : ∀ T, monthLoss x T m = megaseconds m * ((T - x.weather.mdbt m) * f |T - x.weather.mdbt m|) := by
    intro T
    rw [hf, hst]
    unfold monthLoss leakage stack
    rw [abs_sub_comm]
    ring
  rw [form, form]
  exact mul_le_mul_of_nonneg_left (odd_mono f0 fm (sub_le_sub_right h _)) (megaseconds_pos m).le

/-- the need for cold falls with the loss -/
theorem coolDemand_antitone {a g l l' : ℝ} (ha : 0 < a) (hg : 0 < g) (hl : l ≤ l') (h : l ≠ g + dblMin) (h' : l' ≠ g + dblMin) :
    coolDemand a g l' ≤ coolDemand a g l := by
  have hp := dblMin_pos
  unfold coolDemand
  by_cases h1 : 0 < l
  · rw [if_pos h1, if_pos (h1.trans_le hl)]
    have e1 := need_sec ha h1 (by linarith : 0 < g + dblMin) h
    have e2 := need_sec ha (h1.trans_le hl) (by linarith : 0 < g + dblMin) h'
    have := demand_le ha h1 hl (by linarith : 0 < g + dblMin) le_rfl h h'
    linarith
  · rw [if_neg h1]
    split_ifs with h2
    · have hγ : 0 < l' / (g + dblMin) := div_pos h2 (by linarith)
      have h3 : l' / (g + dblMin) ≠ 1 := by rw [Ne, div_eq_one_iff_eq (by linarith)]; exact h'
      obtain ⟨u1, -⟩ := util_bounds ha hγ h3
      nlinarith
    · linarith

theorem tau_pos {x : Sim ℝ} (ht : TempData x) (hv : VentilationData x) (hs : Sensible x)
    (hU : 0 ≤ ∑ i, (x.bldg.wallArea i * x.bldg.wallUniform i + x.bldg.windowArea i * x.bldg.windowUniform i)) : 0 < buildingTau x := by
  have hA := hv.floorArea
  have hC : 0 ≤ x.bldg.interiorHeatCapacity * x.bldg.floorArea + x.bldg.wallHeatCapacity * ∑ i, x.bldg.wallArea i :=
    add_nonneg (mul_nonneg hs.inside hA.le) (mul_nonneg hs.shell (Finset.sum_nonneg fun i _ => hs.walls i))
  exact div_pos (div_pos (lt_of_le_of_ne hC ht.capacity.symm) (lt_of_le_of_ne (add_nonneg hU hs.air) ht.heatLoss.symm)) (by norm_num)

/-- C71: lower set-points for heating, in occupied or unoccupied hours, never mean more energy for heating, in any month in which the
building loses heat (also at the lower temperature). -/
theorem C71_heating (x y : Sim ℝ) (hx : Ordinary x) (hy : Ordinary (takeSetPoints x y)) (hs : Sensible x) (hu : Unmixed x)
    (hw : ∀ i, 0 ≤ x.bldg.wallUniform i) (hg : ∀ i, 0 ≤ x.bldg.windowUniform i)
    (h1 : y.heating.temperatureSetPointOccupied ≤ x.heating.temperatureSetPointOccupied)
    (h2 : y.heating.temperatureSetPointUnoccupied ≤ x.heating.temperatureSetPointUnoccupied)
    (r r' : List (Hourly.EndUses Dbl)) (hr : simulate (x.map fin) = some r)
    (hr' : simulate ((takeSetPoints x y).map fin) = some r') (m : Fin 12)
    (hl : 0 < monthLoss x (heatedTo (takeSetPoints x y) m) m) :
    ∃ (_ : m.val < r.length) (_ : m.val < r'.length), NotAbove (r'[m.val] 0) (r[m.val] 0) ∧ NotAbove (r'[m.val] 9) (r[m.val] 9) := by
  obtain ⟨l, hL⟩ := C68_energy x hx r hr
  obtain ⟨l', hL'⟩ := C68_energy _ hy r' hr'
  obtain ⟨a0, a9, -, -⟩ := hL m
  obtain ⟨b0, b9, -, -⟩ := hL' m
  have hU : 0 ≤ ∑ i, (x.bldg.wallArea i * x.bldg.wallUniform i + x.bldg.windowArea i * x.bldg.windowUniform i) :=
    Finset.sum_nonneg fun i _ => add_nonneg (mul_nonneg (hs.walls i) (hw i)) (mul_nonneg (hs.windows i) (hg i))
  have hT := heatedTo_mono hx.temperatures (tau_pos hx.temperatures hx.flows hs hU) h1 h2 m
  have hle := monthLoss_mono hx.temperatures hx.flows hU hT m
  have hd : monthHeat (takeSetPoints x y) m ≤ monthHeat x m :=
    heatDemand_le (b := inertia x) (g := monthGain x m) (g' := monthGain x m) hx.inertia le_rfl (hx.months.gain m) (hx.months.gain m) hl hle
      (hx.months.heating m) (hy.months.heating m) (by rw [sub_self]; exact sub_nonneg.mpr hle)
  have e := heat_energy' (x := x) (y := takeSetPoints x y) hx.systems hu hx.flows.floorArea ⟨rfl, rfl, rfl, rfl, rfl, rfl, rfl, rfl⟩ rfl hd
  exact ⟨by omega, by omega, ⟨_, _, b0, a0, e.1⟩, ⟨_, _, b9, a9, e.2⟩⟩

/-- C71: higher set-points for cooling, in occupied or unoccupied hours, never mean more energy for cooling in any month. -/
theorem C71_cooling (x y : Sim ℝ) (hx : Ordinary x) (hy : Ordinary (takeSetPoints x y)) (hs : Sensible x) (hu : Unmixed x)
    (hw : ∀ i, 0 ≤ x.bldg.wallUniform i) (hg : ∀ i, 0 ≤ x.bldg.windowUniform i)
    (h1 : y.heating.temperatureSetPointOccupied = x.heating.temperatureSetPointOccupied)
    (h2 : x.cooling.temperatureSetPointOccupied ≤ y.cooling.temperatureSetPointOccupied)
    (h3 : x.cooling.temperatureSetPointUnoccupied ≤ y.cooling.temperatureSetPointUnoccupied)
    (r r' : List (Hourly.EndUses Dbl)) (hr : simulate (x.map fin) = some r)
    (hr' : simulate ((takeSetPoints x y).map fin) = some r') (m : Fin 12) :
    ∃ (_ : m.val < r.length) (_ : m.val < r'.length), NotAbove (r'[m.val] 1) (r[m.val] 1) ∧ NotAbove (r'[m.val] 10) (r[m.val] 10) := by
  obtain ⟨l, hL⟩ := C68_energy x hx r hr
  obtain ⟨l', hL'⟩ := C68_energy _ hy r' hr'
  obtain ⟨-, -, a1, a10⟩ := hL m
  obtain ⟨-, -, b1, b10⟩ := hL' m
  have hU : 0 ≤ ∑ i, (x.bldg.wallArea i * x.bldg.wallUniform i + x.bldg.windowArea i * x.bldg.windowUniform i) :=
    Finset.sum_nonneg fun i _ => add_nonneg (mul_nonneg (hs.walls i) (hw i)) (mul_nonneg (hs.windows i) (hg i))
  have hT := cooledTo_mono hx.temperatures (tau_pos hx.temperatures hx.flows hs hU) h1.ge h2 h3 m
  have hle := monthLoss_mono hx.temperatures hx.flows hU hT m
  have hd : monthCold (takeSetPoints x y) m ≤ monthCold x m :=
    coolDemand_antitone (a := inertia x) (g := monthGain x m) hx.inertia (hx.months.gain m) hle (hx.months.cooling m) (hy.months.cooling m)
  have e := cold_energy' (x := takeSetPoints x y) (y := x) hy.systems ⟨hu.1, hu.2, hu.3, hu.4⟩ hx.flows.floorArea
    ⟨rfl, rfl, rfl, rfl, rfl, rfl, rfl, rfl, rfl, rfl⟩ rfl hd
  exact ⟨by omega, by omega, ⟨_, _, b1, a1, e.1⟩, ⟨_, _, b10, a10, e.2⟩⟩

/-- `C71_heating`: set-back to 22 degrees; the building loses heat in every month -/
example : Ordinary (coldOffice 4.831 0.426 2.653 2 7 0) ∧
    Ordinary (takeSetPoints (coldOffice 4.831 0.426 2.653 2 7 0) (nightOffice 4.831 0.426 2.653 2 7 0 22)) ∧
    Sensible (coldOffice 4.831 0.426 2.653 2 7 0) ∧ Unmixed (coldOffice 4.831 0.426 2.653 2 7 0) ∧
    (∀ i, 0 ≤ (coldOffice 4.831 0.426 2.653 2 7 0).bldg.wallUniform i) ∧ (∀ i, 0 ≤ (coldOffice 4.831 0.426 2.653 2 7 0).bldg.windowUniform i) ∧
    ∀ m, 0 < monthLoss (coldOffice 4.831 0.426 2.653 2 7 0)
      (heatedTo (takeSetPoints (coldOffice 4.831 0.426 2.653 2 7 0) (nightOffice 4.831 0.426 2.653 2 7 0 22)) m) m := by
  have e : takeSetPoints (coldOffice 4.831 0.426 2.653 2 7 0) (nightOffice 4.831 0.426 2.653 2 7 0 22)
      = nightOffice 4.831 0.426 2.653 2 7 0 22 := rfl
  have ho : Ordinary (coldOffice 4.831 0.426 2.653 2 7 0) := by apply cold_ordinary <;> norm_num
  have ho' : Ordinary (nightOffice 4.831 0.426 2.653 2 7 0 22) := by apply night_ordinary <;> norm_num
  rw [e]
  refine ⟨ho, ho', ?_, cold_unmixed _ _ _ _ _ _, ?_, ?_, fun m => ?_⟩
  · constructor <;> norm_num [anyOffice, sunnyOffice, monthlyOffice, smallOffice] <;> intro j <;> fin_cases j <;> norm_num [nineOf]
  · intro i; norm_num [anyOffice, sunnyOffice, monthlyOffice, smallOffice]
  · intro i; norm_num [anyOffice, sunnyOffice, monthlyOffice, smallOffice]
  · obtain ⟨w, -⟩ := night_temperatures ho'.temperatures (by norm_num) (by norm_num) (by norm_num) m
    obtain ⟨s1, -⟩ := cold_sums 4.831 0.426 2.653 2 7 0 24 5 28
    obtain ⟨d0, d1⟩ := share_bounds ho.temperatures.week
    set T := heatedTo (nightOffice 4.831 0.426 2.653 2 7 0 22) m
    set x := coldOffice 4.831 0.426 2.653 2 7 0
    have h1 := air_nonneg ho.flows d0 d1 m T
    have h2 : 0 ≤ (leakage x m T + fanFlow x (occupiedShare x)) * (x.phys.rhoCpAir * 1000000) / 3600 * x.bldg.floorArea :=
      mul_nonneg (div_nonneg (mul_nonneg h1 (mul_nonneg ho.flows.air.le (by norm_num))) (by norm_num)) ho.flows.floorArea.le
    have h3 : x.weather.mdbt m = 0 := rfl
    unfold monthLoss
    rw [s1, h3]
    refine mul_pos (mul_pos (megaseconds_pos m) (by linarith)) ?_
    have : (0:ℝ) < 880.26 * 2 + 59.71 * 2.653 := by norm_num
    linarith

/-- `C71_cooling`: cooled to 30 instead of 28 degrees -/
example : Ordinary (coldOffice 4.831 0.426 2.653 2 7 0) ∧
    Ordinary (takeSetPoints (coldOffice 4.831 0.426 2.653 2 7 0) (anyOffice 4.831 0.426 2.653 2 7 0 24 5 30)) := by
  have e : takeSetPoints (coldOffice 4.831 0.426 2.653 2 7 0) (anyOffice 4.831 0.426 2.653 2 7 0 24 5 30)
      = anyOffice 4.831 0.426 2.653 2 7 0 24 5 30 := rfl
  rw [e]
  exact ⟨by apply cold_ordinary <;> norm_num, by apply night_ordinary <;> norm_num⟩

end ISO.Props
