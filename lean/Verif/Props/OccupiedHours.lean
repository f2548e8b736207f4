import Verif.Lemmas.OccupiedHours
import Verif.Props.MonthlySystems

/-!
# C85: the two simulations count the occupied hours differently

Population.hpp describes the window as closed ("nine to five" is 9 to 16).  The hourly simulation counts the last hour, the monthly
one does not.
-/

namespace ISO.Props
open ISO ISO.Epw ISO.Spec ISO.Spec.OccupiedHours ISO.Lemmas.OccupiedHours Dbl CNum

/-- C85, the hourly simulation: with a window from `a` to `b` o'clock on the days `c` to `d`, the equipment energies of the hours of any
week add up to those of `(b - a + 1) * (d - c + 1)` occupied hours and the rest unoccupied. -/
theorem C85_hourly (x : Hourly.Model Dbl) (p : Population ℝ) (hp : x.sim.pop = p.map fin) {a b c d : ℕ} (hw : Whole p a b c d)
    (hab : a ≤ b) (hb : b < 24) (hcd : c ≤ d) (hd : d < 7) {occ unocc : ℝ}
    (ho : x.sim.building.electricApplianceHeatGainOccupied = fin occ) (hu : x.sim.building.electricApplianceHeatGainUnoccupied = fin unocc)
    {x' : Hourly.Model Dbl} {hourly : List (Hourly.EndUses Dbl)} (h : Hourly.simulate false x = some (x', hourly)) :
    ∃ e : ℕ → ℝ, (∀ i (hi : i < hourly.length), hourly[i] 6 = fin (e i)) ∧
      ∀ k, k < 52 → weekOf e k = weekWith ((b - a + 1) * (d - c + 1)) occ unocc := by
  classical
  refine ⟨fun i => (if Occupied p i then occ else unocc) / 1000, ?_, fun k _ => week_closed hw hab hb hcd hd occ unocc k⟩
  intro i hi
  rw [C13_equipment x p hp (by rw [hw.last]; positivity) (by rw [hw.lastDay]; positivity) h i hi, ho, hu]
  show _ = fin ((if Occupied p i then occ else unocc) / 1000)
  split <;> rw [fin_div _ (by norm_num)]

/-- C85, the hourly simulation: a window that goes on after midnight is never occupied. -/
theorem C85_hourly_overnight (x : Hourly.Model Dbl) (p : Population ℝ) (hp : x.sim.pop = p.map fin) {a b c d : ℕ} (hw : Whole p a b c d)
    (hab : b < a) {occ unocc : ℝ}
    (ho : x.sim.building.electricApplianceHeatGainOccupied = fin occ) (hu : x.sim.building.electricApplianceHeatGainUnoccupied = fin unocc)
    {x' : Hourly.Model Dbl} {hourly : List (Hourly.EndUses Dbl)} (h : Hourly.simulate false x = some (x', hourly)) :
    ∃ e : ℕ → ℝ, (∀ i (hi : i < hourly.length), hourly[i] 6 = fin (e i)) ∧ ∀ k, k < 52 → weekOf e k = weekWith 0 occ unocc := by
  classical
  refine ⟨fun i => (if Occupied p i then occ else unocc) / 1000, ?_, fun k _ => week_never hw hab occ unocc k⟩
  intro i hi
  rw [C13_equipment x p hp (by rw [hw.last]; positivity) (by rw [hw.lastDay]; positivity) h i hi, ho, hu]
  show _ = fin ((if Occupied p i then occ else unocc) / 1000)
  split <;> rw [fin_div _ (by norm_num)]

/-- C85, the monthly simulation: the equipment energy of a month is as many weeks as the month has (a number of days divided by seven),
each with `(b - a) * (d - c + 1)` occupied hours: the last hour is not counted. -/
theorem C85_monthly (x : Sim ℝ) {a b c d : ℕ} (hw : Whole x.pop a b c d) (hab : a ≤ b) (hb : b ≤ 24) (hcd : c ≤ d) (hd : d < 7)
    {r : List (Hourly.EndUses Dbl)} (hr : Monthly.simulate (x.map fin) = some r) (m : Fin 12) :
    ∃ hl : m.val < r.length, r[m.val] 6 = fin (days m / 7 * weekWith ((b - a) * (d - c + 1))
      x.building.electricApplianceHeatGainOccupied x.building.electricApplianceHeatGainUnoccupied) := by
  have hab' : (a : ℝ) ≤ b := by exact_mod_cast hab
  have hb' : (b : ℝ) ≤ 24 := by exact_mod_cast hb
  have ha' : (0 : ℝ) ≤ a := by positivity
  have hcd' : (c : ℝ) ≤ d := by exact_mod_cast hcd
  have hd' : (d : ℝ) ≤ 6 := by exact_mod_cast (by omega : d ≤ 6)
  have hc' : (0 : ℝ) ≤ c := by positivity
  have e1 : windowHours x.pop = b - a := by
    unfold windowHours; rw [hw.first, hw.last, if_neg (by linarith)]
  have e2 : windowDays x.pop = d - c + 1 := by
    unfold windowDays; rw [hw.firstDay, hw.lastDay, if_neg (by linarith)]
  have ww : WeekWindow x.pop := by
    refine ⟨?_, ?_, ?_, ?_, ?_⟩
    · rw [e1]; linarith
    · rw [e1]; linarith
    · rw [e2]; linarith
    · rw [e2]; linarith
    · rw [hw.firstDay, hw.lastDay]; intro h; linarith
  obtain ⟨hl, h6, -⟩ := C41_equipment x ww r hr m
  refine ⟨hl, ?_⟩
  rw [h6, e1, e2]
  unfold weekWith
  congr 1; ring

/-- C85, the monthly simulation: a window that goes on after midnight is occupied for `24 + b - a` hours of a day. -/
theorem C85_monthly_overnight (x : Sim ℝ) {a b c d : ℕ} (hw : Whole x.pop a b c d) (hab : b < a) (ha : a ≤ 24) (hcd : c ≤ d) (hd : d < 7)
    {r : List (Hourly.EndUses Dbl)} (hr : Monthly.simulate (x.map fin) = some r) (m : Fin 12) :
    ∃ hl : m.val < r.length, r[m.val] 6 = fin (days m / 7 * weekWith ((24 + b - a) * (d - c + 1))
      x.building.electricApplianceHeatGainOccupied x.building.electricApplianceHeatGainUnoccupied) := by
  have hab' : (b : ℝ) < a := by exact_mod_cast hab
  have ha' : (a : ℝ) ≤ 24 := by exact_mod_cast ha
  have hb' : (0 : ℝ) ≤ b := by positivity
  have hcd' : (c : ℝ) ≤ d := by exact_mod_cast hcd
  have hd' : (d : ℝ) ≤ 6 := by exact_mod_cast (by omega : d ≤ 6)
  have hc' : (0 : ℝ) ≤ c := by positivity
  have e1 : windowHours x.pop = 24 + b - a := by
    unfold windowHours; rw [hw.first, hw.last, if_pos hab']; ring
  have e2 : windowDays x.pop = d - c + 1 := by
    unfold windowDays; rw [hw.firstDay, hw.lastDay, if_neg (by linarith)]
  have ww : WeekWindow x.pop := by
    refine ⟨?_, ?_, ?_, ?_, ?_⟩
    · rw [e1]; linarith
    · rw [e1]; linarith
    · rw [e2]; linarith
    · rw [e2]; linarith
    · rw [hw.firstDay, hw.lastDay]; intro h; linarith
  obtain ⟨hl, h6, -⟩ := C41_equipment x ww r hr m
  refine ⟨hl, ?_⟩
  rw [h6, e1, e2]
  unfold weekWith
  congr 1; ring

/-- C85, the disagreement: both simulations of one building.  A week of the hourly one has the equipment energy of a week of the monthly
one, and on each of the `d - c + 1` occupied days one more hour of occupied instead of unoccupied power. -/
theorem C85_disagree (x : Sim ℝ) (w : Weather Dbl) (pushed : Hourly.Pushed Dbl) {a b c d : ℕ} (hw : Whole x.pop a b c d)
    (hab : a ≤ b) (hb : b < 24) (hcd : c ≤ d) (hd : d < 7)
    {y : Hourly.Model Dbl} {hourly monthly : List (Hourly.EndUses Dbl)} (hh : Hourly.simulate false ⟨x.map fin, w, pushed⟩ = some (y, hourly))
    (hm : Monthly.simulate (x.map fin) = some monthly) :
    ∃ (e : ℕ → ℝ) (week : ℝ), (∀ i (hi : i < hourly.length), hourly[i] 6 = fin (e i)) ∧
      (∀ m : Fin 12, ∃ hl : m.val < monthly.length, monthly[m.val] 6 = fin (days m / 7 * week)) ∧
      ∀ k, k < 52 → weekOf e k = week + (d - c + 1) *
        (x.building.electricApplianceHeatGainOccupied - x.building.electricApplianceHeatGainUnoccupied) / 1000 := by
  obtain ⟨e, h1, h2⟩ := C85_hourly ⟨x.map fin, w, pushed⟩ x.pop rfl hw hab hb hcd hd rfl rfl hh
  refine ⟨e, _, h1, fun m => C85_monthly x hw hab hb.le hcd hd hm m, fun k hk => ?_⟩
  rw [h2 k hk]; unfold weekWith; ring

/-- C85: the two agree on every week if the monthly simulation gets the building with a last hour one later (8 to 17 counted as in
the hourly simulation is 8 to 18 in the monthly one). -/
theorem C85_agree (x x' : Sim ℝ) (w : Weather Dbl) (pushed : Hourly.Pushed Dbl) {a b c d : ℕ} (hw : Whole x.pop a b c d)
    (hw' : Whole x'.pop a (b + 1) c d) (hab : a ≤ b) (hb : b < 24) (hcd : c ≤ d) (hd : d < 7) (hbuild : x'.building = x.building)
    {y : Hourly.Model Dbl} {hourly monthly : List (Hourly.EndUses Dbl)} (hh : Hourly.simulate false ⟨x.map fin, w, pushed⟩ = some (y, hourly))
    (hm : Monthly.simulate (x'.map fin) = some monthly) :
    ∃ (e : ℕ → ℝ) (week : ℝ), (∀ i (hi : i < hourly.length), hourly[i] 6 = fin (e i)) ∧
      (∀ m : Fin 12, ∃ hl : m.val < monthly.length, monthly[m.val] 6 = fin (days m / 7 * week)) ∧ ∀ k, k < 52 → weekOf e k = week := by
  obtain ⟨e, h1, h2⟩ := C85_hourly ⟨x.map fin, w, pushed⟩ x.pop rfl hw hab hb hcd hd rfl rfl hh
  refine ⟨e, _, h1, fun m => C85_monthly x' hw' (by omega) (by omega) hcd hd hm m, fun k hk => ?_⟩
  rw [h2 k hk, hbuild]; push_cast; unfold weekWith; ring

/-! ## The hypotheses are met by the office with sun in every month -/

theorem sunny_whole : Whole sunnyOffice.pop 8 17 1 5 := by
  constructor <;> simp [sunnyOffice, monthlyOffice, smallOffice]

theorem sunny_simulates : ∃ r, Monthly.simulate (sunnyOffice.map fin) = some r := by
  obtain ⟨s, hs⟩ := sunny_stages
  exact ⟨_, by unfold Monthly.simulate; rw [hs]; rfl⟩

/-- in a week the hourly simulation reports five hours of occupied instead of unoccupied power more -/
example : ∃ y hourly monthly, Hourly.simulate false ⟨sunnyOffice.map fin, someWeather.map fin, Hourly.Pushed.empty⟩ = some (y, hourly) ∧
    Monthly.simulate (sunnyOffice.map fin) = some monthly ∧
    ∃ (e : ℕ → ℝ) (week : ℝ), (∀ i (hi : i < hourly.length), hourly[i] 6 = fin (e i)) ∧
      (∀ m : Fin 12, ∃ hl : m.val < monthly.length, monthly[m.val] 6 = fin (days m / 7 * week)) ∧
      ∀ k, k < 52 → weekOf e k ≠ week := by
  obtain ⟨y, hourly, hh, -⟩ := C13_runs ⟨sunnyOffice.map fin, someWeather.map fin, Hourly.Pushed.empty⟩ sunnyOffice.pop rfl
    (by norm_num [sunnyOffice, monthlyOffice, smallOffice]) (by norm_num [sunnyOffice, monthlyOffice, smallOffice])
    (by norm_num [sunnyOffice, monthlyOffice, smallOffice]) (by norm_num [sunnyOffice, monthlyOffice, smallOffice])
  obtain ⟨monthly, hm⟩ := sunny_simulates
  obtain ⟨e, week, h1, h2, h3⟩ := C85_disagree sunnyOffice (someWeather.map fin) Hourly.Pushed.empty sunny_whole (by decide) (by decide)
    (by decide) (by decide) hh hm
  refine ⟨y, hourly, monthly, hh, hm, e, week, h1, h2, fun k hk => ?_⟩
  rw [h3 k hk]
  norm_num [sunnyOffice, monthlyOffice, smallOffice]

/-- the office with other clock hours -/
noncomputable def sunnyFromTo (a b : ℕ) : Sim ℝ := { sunnyOffice with pop := { sunnyOffice.pop with hoursStart := a, hoursEnd := b } }

theorem sunnyFromTo_whole (a b : ℕ) : Whole (sunnyFromTo a b).pop a b 1 5 := by
  constructor <;> simp [sunnyFromTo, sunnyOffice, monthlyOffice, smallOffice]

theorem sunnyFromTo_runs {a b : ℕ} (ha : a < 24) (hb : b < 24) (hne : a ≠ b) :
    (∃ r, Monthly.simulate ((sunnyFromTo a b).map fin) = some r) ∧
    ∃ y hourly, Hourly.simulate false ⟨(sunnyFromTo a b).map fin, someWeather.map fin, Hourly.Pushed.empty⟩ = some (y, hourly) := by
  have a1 : (a : ℝ) ≤ 23 := by exact_mod_cast (by omega : a ≤ 23)
  have b1 : (b : ℝ) ≤ 23 := by exact_mod_cast (by omega : b ≤ 23)
  have a0 : (0 : ℝ) ≤ a := by positivity
  have b0 : (0 : ℝ) ≤ b := by positivity
  constructor
  · rw [← Option.isSome_iff_exists, Option.isSome_iff_ne_none]
    intro hc
    have hpos : 0 < windowHours (sunnyFromTo a b).pop := by
      unfold windowHours
      show 0 < if (b : ℝ) < a then 24 + ((b : ℝ) - a) else (b : ℝ) - a
      split
      · linarith
      · have : (a : ℝ) ≠ b := by exact_mod_cast hne
        rcases lt_or_gt_of_ne this with h | h <;> linarith
    rcases (C41_defined _ hpos).mp hc with ⟨m, hm⟩ | ⟨i, hi⟩ | hm
    · have := hm 8
      norm_num [sunnyFromTo, sunnyOffice] at this
    · exact hi (by norm_num [sunnyFromTo, sunnyOffice, monthlyOffice])
    · exact hm (by norm_num [sunnyFromTo, sunnyOffice, monthlyOffice, smallOffice])
  · obtain ⟨y, hourly, hh, -⟩ := C13_runs ⟨(sunnyFromTo a b).map fin, someWeather.map fin, Hourly.Pushed.empty⟩ (sunnyFromTo a b).pop rfl
      (by norm_num [sunnyFromTo, sunnyOffice, monthlyOffice, smallOffice]) (by norm_num [sunnyFromTo, sunnyOffice, monthlyOffice, smallOffice])
      (by show |(a : ℝ)| ≤ _; rw [abs_of_nonneg a0]; linarith) (by show |(b : ℝ)| ≤ _; rw [abs_of_nonneg b0]; linarith)
    exact ⟨y, hourly, hh⟩

/-- C85_agree: 8 to 17 in the hourly simulation, 8 to 18 in the monthly one -/
example : ∃ r y hourly, Monthly.simulate ((sunnyFromTo 8 18).map fin) = some r ∧
    Hourly.simulate false ⟨(sunnyFromTo 8 17).map fin, someWeather.map fin, Hourly.Pushed.empty⟩ = some (y, hourly) ∧
    Whole (sunnyFromTo 8 17).pop 8 17 1 5 ∧ Whole (sunnyFromTo 8 18).pop 8 (17 + 1) 1 5 ∧
    (sunnyFromTo 8 18).building = (sunnyFromTo 8 17).building := by
  obtain ⟨r, hr⟩ := (sunnyFromTo_runs (a := 8) (b := 18) (by decide) (by decide) (by decide)).1
  obtain ⟨y, hourly, hh⟩ := (sunnyFromTo_runs (a := 8) (b := 17) (by decide) (by decide) (by decide)).2
  exact ⟨r, y, hourly, hr, hh, sunnyFromTo_whole 8 17, sunnyFromTo_whole 8 18, rfl⟩

/-- a night shift from 22 to 6 o'clock: both simulations run, the hourly one is never occupied, the monthly one eight hours a day -/
example : ∃ r y hourly, Monthly.simulate ((sunnyFromTo 22 6).map fin) = some r ∧
    Hourly.simulate false ⟨(sunnyFromTo 22 6).map fin, someWeather.map fin, Hourly.Pushed.empty⟩ = some (y, hourly) ∧
    Whole (sunnyFromTo 22 6).pop 22 6 1 5 := by
  obtain ⟨⟨r, hr⟩, y, hourly, hh⟩ := sunnyFromTo_runs (a := 22) (b := 6) (by decide) (by decide) (by decide)
  exact ⟨r, y, hourly, hr, hh, sunnyFromTo_whole 22 6⟩

end ISO.Props
