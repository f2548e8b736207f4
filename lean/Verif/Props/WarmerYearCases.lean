import Verif.Props.WarmerYear
import Verif.Props.WholeYearCases

/-! # C78: the hypotheses are met by the small office in the windy year and a colder one -/

namespace ISO.Props
open ISO ISO.Spec ISO.Dbl ISO.Epw Hourly CNum ISO.Lemmas

/-- the windy year, with days of six degrees instead of ten -/
noncomputable def colderWeather : Weather ℝ :=
  { windyWeather with data := fun c i => if c = DBT then 0.6 * windyWeather.data DBT i else windyWeather.data c i }

theorem colder_warmer : WarmerYear colderWeather windyWeather := by
  refine ⟨rfl, rfl, rfl, rfl, rfl, rfl, rfl, fun i => ?_⟩
  have : 0 ≤ windyWeather.data DBT i := by
    simp only [windyWeather, if_true]; split_ifs <;> norm_num
  show 0.6 * windyWeather.data DBT i ≤ windyWeather.data DBT i
  linarith

theorem colder_overhead : NotOverhead colderWeather := notOverhead_of_lat rfl

theorem colder_office : WindDriven smallOffice colderWeather 20 28 := by
  refine ⟨windy_office.fans, ?_, le_rfl, by norm_num, windy_office.heatOccupied, windy_office.heatUnoccupied, windy_office.coolOccupied,
    windy_office.coolUnoccupied⟩
  intro i t t1 t2
  have hl : 0 ≤ leakageAt4Pa smallOffice := le_max_of_le_left (by norm_num)
  have w1 : colderWeather.data WSPD i = 10 := by
    show windyWeather.data WSPD i = 10
    simp [windyWeather, DBT, WSPD]
  have w2 : 0 ≤ colderWeather.data DBT i ∧ colderWeather.data DBT i ≤ 10 := by
    have : 0 ≤ windyWeather.data DBT i ∧ windyWeather.data DBT i ≤ 10 := by
      simp only [windyWeather, if_true]; split_ifs <;> norm_num
    show 0 ≤ 0.6 * windyWeather.data DBT i ∧ 0.6 * windyWeather.data DBT i ≤ 10
    constructor <;> linarith
  unfold stackFlow windFlow
  have v1 : smallOffice.ventilation.hzone = 39 := rfl
  have v2 : smallOffice.ventilation.dCp = 0.75 := rfl
  rw [w1, v1, v2]
  have a1 : |colderWeather.data DBT i - t| ≤ 28 := by rw [abs_le]; constructor <;> linarith [w2.1, w2.2]
  have a2 : 0.5 * max 0.1 39 * max 0.00001 |colderWeather.data DBT i - t| ≤ (546:ℝ) := by
    have : max 0.00001 |colderWeather.data DBT i - t| ≤ 28 := max_le (by norm_num) a1
    rw [max_eq_right (by norm_num)]
    linarith
  have a3 : (0:ℝ) ≤ 0.5 * max 0.1 39 * max 0.00001 |colderWeather.data DBT i - t| := by
    have : (0:ℝ) ≤ max 0.1 39 := le_max_of_le_right (by norm_num)
    have : 0 ≤ max 0.00001 |colderWeather.data DBT i - t| := le_max_of_le_right (abs_nonneg _)
    positivity
  have a4 := Real.rpow_le_rpow a3 a2 (by norm_num : (0:ℝ) ≤ 0.667)
  have e : (0.75 * 10 ^ 2 : ℝ) = 75 := by norm_num
  rw [e]
  have := wind_power
  have h5 : leakageAt4Pa smallOffice * ((0.5 * max 0.1 39 * max 0.00001 |colderWeather.data DBT i - t|) ^ (0.667:ℝ) * 0.0146) ≤
      leakageAt4Pa smallOffice * (0.0769 * 75 ^ (0.667:ℝ)) :=
    mul_le_mul_of_nonneg_left ((mul_le_mul_of_nonneg_right a4 (by norm_num)).trans this) hl
  linarith

/-- the hypotheses of `C78_warmer` hold for the office in the two years, for which there are results -/
example : Physical smallOffice ∧ PlainSystems smallOffice ∧ HeavyEnough smallOffice ∧ 0 ≤ smallOffice.ventilation.heatRecoveryEfficiency ∧
    smallOffice.ventilation.heatRecoveryEfficiency ≤ 1 ∧ NotOverhead colderWeather ∧ NotOverhead windyWeather ∧
    WarmerYear colderWeather windyWeather ∧ WindDriven smallOffice colderWeather 20 28 ∧ WindDriven smallOffice windyWeather 20 28 ∧
    (∃ i, colderWeather.data DBT i < windyWeather.data DBT i) ∧
    ∃ m r heat cool m' r' heat' cool', simulate false (fresh smallOffice colderWeather) = some (m, r) ∧ Course r heat cool ∧
      simulate false (fresh smallOffice windyWeather) = some (m', r') ∧ Course r' heat' cool' := by
  have s1 : 0 ≤ smallOffice.ventilation.heatRecoveryEfficiency ∧ smallOffice.ventilation.heatRecoveryEfficiency ≤ 1 := by
    constructor <;> norm_num [smallOffice]
  obtain ⟨win, hw, mass', air', surface', power', m0', run', ⟨i, hi, hpos⟩, m', r', heat', cool', hr', hc'⟩ := windy_year
  obtain ⟨mass, air, surface, power, m0, run, hp⟩ := year_run smallOffice_physical colder_overhead colder_office win
  have k := warmer_powers smallOffice_physical smallOffice_shares.2 s1.1 s1.2 colder_warmer colder_office windy_office win m0 m0' run run'
  obtain ⟨m, r, heat, cool, hr, hc⟩ := demand_course smallOffice_physical smallOffice_systems colder_overhead hw hp hi (lt_of_lt_of_le hpos (k i hi))
  refine ⟨smallOffice_physical, office_plain, smallOffice_shares.2, s1.1, s1.2, colder_overhead, windy_overhead, colder_warmer, colder_office,
    windy_office, ⟨12, ?_⟩, m, r, heat, cool, m', r', heat', cool', hr, hc, hr', hc'⟩
  have : windyWeather.data DBT 12 = 10 := by
    simp only [windyWeather, if_true]
    exact if_pos (by decide)
  show 0.6 * windyWeather.data DBT 12 < windyWeather.data DBT 12
  rw [this]
  norm_num

end ISO.Props
