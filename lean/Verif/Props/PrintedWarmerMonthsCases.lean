import Verif.Props.PrintedWarmerMonths
import Verif.Props.PrintedWarmthCases

/-! # C78: the hypotheses for the monthly table are met by the office of `EndToEndOffice` in two years -/

namespace ISO.Props
open ISO ISO.Numerals ISO.Properties ISO.Spec ISO.Spec.Text ISO.Spec.Whole ISO.Spec.EndToEnd ISO.User ISO.CommandLine ISO.Epw ISO.Lemmas Dbl
open ISO.Spec.Editing (SameTable)
open ISO.Spec.PrintedOrder PrintedOrderCases PrintedWarmthCases

namespace WarmerMonths

/-- years of hours of 10 degrees and of 12.2 degrees -/
def coldHours : Str := daysFile (windyHour "10" "150" "100" "85") (windyHour "10" "150" "100" "85")
def coolHours : Str := daysFile (windyHour "12.2" "150" "100" "85") (windyHour "12.2" "150" "100" "85")

theorem hours_complete {t : String} {q : ℚ} (h1 : '\n' ∉ Spec.Epw.line (windyHour t "150" "100" "85"))
    (h2 : ∀ f ∈ windyHour t "150" "100" "85", ',' ∉ f) (h3 : strtod t.toList = some (.number q, [])) {t' : ℝ} (e : t' = q) (b : |t'| ≤ 1000) :
    YearFile (daysFile (windyHour t "150" "100" "85") (windyHour t "150" "100" "85")) 41.98 (-87.92) (-6)
      fun c _ => windyValues t' 150 100 85 c := by
  have g := windyHour_gives (global := "150") (direct := "100") (diffuse := "85") (g := 150) (d := 100) (f := 85) h3 (by decide +kernel)
    (by decide +kernel) (by decide +kernel) e (g' := 150) (d' := 100) (f' := 85) (by norm_num) (by norm_num) (by norm_num) b
    (by norm_num [abs_le]) (by norm_num [abs_le]) (by norm_num [abs_le])
  have := daysFile_complete h1 h1 (by simp [windyHour]) (by simp [windyHour]) h2 h2 g g
  simpa only [ite_self] using this

theorem hours_suitable (t : ℝ) : Suitable 41.98 (-6) (fun c (_ : Fin 8760) => windyValues t 150 100 85 c) := by
  refine ⟨days_lat, days_zone, fun r => ?_, someYear_suitable.sun⟩
  simp only [windyValues]
  norm_num

/-- the averages of such a year -/
theorem hours_averages {t : ℝ} (h0 : 0 ≤ t ∧ t ≤ 12.2) {a : WeatherData ℝ}
    (ha : Averaged (yearOf 41.98 (-87.92) (-6) fun c _ => windyValues t 150 100 85 c) a) (m : Fin 12) :
    a.mdbt m ≤ 12.3 ∧ (149 ≤ a.mEgh m ∧ a.mEgh m ≤ 151) ∧ (∀ s, -501 ≤ a.msolar m s ∧ a.msolar m s ≤ 501) ∧
    ∀ h, 149 ≤ a.mhEgh m h ∧ a.mhEgh m h ≤ 151 := by
  set w : Weather ℝ := yearOf 41.98 (-87.92) (-6) fun c _ => windyValues t 150 100 85 c with hw
  have near : ∀ {x y d : ℝ}, Rounded 6 (fin x) (fin y) → |x| / 200000 ≤ d → x - d ≤ y ∧ y ≤ x + d := by
    intro x y d h hd
    have := abs_le.mp ((rounded_near h).trans hd)
    constructor <;> linarith [this.1, this.2]
  refine ⟨?_, ?_, fun s => ?_, fun h => ?_⟩
  · have h : Rounded 6 (monthMean (fun _ => fin t) (m.1 + 1)) (fin (a.mdbt m)) := ha.temperature m
    rw [(constant_month t m).1] at h
    obtain ⟨h1, h2⟩ := near h (d := 0.1) (by rw [abs_of_nonneg h0.1]; linarith)
    linarith
  · have h : Rounded 6 (monthMean (fun _ => fin 150) (m.1 + 1)) (fin (a.mEgh m)) := ha.sun m
    rw [(constant_month 150 m).1] at h
    obtain ⟨h1, h2⟩ := near h (d := 1) (by rw [abs_of_pos] <;> norm_num)
    constructor <;> linarith
  · have h := ha.facades m s
    have hr : ∀ i, |HourlyWhole.radiation w i ⟨s, by omega⟩| ≤ 500 := by
      intro i
      obtain ⟨e, h1, h2⟩ := irradiance_size w 100 (fun i => ⟨show (0:ℝ) ≤ 100 by norm_num, show (100:ℝ) ≤ 100 from le_rfl,
        show (0:ℝ) ≤ 85 by norm_num, show (85:ℝ) ≤ 100 by norm_num⟩) days_lat i s
      rw [EndToEnd.sun_eq (w := w) (EndToEnd.suitable_overhead days_lat), fin_inj] at h1
      rw [h1]
      linarith
    obtain ⟨⟨v, e, h1, h2⟩, -⟩ := C17_between (fun i => HourlyWhole.radiation w i ⟨s, by omega⟩) m.1 m.2 (-500) 500
      (fun i _ => abs_le.mp (hr i))
    rw [e] at h
    have hv : |v| ≤ 500 := abs_le.mpr ⟨h1, h2⟩
    obtain ⟨h3, h4⟩ := near h (d := 1) (by linarith)
    constructor <;> linarith
  · have h' : Rounded 6 (hourMean (fun _ => fin 150) (m.1 + 1) h.1) (fin (a.mhEgh m h)) := ha.sunAt m h
    rw [(constant_month 150 m).2] at h'
    obtain ⟨h1, h2⟩ := near h' (d := 1) (by rw [abs_of_pos] <;> norm_num)
    constructor <;> linarith

end WarmerMonths
open WarmerMonths

/-- the hypotheses of `C78_monthly_printed` are met: hours of 12.2 instead of 10 degrees; no month takes more for heating -/
example (junk : Params Dbl) : ∃ out out',
    main standard Numerals.print (twoFiles mended coldHours) junk ⟨"SmallOffice_v2.ism".toList, none, false, false, false, none⟩
      = .returns [.runMonthly] out ∧
    main standard Numerals.print (twoFiles mended coolHours) junk ⟨"SmallOffice_v2.ism".toList, none, false, false, false, none⟩
      = .returns [.runMonthly] out' ∧ SameTable [0, 1, 4, 5, 9, 10] out out' ∧
    ∀ m : Fin 12, CellAtMost m 0 out' out ∧ CellAtMost m 9 out' out ∧ CellAtMost m 1 out out' ∧ CellAtMost m 10 out out' := by
  obtain ⟨out, out', a, h, h', hA, hs, hc⟩ := C78_monthly_printed (Ready_inputs mended_ready coldHours false false false none)
    (Ready_inputs mended_ready coolHours false false false none) ⟨rfl, rfl, rfl, rfl⟩ ⟨rfl, rfl, rfl, rfl⟩ mended_describes mended_shading
    (varied_steady (h := mendedOffice.ventilation.heatRecoveryEfficiency) (t := 24) (c := 28)) mended_sensible mended_unmixed
    (fun i => by fin_cases i <;> norm_num [mendedOffice, nineOf]) (fun i => by fin_cases i <;> norm_num [mendedOffice, nineOf])
    (hours_complete (t := "10") (q := 10) (t' := 10) (by decide +kernel) (by decide +kernel) (by decide +kernel) (by norm_num) (by norm_num [abs_le]))
    (hours_complete (t := "12.2") (q := 122 / 10) (t' := 12.2) (by decide +kernel) (by decide +kernel) (by decide +kernel) (by norm_num)
      (by norm_num [abs_le]))
    (hours_suitable 10)
    (by
      intro c hc i
      fin_cases c
      · exact absurd (by decide) hc
      all_goals rfl)
    (fun i => show (10:ℝ) ≤ 12.2 by norm_num)
    (fun _ ha => mended_ordinary_of (hours_averages (by norm_num) ha)) (fun _ ha => mended_ordinary_of (hours_averages (by norm_num) ha)) junk junk
  refine ⟨out, out', h, h', hs, fun m => ?_⟩
  have cold : a.mdbt m < heatTo mendedOffice := by
    have := (hours_averages (by norm_num) hA m).1
    have e : heatTo mendedOffice = 24 := by norm_num [heatTo, levelShift, mendedOffice]
    rw [e]
    linarith
  exact ⟨((hc m).1 cold).1, ((hc m).1 cold).2, (hc m).2⟩

end ISO.Props
