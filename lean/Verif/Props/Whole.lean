import Verif.Lemmas.Whole
import Verif.Spec.Whole
import Verif.Props.Printing
import Verif.Props.Solar
import Verif.Props.Averages
import Verif.Props.Aggregate

/-!
# C61: complete input is simulated

With the library functions as they are, and with nothing assumed but the texts of the two files.
-/

namespace ISO.Props
open ISO ISO.Numerals ISO.Properties ISO.Spec ISO.Spec.Text ISO.Spec.Whole ISO.User ISO.CommandLine ISO.Epw ISO.Lemmas Dbl
open SunLemmas
open ISO.Solar (days_table)

/-! ### the weather file -/

theorem ten_pow_le {m n : ℕ} (h : m ≤ n) : (10 : ℝ) ^ m ≤ (10 : ℝ) ^ n := pow_le_pow_right₀ (by norm_num) h

theorem gives_atof {t : Str} {x : ℝ} (h : Gives t x) : Numerals.atof t = .fin x ∧ |x| ≤ (10 : ℝ) ^ 200 := by
  obtain ⟨p, q, hr, rfl, hb⟩ := h
  refine ⟨(C59_atof t).2.1 p q hr ?_, hb⟩
  exact moderate_lt (x := (q : ℝ)) (hb.trans (ten_pow_le (by norm_num))) (by rw [sub_self, abs_zero]; exact abs_nonneg _)

theorem cint_small {x : ℝ} (h : |x| ≤ 1000) : CNum.cint (Dbl.fin x) = some (truncR x) := by
  show cintR x = _
  obtain ⟨h1, h2⟩ := abs_le.mp h
  unfold cintR
  rw [if_pos]
  unfold truncR
  split
  · exact ⟨by have := Int.floor_nonneg.2 ‹0 ≤ x›; omega, by have : ⌊x⌋ ≤ 1000 := by exact_mod_cast (Int.floor_le x).trans h2
                                                            omega⟩
  · have h3 : (-1000 : ℤ) ≤ ⌈x⌉ := by
      have : ((-1000 : ℤ) : ℝ) ≤ ⌈x⌉ := by push_cast; exact h1.trans (Int.le_ceil x)
      exact_mod_cast this
    have h4 : ⌈x⌉ ≤ 0 := Int.ceil_le.2 (by push_cast; linarith)
    omega

/-- the year of weather that the file gives -/
noncomputable def yearOf (lat lon zone : ℝ) (v : Fin 7 → Fin 8760 → ℝ) : Epw.Weather ℝ := ⟨lat, lon, truncR zone, v⟩

theorem file_year {text : Str} {lat lon zone : ℝ} {v : Fin 7 → Fin 8760 → ℝ} (h : YearFile text lat lon zone v) (hz : |zone| ≤ 24) :
    Epw.toWeather (Epw.loadFile Numerals.atof (some text) Epw.construct) = some ((yearOf lat lon zone v).map Dbl.fin) := by
  obtain ⟨ls, rfl, hn, ⟨fs, h0, f1, f2, g1, g2, g3⟩, hrows⟩ := h.lines
  cases ls with
  | nil => cases h0
  | cons l ls =>
    obtain rfl : l = Spec.Epw.line fs := by simpa using h0
    obtain ⟨-, -, e1, e2, e3⟩ := C14_header Numerals.atof fs f1 f2 ls hn Epw.construct
    have e4 := C16_length Numerals.atof (some (Spec.Epw.file (Spec.Epw.line fs :: ls))) Epw.construct
    have e5 : ∀ c (r : Fin 8760), ((Epw.loadFile Numerals.atof (some (Spec.Epw.file (Spec.Epw.line fs :: ls))) Epw.construct).data c)[r.1]? =
        some (Dbl.fin (v c r)) := by
      intro c r
      obtain ⟨gs, k0, k1, k2, k3⟩ := hrows r
      rw [C14_row Numerals.atof (Spec.Epw.line fs) ls hn Epw.construct r.1 r.2 gs k1 k2 k0 c, (gives_atof (k3 c)).1]
    rw [(gives_atof g1).1] at e1
    rw [(gives_atof g2).1] at e2
    rw [(gives_atof g3).1, cint_small (hz.trans (by norm_num))] at e3
    generalize Epw.loadFile Numerals.atof (some (Spec.Epw.file (Spec.Epw.line fs :: ls))) Epw.construct = e' at *
    unfold Epw.toWeather
    rw [e1, e2, e3]
    simp only
    rw [dif_pos e4]
    unfold Epw.Weather.map yearOf
    congr 2
    funext c i
    have := e5 c i
    rw [List.getElem?_eq_getElem (by rw [e4]; exact i.2)] at this
    exact Option.some.inj this

/-- the values of the file are moderate -/
theorem file_size {text : Str} {lat lon zone : ℝ} {v : Fin 7 → Fin 8760 → ℝ} (h : YearFile text lat lon zone v) (c : Fin 7) (r : Fin 8760) :
    |v c r| ≤ (10 : ℝ) ^ 200 := by
  obtain ⟨ls, -, -, -, hrows⟩ := h.lines
  obtain ⟨gs, -, -, -, k⟩ := hrows r
  exact (gives_atof (k c)).2

/-! ### the averages -/

theorem mean_size (f : Fin 8760 → ℝ) (B : ℝ) (h : ∀ i, |f i| ≤ B) (m : Fin 12) :
    (∃ v, monthMean (fun i => fin (f i)) (m.1 + 1) = fin v ∧ |v| ≤ B) ∧
    ∀ hr : Fin 24, ∃ v, hourMean (fun i => fin (f i)) (m.1 + 1) hr.1 = fin v ∧ |v| ≤ B := by
  obtain ⟨⟨v, h1, h2⟩, h3⟩ := C17_between f m.1 m.2 (-B) B (fun i _ => abs_le.mp (h i))
  refine ⟨⟨v, h1, abs_le.mpr h2⟩, fun hr => ?_⟩
  obtain ⟨v, h4, h5⟩ := h3 hr.1 hr.2
  exact ⟨v, h4, abs_le.mpr h5⟩

theorem text_fin {x : ℝ} (h : |x| ≤ (10 : ℝ) ^ 300) : ∃ y, standard.atof (standard.fmt (fin x)) = fin y ∧ (x ≠ 0 → y ≠ 0) := by
  obtain ⟨y, h1, -, -, h2⟩ := C60_read 6 (by norm_num) (fin x) h
  refine ⟨y, h1, fun hx hy => ?_⟩
  rw [hy, zero_sub, abs_neg] at h2
  have := abs_pos.mpr hx
  norm_num at h2
  linarith

theorem irradiance_size (w : Epw.Weather ℝ) (B : ℝ) (hB : ∀ i, 0 ≤ w.data EB i ∧ w.data EB i ≤ B ∧ 0 ≤ w.data ED i ∧ w.data ED i ≤ B)
    (hlat : 28.1 ≤ |w.latitude| ∧ |w.latitude| ≤ 90) (i : Fin 8760) (k : Fin 8) : ∃ e, Solar.eglobe (w.map fin) i k = fin e ∧ |e| ≤ 5 * B := by
  have hz := C19_never_zenith (place w) hlat.1 hlat.2 (i.1 / 24 : ℕ) (i.1 % 24 : ℕ)
  obtain ⟨b0, b1, d0, d1⟩ := hB i
  obtain ⟨⟨c1, c2⟩, c3, c4⟩ := C20_bounds b0 d0 (place w) (i.1 / 24 : ℕ) (i.1 % 24 : ℕ) k
  refine ⟨_, C20_sum w i k hz, ?_⟩
  generalize Spec.Sun.direct (w.data EB i) (Spec.Sun.cosIncidence (place w) (i.1 / 24 : ℕ) (i.1 % 24 : ℕ) k) = p at *
  generalize Spec.Sun.sky (w.data ED i) (Spec.Sun.cosIncidence (place w) (i.1 / 24 : ℕ) (i.1 % 24 : ℕ) k) = q at *
  generalize Spec.Sun.up (place w) (i.1 / 24 : ℕ) (i.1 % 24 : ℕ) = u at *
  generalize w.data EB i = b at *
  generalize w.data ED i = d at *
  obtain ⟨w1, w2, -⟩ := wall_trig
  norm_num at w2
  obtain ⟨u1, u2⟩ := abs_lt.mp hz
  have hg : |Spec.Sun.ground b d u| ≤ b + d := by
    unfold Spec.Sun.ground
    generalize Real.cos Spec.Sun.wall = t at *
    have k1 : |b * u + d| ≤ b + d := abs_le.mpr ⟨by nlinarith, by nlinarith⟩
    rw [abs_div, abs_mul, abs_mul, abs_of_pos (show (0:ℝ) < 0.14 by norm_num), abs_of_pos (show (0:ℝ) < 1 - t by linarith),
      abs_of_pos (show (0:ℝ) < 2 by norm_num)]
    generalize |b * u + d| = z at *
    norm_num
    nlinarith [mul_nonneg (show 0 ≤ b + d by linarith) (show 0 ≤ 1 - (1 - t) by linarith)]
  obtain ⟨g1, g2⟩ := abs_le.mp hg
  norm_num at c3 c4
  exact abs_le.mpr ⟨by linarith, by linarith⟩

theorem averages_real (w : Epw.Weather ℝ) (hw : ∀ c i, |w.data c i| ≤ (10 : ℝ) ^ 200) (h0 : ∀ i, 0 ≤ w.data EB i ∧ 0 ≤ w.data ED i)
    (hlat : 28.1 ≤ |w.latitude| ∧ |w.latitude| ≤ 90) :
    ∃ a : WeatherData ℝ, siteAverages standard (w.map fin) = a.map fin ∧
      ∀ m h x, hourMean (fun i => fin (w.data EGH i)) (m.1 + 1) h.1 = fin x → x ≠ 0 → a.mhEgh m h ≠ 0 := by
  have big : 5 * (10 : ℝ) ^ 200 ≤ (10 : ℝ) ^ 300 := by
    calc 5 * (10 : ℝ) ^ 200 ≤ 10 * (10 : ℝ) ^ 200 := mul_le_mul_of_nonneg_right (by norm_num) (pow_nonneg (by norm_num) _)
      _ = (10 : ℝ) ^ 201 := (pow_succ' 10 200).symm
      _ ≤ _ := ten_pow_le (by norm_num)
  have b300 : (10 : ℝ) ^ 200 ≤ (10 : ℝ) ^ 300 := ten_pow_le (by norm_num)
  have hm : ∀ (c : Fin 7) (m : Fin 12), ∃ y, standard.atof (standard.fmt (monthMean (fun i => fin (w.data c i)) (m.1 + 1))) = fin y := by
    intro c m
    obtain ⟨v, e, hv⟩ := (mean_size (w.data c) _ (hw c) m).1
    obtain ⟨y, hy, -⟩ := text_fin (hv.trans b300)
    exact ⟨y, by rw [e]; exact hy⟩
  have hh : ∀ (c : Fin 7) (m : Fin 12) (h : Fin 24), ∃ y, standard.atof (standard.fmt (hourMean (fun i => fin (w.data c i)) (m.1 + 1) h.1)) = fin y ∧
      ∀ x, hourMean (fun i => fin (w.data c i)) (m.1 + 1) h.1 = fin x → x ≠ 0 → y ≠ 0 := by
    intro c m h
    obtain ⟨v, e, hv⟩ := (mean_size (w.data c) _ (hw c) m).2 h
    obtain ⟨y, hy, hne⟩ := text_fin (hv.trans b300)
    refine ⟨y, by rw [e]; exact hy, fun x hx hx0 => hne ?_⟩
    rw [e] at hx
    rwa [Dbl.fin.inj hx]
  have hs : ∀ (m : Fin 12) (s : Fin 8), ∃ y, standard.atof (standard.fmt (monthMean (fun i => Solar.eglobe (w.map fin) i s) (m.1 + 1))) = fin y := by
    intro m s
    have key := irradiance_size w ((10 : ℝ) ^ 200) (fun i => ⟨(h0 i).1, (le_abs_self _).trans (hw EB i), (h0 i).2, (le_abs_self _).trans (hw ED i)⟩) hlat
    choose e he hb using fun i => key i s
    obtain ⟨v, h1, h2⟩ := (mean_size e _ hb m).1
    obtain ⟨y, hy, -⟩ := text_fin (h2.trans big)
    refine ⟨y, ?_⟩
    rw [show (fun i => Solar.eglobe (w.map fin) i s) = fun i => fin (e i) from funext he, h1]
    exact hy
  choose ym em using hm
  choose yh eh nh using hh
  choose ys es using hs
  refine ⟨⟨ys, yh DBT, yh EGH, ym EGH, ym DBT, ym WSPD⟩, ?_, fun m h x hx h0 => nh EGH m h x hx h0⟩
  unfold siteAverages WeatherData.map
  congr 1
  · funext m s; exact es m s
  · funext m h; exact eh DBT m h
  · funext m h; exact eh EGH m h
  · funext m; exact em EGH m
  · funext m; exact em DBT m
  · funext m; exact em WSPD m

theorem sunny_hour (f : Fin 8760 → ℝ) (h0 : ∀ i, 0 ≤ f i) (m : Fin 12) (r : Fin 8760) (hr : r.1 ∈ hoursOfMonth (m.1 + 1)) (h1 : 1 ≤ f r) :
    ∃ x, hourMean (fun i => fin (f i)) (m.1 + 1) (r.1 % 24) = fin x ∧ x ≠ 0 := by
  have hd := daysIn_eq m
  have dt := days_table m
  have hpos : (0:ℝ) < daysIn (m.1 + 1) := by exact_mod_cast hd.2
  let g : ℕ → ℝ := fun i => if h : i < 8760 then f ⟨i, h⟩ else 0
  have hg : ∀ i, atHour (fun i => fin (f i)) i = fin (g i) := by
    intro i; unfold atHour; simp only [g]; split_ifs <;> rfl
  have hg0 : ∀ i, 0 ≤ g i := by
    intro i; simp only [g]; split_ifs
    · exact h0 _
    · exact le_rfl
  refine ⟨(∑ d ∈ Finset.range (daysIn (m.1 + 1)), g (hourOfYear (m.1 + 1) (d + 1) (r.1 % 24))) / daysIn (m.1 + 1), ?_, ?_⟩
  · unfold hourMean
    rw [Finset.sum_congr rfl (fun d _ => hg (hourOfYear (m.1 + 1) (d + 1) (r.1 % 24))), fin_sum, fin_div _ hpos.ne']
  · have hi : r.1 ∈ Finset.Ico (24 * daysBefore (m.1 + 1)) (24 * daysBefore (m.1 + 2)) := hr
    rw [Finset.mem_Ico] at hi
    have hday : r.1 / 24 - daysBefore (m.1 + 1) ∈ Finset.range (daysIn (m.1 + 1)) := by
      rw [Finset.mem_range, ← hd.1]; omega
    have hone : hourOfYear (m.1 + 1) (r.1 / 24 - daysBefore (m.1 + 1) + 1) (r.1 % 24) = r.1 := by
      unfold hourOfYear; omega
    have := Finset.single_le_sum (f := fun d => g (hourOfYear (m.1 + 1) (d + 1) (r.1 % 24))) (fun d _ => hg0 _) hday
    simp only [hone] at this
    have hr1 : 1 ≤ g r.1 := by simp only [g, dif_pos r.2]; exact h1
    exact (div_pos (by linarith) hpos).ne'

/-! ### the simulations -/

theorem hourly_runs {α : Type} [CNum α] [OfInt α] (m : Hourly.Model α) (win : Hourly.Window) (h : Hourly.window m.sim.pop = some win) (b : Bool) :
    ∃ after rs, Hourly.simulate b m = some (after, rs) ∧ rs.length = if b then 12 else 8760 := by
  obtain ⟨⟨after, rs⟩, hr⟩ : ∃ r, Hourly.simulate false m = some r := by
    unfold Hourly.simulate
    simp only [h]
    exact ⟨_, rfl⟩
  obtain ⟨h1, out, h2, h3, -⟩ := C28_order m hr
  cases b with
  | false => exact ⟨after, rs, hr, h1⟩
  | true => exact ⟨after, out, h2, h3⟩

theorem monthly_length {x : Sim Dbl} {rs : List (Fin 13 → Dbl)} (h : Monthly.simulate x = some rs) : rs.length = 12 := by
  unfold Monthly.simulate at h
  cases hs : Monthly.stages x with
  | none => rw [hs] at h; cases h
  | some s =>
    rw [hs] at h
    cases h
    unfold Monthly.outputGeneration
    rw [List.length_map, List.length_finRange]

/-- what both simulations need of the files -/
theorem complete_input (junk : Params Dbl) (file : Properties.Store) (ha : ∀ r ∈ Param.table, Param.judge Numerals.stod file r = .accepted)
    (hfin : Finite file) (hocc : Occupied file) (text : Str) (lat lon zone : ℝ) (v : Fin 7 → Fin 8760 → ℝ)
    (hy : YearFile text lat lon zone v) (hs : Suitable lat zone v) :
    (Monthly.simulate (simOf (Param.stored Numerals.stod file (newObject junk)) (siteAverages standard ((yearOf lat lon zone v).map fin))) = none ↔
      ∃ i, ¬ ∃ c : ℝ, (Param.stored Numerals.stod file (newObject junk)).bldg.windowShadingDevice i = fin c ∧ 1 ≤ c ∧ c < 4) ∧
    ∀ averages, ∃ win, Hourly.window (simOf (Param.stored Numerals.stod file (newObject junk)) averages).pop = some win := by
  obtain ⟨d₁, d₂, h₁, h₂, n1, n2, n3, n4, b1, b2, b3, b4, b5, b6, b7⟩ := hocc
  constructor
  · obtain ⟨a, hav, hne⟩ := averages_real (yearOf lat lon zone v) (file_size hy) (fun i => (hs.radiation i).2) hs.lat
    obtain ⟨x, hx, -, hd⟩ := C52_defined ⟨finiteStod Numerals.stod, Numerals.atof, Numerals.print 6⟩ (finiteStod_fin _) junk file
      (fun r hr => (judge_finite r).trans (ha r hr)) a
    simp only at hx
    rw [stored_finite hfin.1 hfin.2] at hx
    obtain ⟨e1, e2, -⟩ := stored_fields standard junk file _ x hx
    change (Param.number Numerals.stod file "occupancyhourlast").getD _ = _ at e1
    change (Param.number Numerals.stod file "occupancyhourfirst").getD _ = _ at e2
    rw [n4] at e1
    rw [n3] at e2
    have hp : 0 < windowHours x.pop := by
      unfold windowHours
      rw [← Dbl.fin.inj e1, ← Dbl.fin.inj e2]
      split_ifs with h
      · linarith
      · have := lt_of_le_of_ne (not_lt.1 h) b7
        linarith
    rw [hav, hx, hd hp]
    have hcode : ∀ i, (Param.stored Numerals.stod file (newObject junk)).bldg.windowShadingDevice i = fin (x.bldg.windowShadingDevice i) :=
      fun i => congrArg (fun s : Sim Dbl => s.bldg.windowShadingDevice i) hx
    constructor
    · rintro (⟨m, h⟩ | ⟨i, h⟩)
      · obtain ⟨r, hr, h1⟩ := hs.sun m.1 m.2
        obtain ⟨x, hx, hx0⟩ := sunny_hour (v 3) (fun i => (hs.radiation i).1) m r hr h1
        exact absurd (h ⟨r.1 % 24, Nat.mod_lt _ (by norm_num)⟩) (hne m ⟨r.1 % 24, Nat.mod_lt _ (by norm_num)⟩ x hx hx0)
      · refine ⟨i, fun ⟨c, hc, h1⟩ => h ?_⟩
        rw [hcode] at hc
        rwa [Dbl.fin.inj hc]
    · rintro ⟨i, h⟩
      exact Or.inr ⟨i, fun h1 => h ⟨_, hcode i, h1⟩⟩
  · intro averages
    refine ⟨⟨truncR d₁, truncR d₂, truncR h₁, truncR h₂⟩, ?_⟩
    have p1 : (simOf (Param.stored Numerals.stod file (newObject junk)) averages).pop.daysStart = fin d₁ := by
      show (Param.number Numerals.stod file "occupancydayfirst").getD _ = _
      rw [n1]; rfl
    have p2 : (simOf (Param.stored Numerals.stod file (newObject junk)) averages).pop.daysEnd = fin d₂ := by
      show (Param.number Numerals.stod file "occupancydaylast").getD _ = _
      rw [n2]; rfl
    have p3 : (simOf (Param.stored Numerals.stod file (newObject junk)) averages).pop.hoursStart = fin h₁ := by
      show (Param.number Numerals.stod file "occupancyhourfirst").getD _ = _
      rw [n3]; rfl
    have p4 : (simOf (Param.stored Numerals.stod file (newObject junk)) averages).pop.hoursEnd = fin h₂ := by
      show (Param.number Numerals.stod file "occupancyhourlast").getD _ = _
      rw [n4]; rfl
    unfold Hourly.window
    rw [p1, p2, p3, p4, cint_small (b1.trans (by norm_num)), cint_small (b2.trans (by norm_num)),
      cint_small (abs_le.mpr ⟨by linarith, by linarith⟩), cint_small (abs_le.mpr ⟨by linarith, by linarith⟩)]
    rfl

/-- **C61.** With complete input the program does everything it is asked to, and returns. -/
theorem C61_runs (fs : FileSystem) (junk : Params Dbl) (o : Options) (hb : fs.exists_ o.ism = true)
    (hd : ∀ d, o.defaults = some d → fs.exists_ d = true) (file : Properties.Store) (hfile : parsed fs o = .ok file)
    (ha : ∀ r ∈ Param.table, Param.judge Numerals.stod file r = .accepted) (hfin : Finite file) (hocc : Occupied file) (hsh : Shaded file)
    (path weather : Str) (hp : Param.given file "weatherfilepath" = some path)
    (hW : if fs.exists_ path then weather = path else weather = resolveFilename o.ism path ∧ fs.exists_ weather = true)
    (text : Str) (hread : fs.read weather = some text) (lat lon zone : ℝ) (v : Fin 7 → Fin 8760 → ℝ)
    (hy : YearFile text lat lon zone v) (hs : Suitable lat zone v) :
    (∃ out, main standard Numerals.print fs junk o = .returns (actions o) out) ∧
    (Nothing o → ∃ out, main standard Numerals.print fs junk o = .returns [.runMonthly] out ∧ (readTable ',' out).length = 14 ∧
      ∀ row ∈ (readTable ',' out).drop 1, row.length = 14) := by
  have hw := file_year hy hs.zone
  rw [← hread] at hw
  obtain ⟨h1, h2⟩ := complete_input junk file ha hfin hocc text lat lon zone v hy hs
  obtain ⟨m, hm⟩ : ∃ m, Monthly.simulate (simOf (Param.stored Numerals.stod file (newObject junk)) (siteAverages standard ((yearOf lat lon zone v).map fin))) = some m := by
    cases hn : Monthly.simulate (simOf (Param.stored Numerals.stod file (newObject junk)) (siteAverages standard ((yearOf lat lon zone v).map fin))) with
    | some m => exact ⟨m, rfl⟩
    | none =>
      obtain ⟨i, hi⟩ := h1.mp hn
      obtain ⟨f, hf, hc⟩ := hsh
      refine absurd ?_ hi
      obtain ⟨c, e, hc⟩ := hc i
      refine ⟨c, ?_, hc⟩
      show (Param.facades Numerals.stod file "windowSDF").getD _ i = _
      rw [hf]; exact e
  constructor
  · obtain ⟨u, hu, hf, hmon, hhr⟩ := C52_results standard C60_library.1 fs junk o hb hd file hfile ha path weather hp hW _ hw
    obtain ⟨win, hwin⟩ := h2 noAverages
    have hrun := fun b => hourly_runs ⟨simOf (Param.stored Numerals.stod file (newObject junk)) noAverages, (yearOf lat lon zone v).map fin, Hourly.Pushed.empty⟩ win hwin b
    obtain ⟨a1, r, e1, -⟩ := hrun true
    obtain ⟨a2, h, e2, -⟩ := hrun false
    obtain ⟨t1, t2, t3, t4, k, -⟩ := C51_program standard C60_library.1 Numerals.print C60_library.2 fs junk o u hu hf m r h
      (fun _ => (hmon m).mpr hm) (fun _ => (hhr true r noAverages).mpr ⟨a1, e1⟩) (fun _ => (hhr false h noAverages).mpr ⟨a2, e2⟩)
    exact ⟨_, k⟩
  · intro ho
    obtain ⟨out, k1, k2⟩ := C52_default standard C60_library.1 Numerals.print C60_library.2 fs junk o ho hb hd file hfile ha path weather hp hW _ hw m hm
    refine ⟨out, k1, ?_, ?_⟩
    · rw [k2]
      unfold resultTable
      simp [monthly_length hm]
    · rw [k2]
      unfold resultTable
      intro row hrow
      simp only [List.drop_succ_cons, List.drop_zero, List.mem_cons, List.mem_map] at hrow
      rcases hrow with rfl | ⟨p, -, rfl⟩
      · rfl
      · simp

/-- **C61, a disagreement.** A facade whose shading device is not 1, 2 or 3, for instance 0 for a facade without windows, makes the program read
outside an array. -/
theorem C61_shading (fs : FileSystem) (junk : Params Dbl) (o : Options) (ho : Nothing o) (hb : fs.exists_ o.ism = true)
    (hd : ∀ d, o.defaults = some d → fs.exists_ d = true) (file : Properties.Store) (hfile : parsed fs o = .ok file)
    (ha : ∀ r ∈ Param.table, Param.judge Numerals.stod file r = .accepted) (hfin : Finite file) (hocc : Occupied file)
    (f : Fin 9 → Dbl) (hf : Param.facades Numerals.stod file "windowSDF" = some f) (i : Fin 9) (c : ℝ) (hi : f i = fin c) (hc : c < 1 ∨ 4 ≤ c)
    (path weather : Str) (hp : Param.given file "weatherfilepath" = some path)
    (hW : if fs.exists_ path then weather = path else weather = resolveFilename o.ism path ∧ fs.exists_ weather = true)
    (text : Str) (hread : fs.read weather = some text) (lat lon zone : ℝ) (v : Fin 7 → Fin 8760 → ℝ)
    (hy : YearFile text lat lon zone v) (hs : Suitable lat zone v) :
    main standard Numerals.print fs junk o = .undefined := by
  have hw := file_year hy hs.zone
  rw [← hread] at hw
  obtain ⟨h1, -⟩ := complete_input junk file ha hfin hocc text lat lon zone v hy hs
  have hn := h1.mpr ⟨i, fun ⟨c', e, h⟩ => by
    have e' : (Param.facades Numerals.stod file "windowSDF").getD (fun _ => 0.0) i = fin c' := e
    rw [hf, Option.getD_some, hi] at e'
    have := Dbl.fin.inj e'
    subst this
    rcases hc with hc | hc <;> linarith [h.1, h.2]⟩
  obtain ⟨u, hu, hfound, hmon, -⟩ := C52_results standard C60_library.1 fs junk o hb hd file hfile ha path weather hp hW _ hw
  obtain ⟨b, hb⟩ : ∃ b, toMonthlyModel u = some b := by
    unfold toMonthlyModel
    rw [(valid_found standard C60_library.1 fs junk o u hu).mpr hfound]
    exact ⟨_, rfl⟩
  have hres : monthlyResults u = .undefined := by
    have hno : ∀ rs, monthlyResults u ≠ .ok rs := fun rs h => by
      have := (hmon rs).mp h
      exact absurd (hn.symm.trans this) (by simp)
    unfold monthlyResults at hno ⊢
    rw [hb] at hno ⊢
    simp only at hno ⊢
    cases hX : ((monthlyWeather u b).bind complete).bind fun w => Monthly.simulate (simOf b.params w) with
    | none => rfl
    | some rs => exact absurd (by rw [hX]; rfl) (hno rs)
  obtain ⟨o1, o2, o3, o4⟩ := ho
  have hact : actions o = [.runMonthly] := by
    obtain ⟨ism, d, m, hm, hh, c⟩ := o
    simp only at o1 o2 o3 o4
    subst o1 o2 o3 o4
    rfl
  unfold main
  rw [hu, hact]
  simp only [perform, act, runMonthlySimulation, hres, Step.bind]

end ISO.Props
