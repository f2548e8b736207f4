import Verif.Props.WarmerMonths
import Verif.Props.PrintedWarmth

/-! # C78: a warmer year in the monthly table -/

namespace ISO.Props
open ISO ISO.Numerals ISO.Spec ISO.Spec.Text ISO.Spec.Whole ISO.User ISO.CommandLine ISO.Epw ISO.Lemmas ISO.Monthly Dbl
open ISO.Spec.EndToEnd (Describes Averaged Inputs)
open ISO.Spec.Editing (SameTable)
open ISO.Spec.PrintedOrder EndToEnd WeatherEditing

namespace WarmerMonths

/-- means keep order -/
theorem mean_le {f f' : Fin 8760 → ℝ} (h : ∀ i, f i ≤ f' i) (m : Fin 12) :
    ∃ v v', monthMean (fun i => fin (f i)) (m.1 + 1) = fin v ∧ monthMean (fun i => fin (f' i)) (m.1 + 1) = fin v' ∧ v ≤ v' := by
  have hd := daysIn_eq m
  have hpos : (0:ℝ) < 24 * daysIn (m.1 + 1) := by
    have : (0:ℝ) < daysIn (m.1 + 1) := by exact_mod_cast hd.2
    linarith
  have key : ∀ f : Fin 8760 → ℝ, monthMean (fun i => fin (f i)) (m.1 + 1) =
      fin ((∑ i ∈ hoursOfMonth (m.1 + 1), if h : i < 8760 then f ⟨i, h⟩ else 0) / (24 * daysIn (m.1 + 1))) := by
    intro f
    have hg : ∀ i, atHour (fun i => fin (f i)) i = fin (if h : i < 8760 then f ⟨i, h⟩ else 0) := by
      intro i; unfold atHour; split_ifs <;> rfl
    unfold monthMean
    rw [Finset.sum_congr rfl (fun i _ => hg i), fin_sum, fin_div _ hpos.ne']
  refine ⟨_, _, key f, key f', div_le_div_of_nonneg_right (Finset.sum_le_sum fun i _ => ?_) hpos.le⟩
  split_ifs
  · exact h _
  · exact le_rfl

/-- rounding to digits keeps the order of different numbers -/
theorem rounded_le {P : ℕ} {x x' y y' : ℝ} (h : x < x') (hr : Rounded P (fin x) (fin y)) (hr' : Rounded P (fin x') (fin y')) : y ≤ y' := by
  obtain ⟨z, e, d, n, -⟩ := hr
  obtain ⟨z', e', d', n', -⟩ := hr'
  rw [fin_inj] at e e'
  subst e e'
  by_contra hlt
  push Not at hlt
  have h1 := sq_le_sq.mpr (n _ d')
  have h2 := sq_le_sq.mpr (n' _ d)
  nlinarith

/-- the averages that the program takes from two weather files -/
theorem averages_warmer {w w' : Weather ℝ} (h : WarmerYear w w') {a a' : WeatherData ℝ} (hA : siteAverages standard (w.map fin) = a.map fin)
    (hA' : siteAverages standard (w'.map fin) = a'.map fin) (ha : Averaged w a) (ha' : Averaged w' a') : WarmerMonths a a' := by
  have data : ∀ c, w'.data c = w.data c → (w'.map fin).data c = (w.map fin).data c := by
    intro c hc
    show (fun i => fin (w'.data c i)) = fun i => fin (w.data c i)
    rw [hc]
  have e3 := data EGH h.global
  have e4 := eglobe_reads (w := w.map fin) (w' := w'.map fin) (congrArg fin h.latitude) (congrArg fin h.longitude) h.timezone
    (data EB h.direct) (data ED h.diffuse)
  have e6 := data WSPD h.wind
  have f : ∀ {β : Type} (p : WeatherData Dbl → β), p (siteAverages standard (w'.map fin)) = p (siteAverages standard (w.map fin)) →
      p (a'.map fin) = p (a.map fin) := fun p hp => by rw [← hA, ← hA']; exact hp
  refine ⟨?_, ?_, ?_, ?_, fun m => ?_⟩
  · funext m s
    have := congrFun (congrFun (f WeatherData.msolar (by unfold siteAverages; simp only [e4])) m) s
    exact fin_inj.mp this
  · funext m
    exact fin_inj.mp (congrFun (f WeatherData.mEgh (by unfold siteAverages; simp only [e3])) m)
  · funext m s
    exact fin_inj.mp (congrFun (congrFun (f WeatherData.mhEgh (by unfold siteAverages; simp only [e3])) m) s)
  · funext m
    exact fin_inj.mp (congrFun (f WeatherData.mwind (by unfold siteAverages; simp only [e6])) m)
  · obtain ⟨v, v', k, k', hle⟩ := mean_le h.temperature m
    rcases hle.eq_or_lt with e | hlt
    · subst e
      have q : (siteAverages standard (w'.map fin)).mdbt m = (siteAverages standard (w.map fin)).mdbt m := by
        show standard.atof (standard.fmt (monthMean (fun i => fin (w'.data DBT i)) (m.1 + 1))) =
          standard.atof (standard.fmt (monthMean (fun i => fin (w.data DBT i)) (m.1 + 1)))
        rw [k, k']
      rw [hA, hA'] at q
      exact (fin_inj.mp q).ge
    · have q := ha.temperature m
      have q' := ha'.temperature m
      rw [k] at q
      rw [k'] at q'
      exact rounded_le hlt q q'

end WarmerMonths
open WarmerMonths

variable {fs fs' : FileSystem} {o o' : Options} {file : Properties.Store} {text text' : Str}

/-- **C78, the monthly table.** If two weather files for the same place differ in nothing but the temperature (and dew point and humidity) and
the second is in no hour the cooler one, then the monthly table shows for the second no lower number for cooling in any month, and no higher
one for heating in any month that is on average colder outside than the set-point of heating; apart from heating, cooling, fans and pumps the
tables are the same texts. -/
theorem C78_monthly_printed (hi : Inputs fs o file text) (hi' : Inputs fs' o' file text') (ho : Nothing o) (ho' : Nothing o')
    {x : Sim ℝ} (hx : Describes file x) (hsd : ∀ i, 1 ≤ x.bldg.windowShadingDevice i ∧ x.bldg.windowShadingDevice i < 4)
    (hst : SteadyTemperatures x) (hS : Sensible x) (hu : Unmixed x)
    (hw : ∀ i, 0 ≤ x.bldg.wallUniform i) (hg : ∀ i, 0 ≤ x.bldg.windowUniform i)
    {lat lon zone : ℝ} {v v' : Fin 7 → Fin 8760 → ℝ} (hy : YearFile text lat lon zone v) (hy' : YearFile text' lat lon zone v')
    (hs : Suitable lat zone v)
    (hsame : ∀ c, c ∉ [Spec.WeatherEditing.dryBulb, Spec.WeatherEditing.dewPoint, Spec.WeatherEditing.humidity] → ∀ i, v' c i = v c i)
    (hwarm : ∀ i, v Spec.WeatherEditing.dryBulb i ≤ v' Spec.WeatherEditing.dryBulb i)
    (hord : ∀ a, Averaged (Spec.EndToEnd.yearOf lat lon zone v) a → Ordinary { x with weather := a } ∧ Equipped { x with weather := a })
    (hord' : ∀ a, Averaged (Spec.EndToEnd.yearOf lat lon zone v') a → Ordinary { x with weather := a } ∧ Equipped { x with weather := a })
    (junk junk' : Params Dbl) :
    ∃ out out' a', main standard Numerals.print fs junk o = .returns [.runMonthly] out ∧
      main standard Numerals.print fs' junk' o' = .returns [.runMonthly] out' ∧ Averaged (Spec.EndToEnd.yearOf lat lon zone v') a' ∧
      SameTable [0, 1, 4, 5, 9, 10] out out' ∧
      ∀ m : Fin 12, (a'.mdbt m < heatTo x → CellAtMost m 0 out' out ∧ CellAtMost m 9 out' out) ∧
        CellAtMost m 1 out out' ∧ CellAtMost m 10 out out' := by
  have hs' : Suitable lat zone v' := by
    refine ⟨hs.lat, hs.zone, fun r => ?_, fun m hm => ?_⟩
    · rw [hsame 3 (by decide), hsame 4 (by decide), hsame 5 (by decide)]
      exact hs.radiation r
    · obtain ⟨r, h1, h2⟩ := hs.sun m hm
      exact ⟨r, h1, by rw [hsame 3 (by decide)]; exact h2⟩
  have hW : WarmerYear (Spec.EndToEnd.yearOf lat lon zone v) (Spec.EndToEnd.yearOf lat lon zone v') :=
    ⟨rfl, rfl, rfl, funext (hsame 6 (by decide)), funext (hsame 4 (by decide)), funext (hsame 5 (by decide)), funext (hsame 3 (by decide)), hwarm⟩
  obtain ⟨a, r, value, hA, hav, hr, hl, -, -⟩ := EndToEnd.monthly_values hx hsd hy hs hord
  obtain ⟨a', r', value', hA', hav', hr', hl', -, -⟩ := EndToEnd.monthly_values hx hsd hy' hs' hord'
  obtain ⟨out, h, hT⟩ := PrintedOrder.monthly_printed hi ho hx hy hs.zone junk hA hr
  obtain ⟨out', h', hT'⟩ := PrintedOrder.monthly_printed hi' ho' hx hy' hs.zone junk' hA' hr'
  obtain ⟨t, ht, hsm⟩ := C77_monthly (data := [Spec.WeatherEditing.dewPoint, Spec.WeatherEditing.humidity, Spec.WeatherEditing.dryBulb,
      Spec.WeatherEditing.directRadiation, Spec.WeatherEditing.diffuseRadiation, Spec.WeatherEditing.windSpeed]) (place := true)
    (columns := [0, 1, 4, 5, 9, 10]) (by unfold Spec.WeatherEditing.monthlyGroups; exact List.mem_cons_of_mem _ List.mem_cons_self) hi hi' ho ho'
    (lat' := lat) (lon' := lon) (zone' := zone) (v' := v')
    ⟨fun c hc => hsame c fun hc' => hc (by revert hc'; revert c; decide), fun _ => ⟨rfl, rfl, rfl⟩⟩ hy hs.zone hy' hs.zone junk junk' h
  rw [h'] at ht
  cases ht
  refine ⟨out, out', a', h, h', hav', hsm, fun m => ?_⟩
  obtain ⟨q, q', n0, n1, n10⟩ := C78_monthly x a a' (hord a hav).1 (hord' a' hav').1 hst hS hu hw hg (averages_warmer hW hA hA' hav hav') r r' hr hr' m
  have up : ∀ k : Fin 13, NotAbove (r[m.val] k) (r'[m.val] k) → CellAtMost m k out out' := by
    rintro k ⟨u, w, e, e', hle⟩
    have c := PrintedOrder.cell_of hT m q k
    have c' := PrintedOrder.cell_of hT' m q' k
    rw [e] at c
    rw [e'] at c'
    exact ⟨_, _, c, c', C76_print (by norm_num) hle⟩
  have down : ∀ k : Fin 13, NotAbove (r'[m.val] k) (r[m.val] k) → CellAtMost m k out' out := by
    rintro k ⟨u, w, e', e, hle⟩
    have c := PrintedOrder.cell_of hT m q k
    have c' := PrintedOrder.cell_of hT' m q' k
    rw [e] at c
    rw [e'] at c'
    exact ⟨_, _, c', c, C76_print (by norm_num) hle⟩
  exact ⟨fun hc => ⟨down 0 (n0 hc).1, down 9 (n0 hc).2⟩, up 1 n1, up 10 n10⟩

end ISO.Props
