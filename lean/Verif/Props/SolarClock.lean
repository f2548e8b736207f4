import Verif.Spec.SolarClock
import Verif.Props.WeatherEditing
import Verif.Props.EndToEndCases

/-! # C83: the place of the weather file counts by its latitude and its distance from the meridian of its clock -/

namespace ISO.Props
open ISO ISO.Numerals ISO.Spec ISO.Spec.Text ISO.Spec.Whole ISO.User ISO.CommandLine ISO.Epw ISO.Lemmas Dbl CNum
open ISO.Spec.EndToEnd (Inputs)
open EndToEnd
open ISO.Spec.Editing (SameTable)
open ISO.Spec.SolarClock (fullHours eastOfMeridian SameSun)

namespace SolarClock

variable {lat lon zone lat' lon' zone' : ℝ} {v v' : Fin 7 → Fin 8760 → ℝ}

/-- the sun's time of the clock's hour -/
theorem solar_time (h : eastOfMeridian lon' zone' = eastOfMeridian lon zone) (hour : Int) (e : Dbl) :
    Solar.apparentSolarTime (Solar.site ((Spec.EndToEnd.yearOf lat' lon' zone' v').map fin)) hour e =
      Solar.apparentSolarTime (Solar.site ((Spec.EndToEnd.yearOf lat lon zone v).map fin)) hour e := by
  have key : ∀ (lat lon zone : ℝ) (v : Fin 7 → Fin 8760 → ℝ),
      (Solar.site ((Spec.EndToEnd.yearOf lat lon zone v).map fin)).longitude -
        (Solar.site ((Spec.EndToEnd.yearOf lat lon zone v).map fin)).localMeridian = fin (eastOfMeridian lon zone * 3.1415926535897 / 180) := by
    intro lat lon zone v
    show fin lon * (3.1415926535897 : Dbl) / (180.0 : Dbl) - (OfInt.ofInt (fullHours zone) : Dbl) * (15.0 : Dbl) * (3.1415926535897 : Dbl) / (180.0 : Dbl) = _
    simp only [fin_lit, fin_ofInt, ofInt_real, fin_mul]
    rw [fin_div _ (by norm_num), fin_div _ (by norm_num), fin_sub]
    congr 1
    unfold eastOfMeridian
    norm_num
    ring
  unfold Solar.apparentSolarTime
  rw [key, key, h]

/-- the radiation on the facades -/
theorem same_facades (h : SameSun lat lon zone v lat' lon' zone' v') :
    Solar.eglobe ((Spec.EndToEnd.yearOf lat' lon' zone' v').map fin) = Solar.eglobe ((Spec.EndToEnd.yearOf lat lon zone v).map fin) := by
  have e1 : ((Spec.EndToEnd.yearOf lat' lon' zone' v').map fin).data EB = ((Spec.EndToEnd.yearOf lat lon zone v).map fin).data EB := by
    funext r; exact congrArg fin (h.data _ (by decide) r)
  have e2 : ((Spec.EndToEnd.yearOf lat' lon' zone' v').map fin).data ED = ((Spec.EndToEnd.yearOf lat lon zone v).map fin).data ED := by
    funext r; exact congrArg fin (h.data _ (by decide) r)
  have el : (Solar.site ((Spec.EndToEnd.yearOf lat' lon' zone' v').map fin)).latitude = (Solar.site ((Spec.EndToEnd.yearOf lat lon zone v).map fin)).latitude := by
    show fin lat' * (Solar.PI : Dbl) / (180.0 : Dbl) = fin lat * (Solar.PI : Dbl) / (180.0 : Dbl)
    rw [h.latitude]
  have hs : ∀ d k, Solar.sun (Solar.site ((Spec.EndToEnd.yearOf lat' lon' zone' v').map fin)) d k =
      Solar.sun (Solar.site ((Spec.EndToEnd.yearOf lat lon zone v).map fin)) d k := by
    intro d k
    unfold Solar.sun Solar.solarAltitude Solar.solarAzimuthCos
    simp only [solar_time (v := v) (v' := v') (lat := lat) (lat' := lat') h.clock, el]
  unfold Solar.eglobe
  rw [e1, e2]
  funext i s
  simp only [hs]
  rfl

theorem same_averages (h : SameSun lat lon zone v lat' lon' zone' v') :
    siteAverages standard ((Spec.EndToEnd.yearOf lat' lon' zone' v').map fin) = siteAverages standard ((Spec.EndToEnd.yearOf lat lon zone v).map fin) := by
  have e : ∀ c, c ∉ [Spec.WeatherEditing.dewPoint, Spec.WeatherEditing.humidity] →
      ((Spec.EndToEnd.yearOf lat' lon' zone' v').map fin).data c = ((Spec.EndToEnd.yearOf lat lon zone v).map fin).data c := by
    intro c hc; funext r; exact congrArg fin (h.data c hc r)
  unfold siteAverages
  simp only [e DBT (by decide), e WSPD (by decide), e EGH (by decide), same_facades h]

theorem same_hours (h : SameSun lat lon zone v lat' lon' zone' v') :
    Hourly.hourWeather ((Spec.EndToEnd.yearOf lat' lon' zone' v').map fin) = Hourly.hourWeather ((Spec.EndToEnd.yearOf lat lon zone v).map fin) := by
  have e : ∀ c, c ∉ [Spec.WeatherEditing.dewPoint, Spec.WeatherEditing.humidity] →
      ((Spec.EndToEnd.yearOf lat' lon' zone' v').map fin).data c = ((Spec.EndToEnd.yearOf lat lon zone v).map fin).data c := by
    intro c hc; funext r; exact congrArg fin (h.data c hc r)
  unfold Hourly.hourWeather
  simp only [e DBT (by decide), e WSPD (by decide), e EGH (by decide), same_facades h]

/-- fifteen degrees of longitude and one hour of the clock leave the sun where it is -/
theorem move {lat lon : ℝ} {hours : ℤ} (v : Fin 7 → Fin 8760 → ℝ) (k : ℤ) : SameSun lat lon hours v lat (lon + 15 * k) (hours + k : ℤ) v := by
  have f : ∀ n : ℤ, fullHours n = n := by
    intro n
    unfold fullHours
    rw [Int.floor_intCast, Int.ceil_intCast, ite_self]
  refine ⟨rfl, ?_, fun _ _ _ => rfl⟩
  unfold eastOfMeridian
  rw [f, f]
  push_cast
  ring

/-- a time zone and another one with the same full hours -/
theorem half_hours {lat lon zone zone' : ℝ} (v : Fin 7 → Fin 8760 → ℝ) (h : fullHours zone' = fullHours zone) :
    SameSun lat lon zone v lat lon zone' v := by
  refine ⟨rfl, ?_, fun _ _ _ => rfl⟩
  unfold eastOfMeridian
  rw [h]

end SolarClock
open SolarClock

variable {fs fs' : FileSystem} {o o' : Options} {file : Properties.Store} {text text' : Str} {lat lon zone lat' lon' zone' : ℝ}
  {v v' : Fin 7 → Fin 8760 → ℝ}

/-- **C83, the monthly table.** Two weather files for places where the sun stands alike at every hour of the clock give tables with the same text in
every cell. -/
theorem C83_monthly (hi : Inputs fs o file text) (hi' : Inputs fs' o' file text') (ho : Nothing o) (ho' : Nothing o')
    (he : SameSun lat lon zone v lat' lon' zone' v')
    (hy : YearFile text lat lon zone v) (hz : |zone| ≤ 24) (hy' : YearFile text' lat' lon' zone' v') (hz' : |zone'| ≤ 24) (junk junk' : Params Dbl)
    {acts : List Action} {out : Str} (h : main standard Numerals.print fs junk o = .returns acts out) :
    ∃ out', main standard Numerals.print fs' junk' o' = .returns acts out' ∧ SameTable [] out out' :=
  Editing.monthly_tables hi hi' ho ho' hy hz hy' hz' junk junk' rfl rfl
    (WeatherEditing.same_self (congrArg (fun a => Monthly.simulate (simOf _ a)) (same_averages he))) h

/-- **C83, the hourly tables.** The same for the tables of the hourly simulation, by month and by hour. -/
theorem C83_hourly (hi : Inputs fs o file text) (hi' : Inputs fs' o' file text') (byMonth : Bool)
    (ho : o.monthly = false ∧ o.hourlyByMonth = byMonth ∧ o.hourlyByHour = !byMonth ∧ o.compare = none)
    (ho' : o'.monthly = false ∧ o'.hourlyByMonth = byMonth ∧ o'.hourlyByHour = !byMonth ∧ o'.compare = none)
    (he : SameSun lat lon zone v lat' lon' zone' v')
    (hy : YearFile text lat lon zone v) (hz : |zone| ≤ 24) (hy' : YearFile text' lat' lon' zone' v') (hz' : |zone'| ≤ 24) (junk junk' : Params Dbl)
    {acts : List Action} {out : Str} (h : main standard Numerals.print fs junk o = .returns acts out) :
    ∃ out', main standard Numerals.print fs' junk' o' = .returns acts out' ∧ SameTable [] out out' :=
  Editing.hourly_tables hi hi' byMonth ho ho' hy hz hy' hz' junk junk' rfl rfl
    (WeatherEditing.same_self (WeatherEditing.hourly_reads _ _ _ _ _ (same_hours he))) h

/-- **C83, half hours are lost.** A clock that is part of an hour ahead of a full hour is taken for that of the full hour: time zone 5.5 gives, in every
cell, the text of time zone 5, in the monthly table and in the hourly tables, with the sun seven and a half degrees out of place. -/
theorem C83_halfHours (hi : Inputs fs o file text) (hi' : Inputs fs' o' file text')
    (ho : o.monthly = false ∧ o.compare = none ∧ ¬ (o.hourlyByMonth = true ∧ o.hourlyByHour = true)) (ho' : o'.monthly = o.monthly ∧
      o'.compare = o.compare ∧ o'.hourlyByMonth = o.hourlyByMonth ∧ o'.hourlyByHour = o.hourlyByHour)
    (he : fullHours zone' = fullHours zone)
    (hy : YearFile text lat lon zone v) (hz : |zone| ≤ 24) (hy' : YearFile text' lat lon zone' v) (hz' : |zone'| ≤ 24) (junk junk' : Params Dbl)
    {acts : List Action} {out : Str} (h : main standard Numerals.print fs junk o = .returns acts out) :
    ∃ out', main standard Numerals.print fs' junk' o' = .returns acts out' ∧ SameTable [] out out' := by
  obtain ⟨h1, h2, h3⟩ := ho
  obtain ⟨e1, e2, e3, e4⟩ := ho'
  rw [h1] at e1
  rw [h2] at e2
  cases a : o.hourlyByMonth with
  | true =>
    cases b : o.hourlyByHour with
    | true => exact absurd ⟨a, b⟩ h3
    | false =>
      rw [a] at e3
      rw [b] at e4
      exact C83_hourly hi hi' true ⟨h1, a, b, h2⟩ ⟨e1, e3, e4, e2⟩ (half_hours v he) hy hz hy' hz' junk junk' h
  | false =>
    rw [a] at e3
    cases b : o.hourlyByHour with
    | true =>
      rw [b] at e4
      exact C83_hourly hi hi' false ⟨h1, a, b, h2⟩ ⟨e1, e3, e4, e2⟩ (half_hours v he) hy hz hy' hz' junk junk' h
    | false =>
      rw [b] at e4
      exact C83_monthly hi hi' ⟨h1, a, b, h2⟩ ⟨e1, e3, e4, e2⟩ (half_hours v he) hy hz hy' hz' junk junk' h

/-! ### the hypotheses are met -/

namespace SolarClock

/-- the year of `someYear` under another first line -/
def placedYear (header : List Str) : Str := Spec.Epw.file (Spec.Epw.line header :: List.replicate 7 [] ++ List.replicate 8760 (Spec.Epw.line someHour))

theorem placed_complete {header : List Str} {lat lon zone : ℝ} (h0 : '\n' ∉ Spec.Epw.line header) (h1 : header ≠ []) (h2 : ∀ f ∈ header, ',' ∉ f)
    (h3 : Gives (Spec.Epw.field header 7) lat) (h4 : Gives (Spec.Epw.field header 8) lon) (h5 : Gives (Spec.Epw.field header 9) zone) :
    YearFile (placedYear header) lat lon zone (fun c _ => someValues c) := by
  refine ⟨Spec.Epw.line header :: List.replicate 7 [] ++ List.replicate 8760 (Spec.Epw.line someHour), rfl, ?_, ⟨header, rfl, h1, h2, h3, h4, h5⟩, ?_⟩
  · intro l hl
    simp only [List.cons_append, List.mem_cons, List.mem_append, List.mem_replicate] at hl
    rcases hl with rfl | ⟨-, rfl⟩ | ⟨-, rfl⟩
    · exact h0
    · simp
    · decide +kernel
  · intro r
    refine ⟨someHour, ?_, by decide, by decide +kernel, ?_⟩
    · obtain ⟨r, hr⟩ := r
      simp only
      generalize Spec.Epw.line someHour = l
      generalize Spec.Epw.line header = l0
      generalize 8760 = N at *
      rw [List.getElem?_append_right (by simp), List.getElem?_replicate]
      simp only [List.length_cons, List.length_replicate]
      rw [if_pos (by omega)]
    · intro c
      fin_cases c
      · exact gives_number (q := 122 / 10) (r := []) (by decide +kernel) (by simp only [someValues]; norm_num) (by simp only [someValues]; rw [abs_of_pos] <;> norm_num)
      · exact gives_number (q := 5) (r := []) (by decide +kernel) (by simp only [someValues]; norm_num) (by simp only [someValues]; rw [abs_of_pos] <;> norm_num)
      · exact gives_number (q := 61) (r := []) (by decide +kernel) (by simp only [someValues]; norm_num) (by simp only [someValues]; rw [abs_of_pos] <;> norm_num)
      · exact gives_number (q := 150) (r := []) (by decide +kernel) (by simp only [someValues]; norm_num) (by simp only [someValues]; rw [abs_of_pos] <;> norm_num)
      · exact gives_number (q := 100) (r := []) (by decide +kernel) (by simp only [someValues]; norm_num) (by simp only [someValues]; rw [abs_of_pos] <;> norm_num)
      · exact gives_number (q := 85) (r := []) (by decide +kernel) (by simp only [someValues]; norm_num) (by simp only [someValues]; rw [abs_of_pos] <;> norm_num)
      · exact gives_number (q := 41 / 10) (r := []) (by decide +kernel) (by simp only [someValues]; norm_num) (by simp only [someValues]; rw [abs_of_pos] <;> norm_num)

/-- a place fifteen degrees to the east, with the clock of the next time zone -/
def eastern : List Str := ["LOCATION", "Albany", "NY", "USA", "TMY3", "725180", "41.98", "-72.92", "-5.0"].map String.toList

/-- the place of `someYear` with a clock that is half an hour behind -/
def halfHour : List Str := ["LOCATION", "Chicago Ohare Intl Ap", "IL", "USA", "TMY3", "725300", "41.98", "-87.92", "-6.5"].map String.toList

theorem eastern_complete : YearFile (placedYear eastern) 41.98 (-72.92) (-5) (fun c _ => someValues c) :=
  placed_complete (by decide +kernel) (by decide) (by decide +kernel)
    (gives_number (q := 4198 / 100) (r := []) (by decide +kernel) (by norm_num) (by rw [abs_of_pos] <;> norm_num))
    (gives_number (q := -7292 / 100) (r := []) (by decide +kernel) (by norm_num) (by rw [abs_of_neg] <;> norm_num))
    (gives_number (q := -5) (r := []) (by decide +kernel) (by norm_num) (by rw [abs_of_neg] <;> norm_num))

theorem halfHour_complete : YearFile (placedYear halfHour) 41.98 (-87.92) (-6.5) (fun c _ => someValues c) :=
  placed_complete (by decide +kernel) (by decide) (by decide +kernel)
    (gives_number (q := 4198 / 100) (r := []) (by decide +kernel) (by norm_num) (by rw [abs_of_pos] <;> norm_num))
    (gives_number (q := -8792 / 100) (r := []) (by decide +kernel) (by norm_num) (by rw [abs_of_neg] <;> norm_num))
    (gives_number (q := -65 / 10) (r := []) (by decide +kernel) (by norm_num) (by rw [abs_of_neg] <;> norm_num))

theorem placed_inputs (header : List Str) (monthly byMonth byHour : Bool) (c : Option Str) : Inputs (twoFiles mended (placedYear header))
    ⟨"SmallOffice_v2.ism".toList, none, monthly, byMonth, byHour, c⟩ mendedStore (placedYear header) where
  building := twoFiles_exists _ _ _
  defaults := by simp
  parameters := by
    simp only
    rw [twoFiles_building]
    exact mendedStore_eq
  accepted := mended_accepted
  weather := ⟨"ORD.epw".toList, "ORD.epw".toList, by decide +kernel, by rw [twoFiles_exists]; rfl, twoFiles_weather _ _⟩

theorem eastern_sun : SameSun 41.98 (-87.92) (-6) (fun c _ => someValues c) 41.98 (-72.92) (-5) (fun c _ => someValues c) := by
  have h := move (lat := 41.98) (lon := -87.92) (hours := -6) (fun c _ => someValues c) 1
  have e1 : (((-6 : ℤ)) : ℝ) = -6 := by norm_num
  have e2 : ((((-6 : ℤ) + 1 : ℤ)) : ℝ) = -5 := by norm_num
  have e3 : (-87.92 : ℝ) + 15 * ((1 : ℤ) : ℝ) = -72.92 := by norm_num
  rwa [e1, e2, e3] at h

theorem half_past : fullHours (-6.5) = fullHours (-6) ∧ fullHours 5.5 = fullHours 5 := by
  unfold fullHours
  constructor
  · rw [if_neg (by norm_num), if_neg (by norm_num)]
    have a : ⌈(-6.5:ℝ)⌉ = -6 := by rw [Int.ceil_eq_iff]; norm_num
    have b : ⌈(-6:ℝ)⌉ = -6 := by rw [Int.ceil_eq_iff]; norm_num
    rw [a, b]
  · rw [if_pos (by norm_num), if_pos (by norm_num)]
    have a : ⌊(5.5:ℝ)⌋ = 5 := by rw [Int.floor_eq_iff]; norm_num
    have b : ⌊(5:ℝ)⌋ = 5 := by rw [Int.floor_eq_iff]; norm_num
    rw [a, b]

end SolarClock

/-- the hypotheses of `C83_monthly` and `C83_halfHours` are met: a file fifteen degrees and an hour to the east, and one with a clock half an hour
behind, both give the table of the file of Chicago -/
example (junk : Params Dbl) : ∃ out out₁ out₂,
    main standard Numerals.print (twoFiles mended someYear) junk ⟨"SmallOffice_v2.ism".toList, none, false, false, false, none⟩
      = .returns [.runMonthly] out ∧
    main standard Numerals.print (twoFiles mended (placedYear eastern)) junk ⟨"SmallOffice_v2.ism".toList, none, false, false, false, none⟩
      = .returns [.runMonthly] out₁ ∧
    main standard Numerals.print (twoFiles mended (placedYear halfHour)) junk ⟨"SmallOffice_v2.ism".toList, none, false, false, false, none⟩
      = .returns [.runMonthly] out₂ ∧
    SameTable [] out out₁ ∧ SameTable [] out out₂ := by
  obtain ⟨out, a, value, h, -⟩ := C74_monthly (mended_inputs false false false none) ⟨rfl, rfl, rfl, rfl⟩ mended_describes
    (fun i => ⟨show (1:ℝ) ≤ 1 from le_rfl, show (1:ℝ) < 4 by norm_num⟩) someYear_complete someYear_suitable (fun _ ha => mended_ordinary ha) junk
  obtain ⟨out₁, h₁, s₁⟩ := C83_monthly (mended_inputs false false false none) (placed_inputs eastern false false false none) ⟨rfl, rfl, rfl, rfl⟩
    ⟨rfl, rfl, rfl, rfl⟩ eastern_sun someYear_complete someYear_suitable.zone eastern_complete (by rw [abs_of_neg] <;> norm_num) junk junk h
  obtain ⟨out₂, h₂, s₂⟩ := C83_halfHours (mended_inputs false false false none) (placed_inputs halfHour false false false none)
    ⟨rfl, rfl, by simp⟩ ⟨rfl, rfl, rfl, rfl⟩ half_past.1 someYear_complete someYear_suitable.zone halfHour_complete
    (by rw [abs_of_neg] <;> norm_num) junk junk h
  exact ⟨out, out₁, out₂, h, h₁, h₂, s₁, s₂⟩

/-- the hypotheses of `C83_hourly` are met -/
example (junk : Params Dbl) : ∃ out out',
    main standard Numerals.print (twoFiles mended someYear) junk ⟨"SmallOffice_v2.ism".toList, none, false, false, true, none⟩
      = .returns [.runHourly false] out ∧
    main standard Numerals.print (twoFiles mended (placedYear eastern)) junk ⟨"SmallOffice_v2.ism".toList, none, false, false, true, none⟩
      = .returns [.runHourly false] out' ∧
    SameTable [] out out' := by
  obtain ⟨out, -, -, -, -, h, -⟩ := C74_byHour (mended_inputs false false true none) ⟨rfl, rfl, rfl, rfl⟩ mended_describes mended_physical
    mended_systems mended_timetable someYear_complete someYear_suitable.lat someYear_suitable.zone junk
  obtain ⟨out', h', hs⟩ := C83_hourly (mended_inputs false false true none) (placed_inputs eastern false false true none) false ⟨rfl, rfl, rfl, rfl⟩
    ⟨rfl, rfl, rfl, rfl⟩ eastern_sun someYear_complete someYear_suitable.zone eastern_complete (by rw [abs_of_neg] <;> norm_num) junk junk h
  exact ⟨out, out', h, h', hs⟩

end ISO.Props
