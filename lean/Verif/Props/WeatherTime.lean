import Verif.Spec.WeatherTime
import Verif.Lemmas.WeatherTime
import Verif.Lemmas.AggregateOrder
import Verif.Props.Causality
import Verif.Props.PrintedOrder

/-! # C81: the weather of an hour acts in its own time -/

namespace ISO.Props
open ISO ISO.Numerals ISO.Spec ISO.Spec.Text ISO.Spec.Whole ISO.User ISO.CommandLine ISO.Epw ISO.Lemmas ISO.Lemmas.WeatherTime Dbl CNum
open ISO.Spec.EndToEnd (Inputs Gives)
open EndToEnd
open ISO.Spec.Editing (cell)
open ISO.Spec.WeatherEditing (dewPoint humidity)
open ISO.Spec.WeatherTime (SameIn CellSame CellSameOrNan)

namespace WeatherTime

variable {fs fs' : FileSystem} {o o' : Options} {file : Properties.Store} {text text' : Str}

/-- the columns the program uses, in an hour in which the years agree -/
theorem data_same {hours : ℕ → Prop} {v v' : Fin 7 → Fin 8760 → ℝ} (h : SameIn hours v v') (lat lon zone : ℝ) {c : Fin 7} (h1 : c ≠ DPT) (h2 : c ≠ RH)
    (i : Fin 8760) (hi : hours i) : ((Spec.EndToEnd.yearOf lat lon zone v').map fin).data c i = ((Spec.EndToEnd.yearOf lat lon zone v).map fin).data c i :=
  congrArg fin (h c h1 h2 i hi)

theorem eglobe_same {hours : ℕ → Prop} {v v' : Fin 7 → Fin 8760 → ℝ} (h : SameIn hours v v') (lat lon zone : ℝ) (s : Fin 8) (i : Fin 8760) (hi : hours i) :
    Solar.eglobe ((Spec.EndToEnd.yearOf lat lon zone v').map fin) i s = Solar.eglobe ((Spec.EndToEnd.yearOf lat lon zone v).map fin) i s := by
  unfold Solar.eglobe
  rw [data_same h lat lon zone (by decide) (by decide) i hi, data_same h lat lon zone (by decide) (by decide) i hi]
  rfl

theorem monthMean_same {f g : Fin 8760 → Dbl} {m : ℕ} (h : ∀ i : Fin 8760, i.1 ∈ hoursOfMonth m → f i = g i) : monthMean f m = monthMean g m := by
  unfold monthMean
  congr 1
  refine Finset.sum_congr rfl fun i hi => ?_
  unfold atHour
  split_ifs with hl
  · exact h ⟨i, hl⟩ hi
  · rfl

theorem month_end (m : Fin 12) : daysBefore (m.1 + 2) = daysBefore (m.1 + 1) + daysIn (m.1 + 1) := by
  revert m
  decide

theorem year_end (m : Fin 12) : daysBefore (m.1 + 2) ≤ 365 := by
  revert m
  decide

theorem hourMean_same {f g : Fin 8760 → Dbl} {m : Fin 12} (h : ∀ i : Fin 8760, i.1 ∈ hoursOfMonth (m.1 + 1) → f i = g i) (k : Fin 24) :
    hourMean f (m.1 + 1) k = hourMean g (m.1 + 1) k := by
  unfold hourMean
  congr 1
  refine Finset.sum_congr rfl fun d hd => ?_
  unfold atHour
  split_ifs with hl
  · refine h ⟨_, hl⟩ ?_
    have : daysBefore (m.1 + 1 + 1) = _ := month_end m
    have := Finset.mem_range.mp hd
    have := k.2
    unfold hoursOfMonth hourOfYear
    simp only [Finset.mem_Ico]
    omega
  · rfl

/-- the averages of a month follow from the weather of the month -/
theorem averages_month {v v' : Fin 7 → Fin 8760 → ℝ} {m : Fin 12} (h : SameIn (· ∈ hoursOfMonth (m.1 + 1)) v v') (lat lon zone : ℝ) :
    SameMonth m (siteAverages standard ((Spec.EndToEnd.yearOf lat lon zone v).map fin))
      (siteAverages standard ((Spec.EndToEnd.yearOf lat lon zone v').map fin)) where
  mdbt := congrArg (fun a => standard.atof (standard.fmt a)) (monthMean_same fun i hi => data_same h lat lon zone (by decide) (by decide) i hi)
  mwind := congrArg (fun a => standard.atof (standard.fmt a)) (monthMean_same fun i hi => data_same h lat lon zone (by decide) (by decide) i hi)
  mEgh := congrArg (fun a => standard.atof (standard.fmt a)) (monthMean_same fun i hi => data_same h lat lon zone (by decide) (by decide) i hi)
  mhdbt := funext fun k => congrArg (fun a => standard.atof (standard.fmt a))
    (hourMean_same (fun i hi => data_same h lat lon zone (by decide) (by decide) i hi) k)
  mhEgh := funext fun k => congrArg (fun a => standard.atof (standard.fmt a))
    (hourMean_same (fun i hi => data_same h lat lon zone (by decide) (by decide) i hi) k)
  msolar := funext fun s => congrArg (fun a => standard.atof (standard.fmt a)) (monthMean_same fun i hi => eglobe_same h lat lon zone s i hi)

/-- the monthly simulation that a run prints -/
theorem monthly_run (hi : Inputs fs o file text) (ho : Nothing o) {lat lon zone : ℝ} {v : Fin 7 → Fin 8760 → ℝ}
    (hy : YearFile text lat lon zone v) (hz : |zone| ≤ 24) (junk junk' : Params Dbl) {acts : List Action} {out : Str}
    (h : main standard Numerals.print fs junk o = .returns acts out) :
    ∃ rs, Monthly.simulate (simOf (Param.stored stod file (newObject junk'))
        (siteAverages standard ((Spec.EndToEnd.yearOf lat lon zone v).map fin))) = some rs ∧
      readTable ',' out = resultTable (Numerals.print 10) "Monthly Results:".toList "Month".toList rs := by
  obtain ⟨u, hu, hf, hm, -⟩ := Editing.read hi hy hz junk _ rfl
  rw [stored_new hi.accepted junk junk'] at hm
  have hact : actions o = [.runMonthly] := by
    obtain ⟨ism, d, m, hm, hh, c⟩ := o
    obtain ⟨o1, o2, o3, o4⟩ := ho
    simp only at o1 o2 o3 o4
    subst o1 o2 o3 o4
    rfl
  obtain ⟨rs, hrs⟩ : ∃ rs, monthlyResults u = .ok rs := by
    obtain ⟨t, ht⟩ := Editing.returns_one hu hact h
    simp only [act, runMonthlySimulation] at ht
    cases e : monthlyResults u with
    | ok rs => exact ⟨rs, rfl⟩
    | nullPointer => rw [e] at ht; simp [Step.bind] at ht
    | undefined => rw [e] at ht; simp [Step.bind] at ht
  obtain ⟨o1, o2, o3, o4⟩ := ho
  obtain ⟨t1, t2, t3, t4, k, -, -, -, h1, h2, -, -, h3, -, h4⟩ := C51_program standard C60_library.1 Numerals.print C60_library.2 fs junk o u hu hf
    rs rs rs (fun _ => hrs) (fun h => by simp [o2, o4] at h) (fun h => by simp [o3] at h)
  have e1 := h1 o4
  have e3 := h3 (by simp [o2])
  have e4 := h4 (by simp [o3])
  rw [e1, e3, e4, List.nil_append, List.append_nil, List.append_nil, h] at k
  injection k with k1 k2
  subst k2
  exact ⟨rs, (hm rs).mp hrs, h2 (Or.inr ⟨o1, o2, o3, o4⟩)⟩

/-- the hourly simulation that a run prints -/
theorem hourly_run (hi : Inputs fs o file text) (byMonth : Bool)
    (ho : o.monthly = false ∧ o.hourlyByMonth = byMonth ∧ o.hourlyByHour = !byMonth ∧ o.compare = none) {lat lon zone : ℝ}
    {v : Fin 7 → Fin 8760 → ℝ} (hy : YearFile text lat lon zone v) (hz : |zone| ≤ 24) (junk junk' : Params Dbl) {acts : List Action} {out : Str}
    (h : main standard Numerals.print fs junk o = .returns acts out) :
    ∃ after rs, Hourly.simulate byMonth ⟨simOf (Param.stored stod file (newObject junk')) noAverages,
        (Spec.EndToEnd.yearOf lat lon zone v).map fin, Hourly.Pushed.empty⟩ = some (after, rs) ∧
      readTable ',' out = resultTable (Numerals.print 6) (if byMonth then "Hourly results by month:".toList else "Hourly results by hour:".toList)
          (if byMonth then "month".toList else "hour".toList) rs := by
  obtain ⟨u, hu, hf, -, hm⟩ := Editing.read hi hy hz junk _ rfl
  rw [stored_new hi.accepted junk junk'] at hm
  have hact : actions o = [.runHourly byMonth] := by
    obtain ⟨ism, d, m, hm, hh, c⟩ := o
    obtain ⟨o1, o2, o3, o4⟩ := ho
    simp only at o1 o2 o3 o4
    subst o1 o2 o3 o4
    cases hm <;> rfl
  obtain ⟨rs, hrs⟩ : ∃ rs, hourlyResults u byMonth = .ok rs := by
    obtain ⟨t, ht⟩ := Editing.returns_one hu hact h
    simp only [act, runHourlySimulation] at ht
    cases e : hourlyResults u byMonth with
    | ok rs => exact ⟨rs, rfl⟩
    | nullPointer => rw [e] at ht; simp [Step.bind] at ht
    | undefined => rw [e] at ht; simp [Step.bind] at ht
  obtain ⟨after, ha⟩ := (hm byMonth rs noAverages).mp hrs
  refine ⟨after, rs, ha, ?_⟩
  clear ha
  obtain ⟨o1, o2, o3, o4⟩ := ho
  cases byMonth
  · obtain ⟨t1, t2, t3, t4, k, -, -, -, h1, -, h2, -, h3, h4, -⟩ := C51_program standard C60_library.1 Numerals.print C60_library.2 fs junk o u hu hf
      rs rs rs (fun h => by simp [Nothing, o1, o3, o4] at h) (fun h => by simp [o2, o4] at h) (fun _ => hrs)
    have e1 := h1 o4
    have e2 := h2 (by simp [Nothing, o1, o3])
    have e3 := h3 (by simp [o2])
    have e4 := h4 o3
    rw [o1, if_neg (by simp)] at e4
    rw [e1, e2, e3, List.nil_append, List.nil_append, List.nil_append, h] at k
    injection k with k1 k2
    rw [k2]
    exact e4
  · obtain ⟨t1, t2, t3, t4, k, -, -, -, h1, -, h2, h3, -, -, h4⟩ := C51_program standard C60_library.1 Numerals.print C60_library.2 fs junk o u hu hf
      rs rs rs (fun h => by simp [Nothing, o1, o2, o4] at h) (fun _ => hrs) (fun h => by simp [o3] at h)
    have e1 := h1 o4
    have e2 := h2 (by simp [Nothing, o1, o2])
    have e3 := h3 o2
    have e4 := h4 (by simp [o3])
    rw [o1, if_neg (by simp)] at e3
    rw [e1, e2, e4, List.nil_append, List.nil_append, List.append_nil, h] at k
    injection k with k1 k2
    rw [k2]
    exact e3

/-- the waste factor that the simulations use -/
theorem waste_stored (h : Gives file "hvacwastefactor" 0) (junk : Params Dbl) (a : WeatherData Dbl) :
    (simOf (Param.stored stod file (newObject junk)) a).heating.hotcoldWasteFactor = fin 0 := by
  show (Param.number stod file "hvacwastefactor").getD _ = _
  rw [h]
  rfl

/-- cells of two tables of results -/
theorem cell_same {t t' title first : Str} {P : ℕ} {rs rs' : List (Fin 13 → Dbl)}
    (h : readTable ',' t = resultTable (Numerals.print P) title first rs) (h' : readTable ',' t' = resultTable (Numerals.print P) title first rs')
    {i : ℕ} (hi : i < rs.length) (hi' : i < rs'.length) (k : Fin 13) (e : rs'[i] k = rs[i] k) : CellSame i k t' t := by
  unfold CellSame
  rw [PrintedOrder.cell_of h i hi k, PrintedOrder.cell_of h' i hi' k, e]

theorem cell_alike {t t' title first : Str} {P : ℕ} {rs rs' : List (Fin 13 → Dbl)}
    (h : readTable ',' t = resultTable (Numerals.print P) title first rs) (h' : readTable ',' t' = resultTable (Numerals.print P) title first rs')
    {i : ℕ} (hi : i < rs.length) (hi' : i < rs'.length) (k : Fin 13) (e : Alike (rs'[i] k) (rs[i] k)) : CellSameOrNan i k t' t := by
  rcases e with e | e | e
  · exact .inl (cell_same h h' hi hi' k e)
  · exact .inr (.inl (by rw [PrintedOrder.cell_of h' i hi' k, e]; rfl))
  · exact .inr (.inr (by rw [PrintedOrder.cell_of h i hi k, e]; rfl))

/-- the lines of a month in the results of two monthly simulations -/
theorem month_lines {x : Sim Dbl} {w' : WeatherData Dbl} {m : Fin 12} (e : SameMonth m x.weather w') {rs rs' : List (Hourly.EndUses Dbl)}
    (h : Monthly.simulate x = some rs) (h' : Monthly.simulate { x with weather := w' } = some rs') :
    ∃ (hi : m.1 < rs.length) (hi' : m.1 < rs'.length), (∀ k : Fin 13, k ∉ [0, 1, 5, 9, 10] → rs'[m.1] k = rs[m.1] k) ∧
      (x.heating.hotcoldWasteFactor = fin 0 → ∀ k : Fin 13, k ≠ 5 → Alike (rs'[m.1] k) (rs[m.1] k)) := by
  obtain ⟨n, n', n1, n2, f, f', rfl, rfl, hc, a0, b0, a9, b9, a1, b1, a10, b10⟩ := month_columns e h h'
  have hl : ∀ (y : Sim Dbl) (g : Monthly.Figures Dbl), (Monthly.outputGeneration y g).length = 12 := fun y g => by
    unfold Monthly.outputGeneration
    rw [List.length_map, List.length_finRange]
  have line : ∀ (y : Sim Dbl) (g : Monthly.Figures Dbl) (hi : m.1 < (Monthly.outputGeneration y g).length),
      (Monthly.outputGeneration y g)[m.1] = Monthly.monthEndUses y g m := fun y g hi => by
    simp [Monthly.outputGeneration]
  refine ⟨by rw [hl]; exact m.2, by rw [hl]; exact m.2, fun k hk => ?_, fun hw k hk => ?_⟩
  · rw [line, line]
    exact hc k hk
  · rw [line, line]
    obtain ⟨s0, s9, s1, s10⟩ := hvac_alike hw n1 n2
    rw [← a0, ← b0] at s0
    rw [← a9, ← b9] at s9
    rw [← a1, ← b1] at s1
    rw [← a10, ← b10] at s10
    by_cases hk0 : k = 0
    · subst hk0; rw [col0, col0]; exact (s0.vdiv _).vdiv _
    by_cases hk1 : k = 1
    · subst hk1; rw [col1, col1]; exact (s1.vdiv _).vdiv _
    by_cases hk9 : k = 9
    · subst hk9; rw [col9, col9]; exact (s9.vdiv _).vdiv _
    by_cases hk10 : k = 10
    · subst hk10; rw [col10, col10]; exact (s10.vdiv _).vdiv _
    · rw [hc k (by simp [hk0, hk1, hk, hk9, hk10])]
      exact .refl _

/-- the raw results of the first hours -/
theorem raw_take {n : ℕ} {v v' : Fin 7 → Fin 8760 → ℝ} (h : SameIn (· < n) v v') (lat lon zone : ℝ) (x : Sim Dbl) (r : Hourly.Ratios Dbl)
    (win : Hourly.Window) :
    (Hourly.rawResults x r win ((Spec.EndToEnd.yearOf lat lon zone v).map fin)).take n =
      (Hourly.rawResults x r win ((Spec.EndToEnd.yearOf lat lon zone v').map fin)).take n := by
  unfold Hourly.rawResults
  rw [runHours_take, runHours_take, ofFn_take_eq _ _ n fun i hi => ?_]
  unfold Hourly.hourInput Hourly.hourWeather
  rw [data_same h lat lon zone (by decide) (by decide) i hi, data_same h lat lon zone (by decide) (by decide) i hi,
    data_same h lat lon zone (by decide) (by decide) i hi]
  refine congrArg (fun s => (_, Hourly.HourWeather.mk _ _ s)) (funext fun k => ?_)
  split_ifs with hk
  · exact (eglobe_same h lat lon zone _ i hi).symm
  · rfl

/-- the end uses of the first hours of two years -/
theorem hour_lines (x : Sim Dbl) {n : ℕ} {rs rs' : List (Hourly.HourResults Dbl)} (ht : rs.take n = rs'.take n) {i : ℕ} (hn : i < n)
    (h : i < (Hourly.endUses x rs).length) (h' : i < (Hourly.endUses x rs').length) :
    (∀ k : Fin 13, k ∉ [0, 1, 9] → (Hourly.endUses x rs')[i] k = (Hourly.endUses x rs)[i] k) ∧
      (x.heating.hotcoldWasteFactor = fin 0 → ∀ k : Fin 13, Alike ((Hourly.endUses x rs')[i] k) ((Hourly.endUses x rs)[i] k)) := by
  obtain ⟨h1, h2, h3, h4, h5⟩ := endUses_take x n rs rs' ht i hn (by simpa [Hourly.endUses] using h) (by simpa [Hourly.endUses] using h') h h'
  have hf : fuelUse x = 0 ∨ fuelUse x = 9 := by
    unfold fuelUse
    cases ceq x.heating.energyType 1.0
    · exact .inr rfl
    · exact .inl rfl
  refine ⟨fun k hk => ?_, fun hw k => ?_⟩
  · simp only [List.mem_cons, List.not_mem_nil, or_false, not_or] at hk
    exact (h1 k (fun e => hf.elim (fun q => hk.1 (e.trans q)) fun q => hk.2.2 (e.trans q)) hk.2.1).symm
  · obtain ⟨d1, d2⟩ := hourly_distribution hw (csum (rs'.map (·.Qneed_ht))) (csum (rs'.map (·.Qneed_cl))) (csum (rs.map (·.Qneed_ht)))
      (csum (rs.map (·.Qneed_cl)))
    by_cases k1 : k = fuelUse x
    · subst k1
      rw [h2, h3]
      exact (((Alike.refl _).div d1).div (.refl _)).div (.refl _)
    by_cases k2 : k = coolingElectricity
    · subst k2
      rw [h4, h5]
      exact (((Alike.refl _).div d2).div (.refl _)).div (.refl _)
    · rw [h1 k k1 k2]
      exact .refl _

end WeatherTime
open WeatherTime

variable {fs fs' : FileSystem} {o o' : Options} {file : Properties.Store} {text text' : Str}

/-- C81, the monthly simulation: in a month in which two weather years agree (but for dew point and humidity), the lines of the two tables
agree, whatever the weather of the other months, in all columns but those of heating, cooling and pumps.  If the building file gives a
waste factor of zero, heating and cooling agree as well unless there is no number. -/
theorem C81_month (hi : Inputs fs o file text) (hi' : Inputs fs' o' file text') (ho : Nothing o) (ho' : Nothing o') {lat lon zone : ℝ}
    {v v' : Fin 7 → Fin 8760 → ℝ} (hy : YearFile text lat lon zone v) (hy' : YearFile text' lat lon zone v') (hz : |zone| ≤ 24) (m : Fin 12)
    (hs : SameIn (· ∈ hoursOfMonth (m.1 + 1)) v v') (junk junk' : Params Dbl) {acts acts' : List Action} {out out' : Str}
    (h : main standard Numerals.print fs junk o = .returns acts out) (h' : main standard Numerals.print fs' junk' o' = .returns acts' out') :
    (∀ k : Fin 13, k ∉ [0, 1, 5, 9, 10] → CellSame m k out' out) ∧
      (Gives file "hvacwastefactor" 0 → ∀ k : Fin 13, k ≠ 5 → CellSameOrNan m k out' out) := by
  obtain ⟨rs, hr, ht⟩ := monthly_run hi ho hy hz junk junk h
  obtain ⟨rs', hr', ht'⟩ := monthly_run hi' ho' hy' hz junk' junk h'
  obtain ⟨l, l', h1, h2⟩ := month_lines (x := simOf (Param.stored stod file (newObject junk))
    (siteAverages standard ((Spec.EndToEnd.yearOf lat lon zone v).map fin))) (averages_month hs lat lon zone) hr hr'
  exact ⟨fun k hk => cell_same ht ht' l l' k (h1 k hk), fun hw k hk => cell_alike ht ht' l l' k (h2 (waste_stored hw junk _) k hk)⟩

/-- C81, the hourly simulation, hour by hour: a line depends on no later hour of the weather, in all columns but those of heating and
cooling; with a waste factor of zero, in no column unless there is no number. -/
theorem C81_hours (hi : Inputs fs o file text) (hi' : Inputs fs' o' file text')
    (ho : o.monthly = false ∧ o.hourlyByMonth = false ∧ o.hourlyByHour = true ∧ o.compare = none)
    (ho' : o'.monthly = false ∧ o'.hourlyByMonth = false ∧ o'.hourlyByHour = true ∧ o'.compare = none) {lat lon zone : ℝ}
    {v v' : Fin 7 → Fin 8760 → ℝ} (hy : YearFile text lat lon zone v) (hy' : YearFile text' lat lon zone v') (hz : |zone| ≤ 24) (n : ℕ)
    (hs : SameIn (· < n) v v') (junk junk' : Params Dbl) {acts acts' : List Action} {out out' : Str}
    (h : main standard Numerals.print fs junk o = .returns acts out) (h' : main standard Numerals.print fs' junk' o' = .returns acts' out')
    (i : ℕ) (hn : i < n) (hi8 : i < 8760) :
    (∀ k : Fin 13, k ∉ [0, 1, 9] → CellSame i k out' out) ∧ (Gives file "hvacwastefactor" 0 → ∀ k : Fin 13, CellSameOrNan i k out' out) := by
  obtain ⟨a, rs, hr, ht⟩ := hourly_run hi false ho hy hz junk junk h
  obtain ⟨a', rs', hr', ht'⟩ := hourly_run hi' false ho' hy' hz junk' junk h'
  have hr := congrArg (Option.map Prod.snd) hr
  have hr' := congrArg (Option.map Prod.snd) hr'
  rw [simulate_results] at hr hr'
  have hwaste := fun h => waste_stored (file := file) h junk noAverages
  revert hr hr' hwaste
  generalize simOf (Param.stored stod file (newObject junk)) noAverages = x
  intro hr hr' hwaste
  simp only at hr hr'
  cases hw : Hourly.window x.pop with
  | none => rw [hw, Option.bind_none] at hr; cases hr
  | some win =>
    rw [hw, Option.bind_some, cond_false, Option.map_some] at hr hr'
    have hr := Option.some.inj hr
    have hr' := Option.some.inj hr'
    have hl : ∀ w, (Hourly.endUses x (Hourly.rawResults x (Hourly.pushAll x.bldg Hourly.Pushed.empty).ratios win w)).length
        = 8760 := fun w => (Hourly.endUses_length _ _).trans (Hourly.rawResults_length ..)
    obtain ⟨h1, h2⟩ := hour_lines x
      (raw_take hs lat lon zone x (Hourly.pushAll x.bldg Hourly.Pushed.empty).ratios win) hn ((hl _).symm ▸ hi8) ((hl _).symm ▸ hi8)
    subst hr hr'
    exact ⟨fun k hk => cell_same ht ht' _ _ k (h1 k hk), fun hw k => cell_alike ht ht' _ _ k (h2 (hwaste hw) k)⟩

/-- C81, the hourly simulation, by months: the line of a month depends on no hour of the weather after the end of the month. -/
theorem C81_months (hi : Inputs fs o file text) (hi' : Inputs fs' o' file text')
    (ho : o.monthly = false ∧ o.hourlyByMonth = true ∧ o.hourlyByHour = false ∧ o.compare = none)
    (ho' : o'.monthly = false ∧ o'.hourlyByMonth = true ∧ o'.hourlyByHour = false ∧ o'.compare = none) {lat lon zone : ℝ}
    {v v' : Fin 7 → Fin 8760 → ℝ} (hy : YearFile text lat lon zone v) (hy' : YearFile text' lat lon zone v') (hz : |zone| ≤ 24) (m : Fin 12)
    (hs : SameIn (· < 24 * daysBefore (m.1 + 2)) v v') (junk junk' : Params Dbl) {acts acts' : List Action} {out out' : Str}
    (h : main standard Numerals.print fs junk o = .returns acts out) (h' : main standard Numerals.print fs' junk' o' = .returns acts' out') :
    (∀ k : Fin 13, k ∉ [0, 1, 9] → CellSame m k out' out) ∧ (Gives file "hvacwastefactor" 0 → ∀ k : Fin 13, CellSameOrNan m k out' out) := by
  obtain ⟨a, rs, hr, ht⟩ := hourly_run hi true ho hy hz junk junk h
  obtain ⟨a', rs', hr', ht'⟩ := hourly_run hi' true ho' hy' hz junk' junk h'
  have hr := congrArg (Option.map Prod.snd) hr
  have hr' := congrArg (Option.map Prod.snd) hr'
  rw [simulate_results] at hr hr'
  have hwaste := fun h => waste_stored (file := file) h junk noAverages
  revert hr hr' hwaste
  generalize simOf (Param.stored stod file (newObject junk)) noAverages = x
  intro hr hr' hwaste
  simp only at hr hr'
  cases hw : Hourly.window x.pop with
  | none => rw [hw, Option.bind_none] at hr; cases hr
  | some win =>
    rw [hw, Option.bind_some, cond_true, Option.map_some] at hr hr'
    have hl : ∀ w, (Hourly.endUses x (Hourly.rawResults x (Hourly.pushAll x.bldg Hourly.Pushed.empty).ratios win w)).length
        = 8760 := fun w => (Hourly.endUses_length _ _).trans (Hourly.rawResults_length ..)
    have hlines := fun i hn l l' => hour_lines x
      (raw_take hs lat lon zone x (Hourly.pushAll x.bldg Hourly.Pushed.empty).ratios win) (i := i) hn l l'
    have l1 := hl ((Spec.EndToEnd.yearOf lat lon zone v).map fin)
    have l2 := hl ((Spec.EndToEnd.yearOf lat lon zone v').map fin)
    revert hlines l1 l2 hr hr'
    generalize Hourly.endUses x
      (Hourly.rawResults x (Hourly.pushAll x.bldg Hourly.Pushed.empty).ratios win ((Spec.EndToEnd.yearOf lat lon zone v).map fin)) = e
    generalize Hourly.endUses x
      (Hourly.rawResults x (Hourly.pushAll x.bldg Hourly.Pushed.empty).ratios win ((Spec.EndToEnd.yearOf lat lon zone v').map fin)) = e'
    intro hr' hr hlines l1 l2
    obtain ⟨out1, q1, n1, s1⟩ := Hourly.aggregate_order l1
    obtain ⟨out2, q2, n2, s2⟩ := Hourly.aggregate_order l2
    obtain rfl := Option.some.inj (q1.symm.trans hr)
    obtain rfl := Option.some.inj (q2.symm.trans hr')
    have bound : ∀ i ∈ List.range' (24 * daysBefore (m.1 + 1)) (24 * daysBefore (m.1 + 2) - 24 * daysBefore (m.1 + 1)),
        i < 24 * daysBefore (m.1 + 2) ∧ i < 8760 := by
      intro i hi
      have e1 := month_end m
      have e2 := year_end m
      rw [List.mem_range'_1] at hi
      omega
    have at_ : ∀ (l : List (Fin 13 → Dbl)) (hl : l.length = 8760) (i : ℕ) (hi : i < 8760) (k : Fin 13),
        (l.map (· k)).getD i 0.0 = (l[i]'(by omega)) k := by
      intro l hl i hi k
      rw [List.getD_eq_getElem?_getD, List.getElem?_map, List.getElem?_eq_getElem (by omega)]
      rfl
    refine ⟨fun k hk => cell_same ht ht' (by rw [n1]; exact m.2) (by rw [n2]; exact m.2) k ?_, fun hg k => cell_alike ht ht' (by rw [n1]; exact m.2) (by rw [n2]; exact m.2) k ?_⟩
    · rw [s1, s2]
      congr 1
      refine List.map_congr_left fun i hi => ?_
      obtain ⟨b1, b2⟩ := bound i hi
      rw [at_ e' l2 i b2, at_ e l1 i b2]
      exact (hlines i b1 (by omega) (by omega)).1 k hk
    · rw [s1, s2]
      refine Alike.sum ?_ (.refl _)
      rw [List.forall₂_map_left_iff, List.forall₂_map_right_iff, List.forall₂_same]
      intro i hi
      obtain ⟨b1, b2⟩ := bound i hi
      rw [at_ e' l2 i b2, at_ e l1 i b2]
      exact (hlines i b1 (by omega) (by omega)).2 (hwaste hg) k

end ISO.Props
