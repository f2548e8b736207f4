import Verif.Spec.Inputs
import Verif.Lemmas.Averages
import Verif.Props.Epw
import Verif.Lemmas.Inputs

/-! # C62: what in the weather file matters -/

namespace ISO.Props
open ISO ISO.Properties ISO.Spec ISO.Spec.Inputs ISO.User ISO.CommandLine ISO.Epw ISO.Solar ISO.WeatherText ISO.Lemmas

variable {α : Type} [CNum α] [OfInt α]

/-- the same site and the same values of the five quantities -/
structure SameUsed (w w' : Weather α) : Prop where
  latitude : w.latitude = w'.latitude
  longitude : w.longitude = w'.longitude
  timezone : w.timezone = w'.timezone
  data : ∀ c, c ≠ DPT → c ≠ RH → w.data c = w'.data c

theorem used_eglobe {w w' : Weather α} (h : SameUsed w w') : eglobe w = eglobe w' := by
  funext i s
  unfold eglobe site
  rw [h.latitude, h.longitude, h.timezone, h.data EB (by decide) (by decide), h.data ED (by decide) (by decide)]

theorem used_hour {w w' : Weather α} (h : SameUsed w w') : Hourly.hourWeather w = Hourly.hourWeather w' := by
  funext i
  unfold Hourly.hourWeather
  rw [used_eglobe h, h.data WSPD (by decide) (by decide), h.data DBT (by decide) (by decide), h.data EGH (by decide) (by decide)]

theorem used_simulate {w w' : Weather α} (h : SameUsed w w') (b : Bool) (x : Sim α) (p : Hourly.Pushed α) :
    (Hourly.simulate b ⟨x, w, p⟩).map (·.2) = (Hourly.simulate b ⟨x, w', p⟩).map (·.2) := by
  have e : ∀ win, Hourly.hourInput x win w = Hourly.hourInput x win w' := by
    intro win
    funext i
    unfold Hourly.hourInput
    rw [used_hour h]
  unfold Hourly.simulate Hourly.rawResults
  simp only [e]
  cases Hourly.window x.pop with
  | none => simp only [Option.bind_eq_bind, Option.bind_none]
  | some win =>
    simp only [Option.bind_eq_bind, Option.bind_some]
    generalize Hourly.runHours x (Hourly.initConsts x) (Hourly.pushAll x.bldg p).ratios (List.ofFn (Hourly.hourInput x win w')) Hourly.initialState = rs
    cases b with
    | false => rfl
    | true =>
      generalize ha : Hourly.aggregate (Hourly.endUses x rs) = a
      cases a <;> simp

/-- the bins that are printed are the same -/
structure SameBins (b b' : MonthBins α) : Prop where
  dryBulb : b.dryBulb = b'.dryBulb
  windspeed : b.windspeed = b'.windspeed
  globalHorizontal : b.globalHorizontal = b'.globalHorizontal
  solar : b.solar = b'.solar
  hourlyDryBulb : b.hourlyDryBulb = b'.hourlyDryBulb
  hourlyGlobalHorizontal : b.hourlyGlobalHorizontal = b'.hourlyGlobalHorizontal

/-- the hours whose averages are printed are the same -/
def SameHour (x x' : Slice × HourData α) : Prop :=
  x.1 = x'.1 ∧ x.2.dbt = x'.2.dbt ∧ x.2.egh = x'.2.egh ∧ x.2.wspd = x'.2.wspd ∧ x.2.eglobe = x'.2.eglobe

omit [OfInt α] in
theorem same_fold {l l' : List (Slice × HourData α)} (h : List.Forall₂ SameHour l l') {b b' : MonthBins α} (hb : SameBins b b') :
    SameBins (l.foldl (fun b x => b.accumulate x.1.hour x.2) b) (l'.foldl (fun b x => b.accumulate x.1.hour x.2) b') := by
  induction h generalizing b b' with
  | nil => exact hb
  | cons hx _ ih =>
    obtain ⟨h1, h2, h3, h4, h5⟩ := hx
    refine ih ⟨?_, ?_, ?_, ?_, ?_, ?_⟩ <;> simp only [MonthBins.accumulate, h1, h2, h3, h4, h5, hb.dryBulb, hb.windspeed, hb.globalHorizontal,
      hb.solar, hb.hourlyDryBulb, hb.hourlyGlobalHorizontal]

theorem same_final {l l' : List (Slice × HourData α)} (h : List.Forall₂ SameHour l l') (k : Nat) :
    SameBins (monthFinal l k) (monthFinal l' k) := by
  have e : List.Forall₂ SameHour (monthBlock l k) (monthBlock l' k) := List.forall₂_drop _ (List.forall₂_take _ h)
  have hb := same_fold e (b := MonthBins.zero) (b' := MonthBins.zero) ⟨rfl, rfl, rfl, rfl, rfl, rfl⟩
  unfold monthFinal monthSum
  refine ⟨?_, ?_, ?_, ?_, ?_, ?_⟩ <;> simp only [MonthBins.average, hb.dryBulb, hb.windspeed, hb.globalHorizontal,
      hb.solar, hb.hourlyDryBulb, hb.hourlyGlobalHorizontal]

omit [CNum α] [OfInt α] in
theorem isoLines_same (fmt : α → Str) {b b' : Fin 12 → MonthBins α} (h : ∀ i, SameBins (b i) (b' i)) : isoLines fmt b = isoLines fmt b' := by
  have e1 : valueLine fmt (·.dryBulb) b = valueLine fmt (·.dryBulb) b' := by funext i; simp only [valueLine, (h i).dryBulb]
  have e2 : valueLine fmt (·.windspeed) b = valueLine fmt (·.windspeed) b' := by funext i; simp only [valueLine, (h i).windspeed]
  have e3 : valueLine fmt (·.globalHorizontal) b = valueLine fmt (·.globalHorizontal) b' := by funext i; simp only [valueLine, (h i).globalHorizontal]
  have e4 : rowLine fmt (·.hourlyDryBulb) b = rowLine fmt (·.hourlyDryBulb) b' := by funext i; simp only [rowLine, (h i).hourlyDryBulb]
  have e5 : rowLine fmt (·.hourlyGlobalHorizontal) b = rowLine fmt (·.hourlyGlobalHorizontal) b' := by
    funext i; simp only [rowLine, (h i).hourlyGlobalHorizontal]
  have e6 : rowLine fmt (·.solar) b = rowLine fmt (·.solar) b' := by funext i; simp only [rowLine, (h i).solar]
  unfold isoLines
  rw [e1, e2, e3, e4, e5, e6]

theorem forall₂_ofFn {β : Type} {R : β → β → Prop} {n : Nat} {f g : Fin n → β} (h : ∀ i, R (f i) (g i)) : List.Forall₂ R (List.ofFn f) (List.ofFn g) := by
  rw [List.forall₂_iff_get]
  refine ⟨by simp, fun i h1 h2 => ?_⟩
  simp only [List.get_eq_getElem, List.getElem_ofFn]
  exact h _

theorem used_text (fmt : α → Str) {w w' : Weather α} (h : SameUsed w w') : toISOData fmt w = toISOData fmt w' := by
  have hh : ∀ i, SameHour (hourData w i) (hourData w' i) := by
    intro i
    unfold hourData
    exact ⟨rfl, by rw [h.data DBT (by decide) (by decide)], by rw [h.data EGH (by decide) (by decide)],
      by rw [h.data WSPD (by decide) (by decide)], by rw [used_eglobe h]⟩
  have hf := same_final (forall₂_ofFn hh)
  unfold toISOData
  rw [calculate_eq w _ (by simp [newBins]), calculate_eq w' _ (by simp [newBins])]
  generalize List.ofFn (hourData w) = l at hf ⊢
  generalize List.ofFn (hourData w') = l' at hf ⊢
  simp only [Option.bind_eq_bind, Option.bind_some, List.length_map, List.length_range, le_refl, dite_true, List.getElem_map, List.getElem_range]
  rw [isoLines_same fmt fun i => hf i.1]

omit [OfInt α] in
/-- what is loaded from the two files -/
theorem loaded_used (atof : Str → α) {t t' : Str} (h : SameYear t t') (e : EpwData α) :
    (toWeather (loadFile atof (some t) e) = none ∧ toWeather (loadFile atof (some t') e) = none) ∨
    ∃ w w', toWeather (loadFile atof (some t) e) = some w ∧ toWeather (loadFile atof (some t') e) = some w' ∧ SameUsed w w' := by
  obtain ⟨ls, ls', rfl, rfl, hn, hn', ⟨fs, fs', h0, h0', hne, hne', hc, hc', hk⟩, hrow⟩ := h.lines
  cases ls with
  | nil => simp at h0
  | cons l ls =>
  cases ls' with
  | nil => simp at h0'
  | cons l' ls' =>
  simp only [List.getElem?_cons_zero, Option.some.injEq] at h0 h0'
  subst h0 h0'
  have a := C14_header atof fs hne hc ls hn e
  have a' := C14_header atof fs' hne' hc' ls' hn' e
  have hl := C16_length atof (some (Spec.Epw.file (Spec.Epw.line fs :: ls))) e
  have hl' := C16_length atof (some (Spec.Epw.file (Spec.Epw.line fs' :: ls'))) e
  have hd : ∀ c, c ≠ DPT → c ≠ RH → ∀ r < 8760, ((loadFile atof (some (Spec.Epw.file (Spec.Epw.line fs :: ls))) e).data c)[r]? =
      ((loadFile atof (some (Spec.Epw.file (Spec.Epw.line fs' :: ls'))) e).data c)[r]? := by
    intro c h1 h2 r hr
    obtain ⟨gs, gs', g1, g2, g3, g4, g5, g6, g7⟩ := hrow r hr
    rw [C14_row atof _ ls hn e r hr gs g3 g5 g1, C14_row atof _ ls' hn' e r hr gs' g4 g6 g2, g7]
    revert h1 h2
    fin_cases c <;> decide
  generalize loadFile atof (some (Spec.Epw.file (Spec.Epw.line fs :: ls))) e = x at *
  generalize loadFile atof (some (Spec.Epw.file (Spec.Epw.line fs' :: ls'))) e = x' at *
  obtain ⟨-, -, a1, a2, a3⟩ := a
  obtain ⟨-, -, b1, b2, b3⟩ := a'
  rw [← hk 7 (by simp)] at b1
  rw [← hk 8 (by simp)] at b2
  rw [← hk 9 (by simp)] at b3
  unfold toWeather
  rw [a1, a2, a3, b1, b2, b3]
  cases CNum.cint (atof (Spec.Epw.field fs 9)) with
  | none => exact .inl ⟨rfl, rfl⟩
  | some tz =>
    right
    simp only
    rw [dif_pos hl, dif_pos hl']
    refine ⟨_, _, rfl, rfl, rfl, rfl, rfl, fun c h1 h2 => ?_⟩
    funext i
    have := hd c h1 h2 i.1 i.2
    simp only
    rw [List.getElem?_eq_getElem (by rw [hl]; exact i.2), List.getElem?_eq_getElem (by rw [hl']; exact i.2)] at this
    exact Option.some.inj this

/-- user models that differ only in the hourly weather, and there only in what is not used -/
def SameModel (u u' : UserModel α) : Prop :=
  ∃ e, u' = { u with edata := e } ∧ (toWeather u.edata = toWeather e ∨ ∃ w w', toWeather u.edata = some w ∧ toWeather e = some w' ∧ SameUsed w w')

theorem act_same (print : Printer α) {u u' : UserModel α} (h : SameModel u u') (o : Out) (a : Action) : act print u o a = act print u' o a := by
  obtain ⟨e, rfl, h⟩ := h
  have hm : monthlyResults u = monthlyResults { u with edata := e } := rfl
  have hh : ∀ b, hourlyResults u b = hourlyResults { u with edata := e } b := by
    intro b
    show (match toHourlyModel u with | none => _ | some _ => _) = (match toHourlyModel u with | none => _ | some _ => _)
    cases toHourlyModel u with
    | none => rfl
    | some m =>
      simp only [hourlyWeather]
      rcases h with h | ⟨w, w', h1, h2, h3⟩
      · rw [h]
      · rw [h1, h2]
        simp only [Option.bind_some]
        rw [used_simulate h3]
  cases a with
  | runMonthly => simp only [act, runMonthlySimulation, hm]
  | runHourly b => simp only [act, runHourlySimulation, hh b]
  | compare b => simp only [act, CommandLine.compare, hh true, hm]
  | message => rfl

theorem perform_same (print : Printer α) {u u' : UserModel α} (h : SameModel u u') (as did : List Action) (o : Out) :
    perform print u as did o = perform print u' as did o := by
  induction as generalizing did o with
  | nil => rfl
  | cons a as ih =>
    unfold perform
    rw [act_same print h]
    cases act print u' o a <;> simp only [ih]

/-- the two loads end alike -/
inductive SameResult : Result (UserModel α) → Result (UserModel α) → Prop
  | ok {u u'} : SameModel u u' → SameResult (.ok u) (.ok u')
  | throw {e s s'} : SameResult (.throw e s) (.throw e s')
  | undefined : SameResult .undefined .undefined

theorem loadWeather_same (lib : Library α) {fs fs' : FileSystem} (h : SameDisk fs fs') (u : UserModel α) :
    SameResult (loadWeather lib fs u) (loadWeather lib fs' u) := by
  obtain ⟨⟨f, found⟩, hw⟩ : ∃ p, weatherFile fs u = p := ⟨_, rfl⟩
  have hw' : weatherFile fs' u = (f, found) := by
    rw [← hw]
    unfold weatherFile
    rw [h.exists_]
  rw [loadWeather_file lib fs u f found hw, loadWeather_file lib fs' u f found hw']
  generalize (if found = true then u.valid else some false) = valid
  rcases h.read f with e | ⟨t, t', e1, e2, e3⟩
  · rw [e]
    generalize fillWeather lib _ = y
    cases y with
    | none => exact .undefined
    | some y => exact .ok ⟨y.edata, rfl, .inl rfl⟩
  · rw [e1, e2]
    have h4 := loaded_used lib.atof e3 u.edata
    generalize loadFile lib.atof (some t) u.edata = d at h4 ⊢
    generalize loadFile lib.atof (some t') u.edata = d' at h4 ⊢
    unfold fillWeather
    rcases h4 with ⟨h1, h2⟩ | ⟨w, w', h1, h2, h3⟩
    · rw [h1, h2]
      exact .undefined
    · rw [h1, h2, Option.bind_eq_bind, Option.bind_some, Option.bind_some, used_text lib.fmt h3]
      generalize toISOData lib.fmt w' = text
      cases text with
      | none => exact .undefined
      | some text => exact .ok ⟨_, rfl, .inr ⟨w, w', h1, h2, h3⟩⟩

theorem building_same (lib : Library α) {fs fs' : FileSystem} (h : SameDisk fs fs') (r : Result (UserModel α)) :
    SameResult (match r with | .ok u => loadWeather lib fs u | r => r) (match r with | .ok u => loadWeather lib fs' u | r => r) := by
  cases r with
  | ok u => exact loadWeather_same lib h u
  | throw e s => exact .throw
  | undefined => exact .undefined

theorem loadFor_same (lib : Library α) {fs fs' : FileSystem} (h : SameDisk fs fs') (junk : Params α) (o : Options)
    (hb : fs.read o.ism = fs'.read o.ism) (hd : ∀ d, o.defaults = some d → fs.read d = fs'.read d) :
    SameResult (loadFor lib fs junk o) (loadFor lib fs' junk o) := by
  unfold loadFor
  cases e : o.defaults with
  | none =>
    simp only [load]
    rw [← hb, ← h.exists_]
    split
    · exact .ok ⟨_, rfl, .inl rfl⟩
    · exact building_same lib h _
  | some d =>
    simp only [loadWithDefaults]
    rw [← hb, ← hd d e, ← h.exists_]
    split
    · exact .ok ⟨_, rfl, .inl rfl⟩
    · split
      · exact .ok ⟨_, rfl, .inl rfl⟩
      · exact building_same lib h _

/-- C62: of the weather file only the site and five columns matter.  When the disk holds another weather file with the same latitude, longitude
and time zone and the same dry bulb temperatures, radiations and wind speeds, then every call of the program ends alike and prints the
same; so the dew point, the humidity and all other columns have no effect on any result.  For every arithmetic and all library functions. -/
theorem C62_weather (lib : Library α) (print : Printer α) (junk : Params α) (fs fs' : FileSystem) (o : Options) (h : SameDisk fs fs')
    (hb : fs.read o.ism = fs'.read o.ism) (hd : ∀ d, o.defaults = some d → fs.read d = fs'.read d) :
    main lib print fs junk o = main lib print fs' junk o := by
  unfold main
  have hl := loadFor_same lib h junk o hb hd
  generalize loadFor lib fs junk o = r at hl ⊢
  generalize loadFor lib fs' junk o = r' at hl ⊢
  cases hl with
  | throw => rfl
  | undefined => rfl
  | ok hu =>
    rename_i u u'
    simp only
    rw [perform_same print hu]
    obtain ⟨e, rfl, -⟩ := hu
    have : loadText fs o u = loadText fs' o { u with edata := e } := by
      unfold loadText weatherFile
      rw [h.exists_]
    rw [this]

/-! ### example -/

/-- a weather file with the same hour all year -/
def evenYear (header hour : List Str) : Str := Spec.Epw.file (Spec.Epw.line header :: List.replicate 7 [] ++ List.replicate 8760 (Spec.Epw.line hour))

theorem evenYear_row (l0 l : Str) {r : Nat} (hr : r < 8760) :
    (l0 :: List.replicate 7 [] ++ List.replicate 8760 l)[8 + r]? = some l := by
  generalize 8760 = N at *
  rw [List.getElem?_append_right (by simp), List.getElem?_replicate]
  simp only [List.length_cons, List.length_replicate]
  rw [if_pos (by omega)]

theorem evenYear_newline {l0 l : Str} (h0 : '\n' ∉ l0) (h1 : '\n' ∉ l) : ∀ x ∈ l0 :: List.replicate 7 [] ++ List.replicate 8760 l, '\n' ∉ x := by
  intro x hx
  simp only [List.cons_append, List.mem_cons, List.mem_append, List.mem_replicate] at hx
  rcases hx with rfl | ⟨-, rfl⟩ | ⟨-, rfl⟩
  · exact h0
  · simp
  · exact h1

/-- a dry hour and a humid one, with another pressure and another sky -/
def dryHour : List Str := ["1986", "1", "1", "1", "0", "?", "12.2", "-5.0", "21", "99500", "0", "0", "279", "150", "100", "85", "0", "0", "0", "0", "250",
  "4.1", "10"].map String.toList
def humidHour : List Str := ["2004", "7", "1", "1", "0", "A7", "12.2", "11.9", "98", "101300", "9", "9", "300", "150", "100", "85", "1", "1", "1", "1", "90",
  "4.1"].map String.toList

/-- two headers of the same place -/
def placeA : List Str := ["LOCATION", "Chicago Ohare Intl Ap", "IL", "USA", "TMY3", "725300", "41.98", "-87.92", "-6.0", "201.0"].map String.toList
def placeB : List Str := ["LOCATION", "Chicago", "Illinois", "USA", "TMY2", "1", "41.98", "-87.92", "-6.0"].map String.toList

theorem dry_humid : SameYear (evenYear placeA dryHour) (evenYear placeB humidHour) := by
  refine ⟨_, _, rfl, rfl, evenYear_newline (by decide +kernel) (by decide +kernel), evenYear_newline (by decide +kernel) (by decide +kernel),
    ⟨placeA, placeB, rfl, rfl, by decide, by decide, by decide +kernel, by decide +kernel, by decide +kernel⟩, fun r hr =>
    ⟨dryHour, humidHour, evenYear_row _ _ hr, evenYear_row _ _ hr, by decide, by decide, by decide +kernel, by decide +kernel, by decide +kernel⟩⟩

/-- the hypotheses of `C62_weather` are met -/
example (lib : Library α) (print : Printer α) (junk : Params α) (building : Str) (o : Options) (ho : o.ism = "office.ism".toList) (hd : o.defaults = none) :
    main lib print ⟨fun _ => true, fun p => if p = "office.ism".toList then some building else some (evenYear placeA dryHour)⟩ junk o =
    main lib print ⟨fun _ => true, fun p => if p = "office.ism".toList then some building else some (evenYear placeB humidHour)⟩ junk o := by
  refine C62_weather lib print junk _ _ o ⟨rfl, fun p => ?_⟩ (by rw [ho]; dsimp only; rw [if_pos rfl, if_pos rfl]) (by rw [hd]; intro d h; cases h)
  dsimp only
  by_cases h : p = "office.ism".toList
  · exact .inl (by rw [if_pos h, if_pos h])
  · exact .inr ⟨_, _, if_neg h, if_neg h, dry_humid⟩

end ISO.Props
