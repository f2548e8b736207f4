import Verif.Props.Editing
import Verif.Props.EndToEndCases

/-! # C75: the hypotheses are met by the office of `EndToEndOffice` and the same office with another boiler -/

namespace ISO.Props
open ISO ISO.Numerals ISO.Properties ISO.Spec ISO.Spec.Text ISO.Spec.Whole ISO.Spec.EndToEnd ISO.User ISO.CommandLine ISO.Epw ISO.Lemmas Dbl
open ISO.Lemmas.Editing (edit_Shades edit_Occupancy)
open ISO.Spec.Editing (heatingSystemNames shadesNames occupancyNames monthlyGroups hourlyGroups monthlyKinds hourlyKinds Edited SameTable)

/-- the line for another boiler -/
def boilerLine : Str := "heatingSystemEfficiency = 0.95".toList

/-- the building file with another boiler -/
def boiler : Str := boilerLine ++ '\n' :: mended

theorem boilerLine_defines : Defines boilerLine "heatingSystemEfficiency".toList "0.95".toList := by
  have h : Properties.parseLine boilerLine = .define (lower "heatingSystemEfficiency".toList) "0.95".toList := by decide +kernel
  refine ⟨fun hi => ?_, "heatingSystemEfficiency ".toList, " 0.95".toList, by decide +kernel, by decide +kernel, ?_, by decide +kernel, ?_, by decide +kernel⟩
  · rw [(parseLine_skip_iff boilerLine).mpr hi] at h
    cases h
  · have := strTrim_trimmed "heatingSystemEfficiency ".toList
    rwa [show strTrim "heatingSystemEfficiency ".toList = "heatingSystemEfficiency".toList by decide +kernel] at this
  · have := strTrim_trimmed " 0.95".toList
    rwa [show strTrim " 0.95".toList = "0.95".toList by decide +kernel] at this

/-- the hypotheses of `C75_line` are met: a line for the efficiency of the boiler in front of the file -/
theorem boiler_file : ∃ file', Properties.ofFile (some boiler) = .ok file' ∧ Edited heatingSystemNames mendedStore file' ∧
    (∀ k, SameKey "heatingSystemEfficiency".toList k → Properties.getProperty k file' = some "0.95".toList) ∧
    ∀ k, ¬ SameKey "heatingSystemEfficiency".toList k → Properties.getProperty k file' = Properties.getProperty k mendedStore :=
  C75_line mendedStore_eq (by decide +kernel) boilerLine_defines heatingSystemNames (by unfold SameKey; decide +kernel)

/-- the verdict on a parameter depends on the text given for it -/
theorem judge_given {file file' : Properties.Store} {r : Param.Row} (e : Param.given file' r.name = Param.given file r.name) :
    Param.judge Numerals.stod file' r = Param.judge Numerals.stod file r := by
  unfold Param.judge Param.boolean
  rw [e]

theorem boiler_inputs : ∃ file', Edited heatingSystemNames mendedStore file' ∧ Param.given file' "heatingsystemefficiency" = some "0.95".toList ∧
    ∀ (monthly byMonth byHour : Bool) (c : Option Str), Inputs (twoFiles boiler someYear)
      ⟨"SmallOffice_v2.ism".toList, none, monthly, byMonth, byHour, c⟩ file' someYear := by
  obtain ⟨file', h1, h2, h3, h4⟩ := boiler_file
  refine ⟨file', h2, h3 _ (by unfold SameKey; decide +kernel), fun monthly byMonth byHour c => ⟨twoFiles_exists _ _ _, by simp, ?_, ?_, ?_⟩⟩
  · simp only
    rw [twoFiles_building]
    exact h1
  · have one : ∀ r ∈ Param.table, SameKey "heatingSystemEfficiency".toList r.name.toList →
        Param.judge stodValue [("heatingsystemefficiency".toList, "0.95".toList)] r = .accepted := by
      unfold SameKey
      decide +kernel
    intro r hr
    by_cases hk : SameKey "heatingSystemEfficiency".toList r.name.toList
    · refine (judge_given ?_).trans ((judge_map stodValue toDouble [("heatingsystemefficiency".toList, "0.95".toList)] Numerals.stod stod_value r).trans
        (one r hr hk))
      refine (h3 _ hk).trans ?_
      show _ = Properties.find (r.name.toList.map Char.toLower) _
      rw [← hk]
      decide +kernel
    · exact (judge_given (h4 _ hk)).trans (mended_accepted r hr)
  · obtain ⟨path, w, h5, h6, h7⟩ := (mended_inputs monthly byMonth byHour c).weather
    refine ⟨"ORD.epw".toList, "ORD.epw".toList, ?_, by rw [twoFiles_exists]; rfl, twoFiles_weather _ _⟩
    refine (h4 _ (by unfold SameKey; decide +kernel)).trans ?_
    show Param.given mendedStore "weatherfilepath" = _
    decide +kernel

/-- the hypotheses of `C75_monthly` are met: with another boiler only the columns of heating can change -/
example (junk : Params Dbl) : ∃ out out',
    main standard Numerals.print (twoFiles mended someYear) junk ⟨"SmallOffice_v2.ism".toList, none, false, false, false, none⟩
      = .returns [.runMonthly] out ∧
    main standard Numerals.print (twoFiles boiler someYear) junk ⟨"SmallOffice_v2.ism".toList, none, false, false, false, none⟩
      = .returns [.runMonthly] out' ∧
    SameTable [0, 9] out out' := by
  obtain ⟨file', he, -, hb⟩ := boiler_inputs
  obtain ⟨out, a, value, h, -⟩ := C74_monthly (mended_inputs false false false none) ⟨rfl, rfl, rfl, rfl⟩ mended_describes
    (fun i => ⟨show (1:ℝ) ≤ 1 from le_rfl, show (1:ℝ) < 4 by norm_num⟩) someYear_complete someYear_suitable (fun _ ha => mended_ordinary ha) junk
  obtain ⟨out', h', hs⟩ := C75_monthly (names := heatingSystemNames) (columns := [0, 9]) (by simp [monthlyGroups])
    (mended_inputs false false false none) (hb false false false none) he ⟨rfl, rfl, rfl, rfl⟩ ⟨rfl, rfl, rfl, rfl⟩
    someYear_complete someYear_suitable.zone junk junk h
  exact ⟨out, out', h, h', hs⟩

/-- the hypotheses of `C75_hourly` are met -/
example (junk : Params Dbl) : ∃ out out',
    main standard Numerals.print (twoFiles mended someYear) junk ⟨"SmallOffice_v2.ism".toList, none, false, false, true, none⟩
      = .returns [.runHourly false] out ∧
    main standard Numerals.print (twoFiles boiler someYear) junk ⟨"SmallOffice_v2.ism".toList, none, false, false, true, none⟩
      = .returns [.runHourly false] out' ∧
    SameTable [0, 9] out out' := by
  obtain ⟨file', he, -, hb⟩ := boiler_inputs
  obtain ⟨out, -, -, -, -, h, -⟩ := C74_byHour (mended_inputs false false true none) ⟨rfl, rfl, rfl, rfl⟩ mended_describes mended_physical
    mended_systems mended_timetable someYear_complete someYear_suitable.lat someYear_suitable.zone junk
  obtain ⟨out', h', hs⟩ := C75_hourly (names := heatingSystemNames) (columns := [0, 9]) (by simp [hourlyGroups])
    (mended_inputs false false true none) (hb false false true none) he false ⟨rfl, rfl, rfl, rfl⟩ ⟨rfl, rfl, rfl, rfl⟩
    someYear_complete someYear_suitable.zone junk junk h
  exact ⟨out, out', h, h', hs⟩

/-! ### shading devices and hours of occupancy -/

/-- a building file that the program accepts with the weather of `someYear` -/
structure Base (building : Str) (file : Properties.Store) : Prop where
  read : Properties.ofFile (some building) = .ok file
  accepted : ∀ r ∈ Param.table, Param.judge Numerals.stod file r = .accepted
  weather : Properties.getProperty "weatherfilepath".toList file = some "ORD.epw".toList

theorem mended_base : Base mended mendedStore := by
  refine ⟨mendedStore_eq, mended_accepted, ?_⟩
  show Param.given mendedStore "weatherfilepath" = _
  decide +kernel

theorem Base.inputs {building : Str} {file : Properties.Store} (h : Base building file) (monthly byMonth byHour : Bool) (c : Option Str) :
    Inputs (twoFiles building someYear) ⟨"SmallOffice_v2.ism".toList, none, monthly, byMonth, byHour, c⟩ file someYear := by
  refine ⟨twoFiles_exists _ _ _, by simp, ?_, h.accepted, ?_⟩
  · simp only
    rw [twoFiles_building]
    exact h.read
  · exact ⟨"ORD.epw".toList, "ORD.epw".toList, h.weather, by rw [twoFiles_exists]; rfl, twoFiles_weather _ _⟩

/-- a line in front of the building file -/
theorem Base.line {building : Str} {file : Properties.Store} (h : Base building file) {line key value : Str} (names : List String)
    (hd : Defines line key value) (hl : '\n' ∉ line) (hn : ∀ r ∈ Param.table, SameKey key r.name.toList → r.name ∈ names)
    (one : ∀ r ∈ Param.table, SameKey key r.name.toList → Param.judge stodValue [(lower key, value)] r = .accepted)
    (hw : ¬ SameKey key "weatherfilepath".toList) :
    ∃ file', Base (line ++ '\n' :: building) file' ∧ Edited names file file' ∧
      (∀ k, SameKey key k → Properties.getProperty k file' = some value) ∧
      ∀ k, ¬ SameKey key k → Properties.getProperty k file' = Properties.getProperty k file := by
  obtain ⟨file', h1, h2, h3, h4⟩ := C75_line h.read hl hd names hn
  refine ⟨file', ⟨h1, ?_, (h4 _ hw).trans h.weather⟩, h2, h3, h4⟩
  intro r hr
  by_cases hk : SameKey key r.name.toList
  · refine (judge_given ?_).trans ((judge_map stodValue toDouble [(lower key, value)] Numerals.stod stod_value r).trans (one r hr hk))
    refine (h3 _ hk).trans ?_
    show _ = Properties.find (r.name.toList.map Char.toLower) _
    rw [← hk]
    unfold Properties.find lower
    simp
  · exact (judge_given (h4 _ hk)).trans (h.accepted r hr)

/-- a line with a name and a value, and a blank on both sides of the sign -/
theorem defines_line {line a b key value : Str} (h : Properties.parseLine line = .define (lower key) value) (e : line = a ++ '=' :: b)
    (h1 : '=' ∉ a) (h2 : strTrim a = key) (h3 : key ≠ []) (h4 : strTrim b = value) (h5 : value ≠ []) : Defines line key value := by
  refine ⟨fun hi => ?_, a, b, e, h1, ?_, h3, ?_, h5⟩
  · rw [(parseLine_skip_iff line).mpr hi] at h
    cases h
  · have := strTrim_trimmed a
    rwa [h2] at this
  · have := strTrim_trimmed b
    rwa [h4] at this

/-- other shading devices -/
def shadesLine : Str := "windowSDF = 2,2,3,2,2,1,2,2,2".toList

/-- another first hour -/
def hoursLine : Str := "occupancyHourFirst = 7".toList

/-- the hypotheses of `C75_monthly_kinds` are met: with other shading devices only heating, cooling, fans and pumps can change -/
example (junk : Params Dbl) : ∃ out out',
    main standard Numerals.print (twoFiles mended someYear) junk ⟨"SmallOffice_v2.ism".toList, none, false, false, false, none⟩
      = .returns [.runMonthly] out ∧
    main standard Numerals.print (twoFiles (shadesLine ++ '\n' :: mended) someYear) junk
      ⟨"SmallOffice_v2.ism".toList, none, false, false, false, none⟩ = .returns [.runMonthly] out' ∧
    SameTable [0, 1, 4, 5, 9, 10] out out' := by
  obtain ⟨file', hB, he, h3, h4⟩ := mended_base.line (line := shadesLine) (key := "windowSDF".toList) (value := "2,2,3,2,2,1,2,2,2".toList)
    (names := shadesNames)
    (defines_line (a := "windowSDF ".toList) (b := " 2,2,3,2,2,1,2,2,2".toList) (by decide +kernel) (by decide +kernel) (by decide +kernel)
      (by decide +kernel) (by decide +kernel) (by decide +kernel) (by decide +kernel))
    (by decide +kernel) (by unfold SameKey; decide +kernel) (by unfold SameKey; decide +kernel) (by unfold SameKey; decide +kernel)
  have hb := hB.inputs
  obtain ⟨out, a, value, h, -⟩ := C74_monthly (mended_inputs false false false none) ⟨rfl, rfl, rfl, rfl⟩ mended_describes
    (fun i => ⟨show (1:ℝ) ≤ 1 from le_rfl, show (1:ℝ) < 4 by norm_num⟩) someYear_complete someYear_suitable (fun _ ha => mended_ordinary ha) junk
  have hs := Editing.monthly_ran (mended_inputs false false false none) ⟨rfl, rfl, rfl, rfl⟩ someYear_complete someYear_suitable.zone junk junk h
  have hf : ∀ w, (simOf (Param.stored stod file' (newObject junk)) w).bldg.windowShadingDevice =
      fun i : Fin 9 => [fin 2, fin 2, fin 3, fin 2, fin 2, fin 2, fin 2, fin 1, fin 2].getD i.1 (fin 2) := by
    intro w
    have hv : Properties.getPropertyAsDoubleVector stodValue "windowSDF".toList file' =
        .ok (some [.number 2, .number 2, .number 3, .number 2, .number 2, .number 1, .number 2, .number 2, .number 2]) := by
      unfold Properties.getPropertyAsDoubleVector
      rw [h3 _ (by unfold SameKey; decide +kernel)]
      decide +kernel
    show (Param.facades stod file' "windowSDF").getD _ = _
    rw [facades_value hv]
    funext i
    fin_cases i <;> simp [toDouble]
  have hc : ∀ c : ℝ, 1 ≤ c → c < 4 → (Monthly.shadingFactor (fin c)).isSome := by
    intro c h1 h2
    rw [(Monthly.shadingFactor_fin c).1 ⟨h1, h2⟩]
    rfl
  have hk : ∀ w i, (Monthly.shadingFactor ((simOf (Param.stored stod file' (newObject junk)) w).bldg.windowShadingDevice i)).isSome := by
    intro w i
    rw [hf]
    fin_cases i <;> exact hc _ (by norm_num) (by norm_num)
  have same : SameExcept [0, 1, 4, 5, 9, 10]
      (Monthly.simulate (simOf (Param.stored stod mendedStore (newObject junk))
        (siteAverages standard ((Spec.EndToEnd.yearOf 41.98 (-87.92) (-6) fun c _ => someValues c).map fin))))
      (Monthly.simulate (simOf (Param.stored stod file' (newObject junk))
        (siteAverages standard ((Spec.EndToEnd.yearOf 41.98 (-87.92) (-6) fun c _ => someValues c).map fin)))) := by
    have hk' := hk (siteAverages standard ((Spec.EndToEnd.yearOf 41.98 (-87.92) (-6) fun c _ => someValues c).map fin))
    rw [edit_Shades he]
    exact C56_shades _ _ ((monthly_other_shades _ _ hk' hs).trans hs.symm)
  obtain ⟨out', h', -⟩ := Editing.monthly_tables (mended_inputs false false false none) (hb false false false none) ⟨rfl, rfl, rfl, rfl⟩
    ⟨rfl, rfl, rfl, rfl⟩ someYear_complete someYear_suitable.zone someYear_complete someYear_suitable.zone junk junk rfl rfl same h
  exact ⟨out, out', h, h', (C75_monthly_kinds (names := shadesNames) (columns := [0, 1, 4, 5, 9, 10]) (by simp [monthlyKinds])
    (mended_inputs false false false none) (hb false false false none) he ⟨rfl, rfl, rfl, rfl⟩ ⟨rfl, rfl, rfl, rfl⟩
    someYear_complete someYear_suitable.zone junk junk h h').2⟩

/-- the hypotheses of `C75_hourly_kinds` are met: with another first hour of occupancy the lights outside cannot change -/
example (junk : Params Dbl) : ∃ out out',
    main standard Numerals.print (twoFiles mended someYear) junk ⟨"SmallOffice_v2.ism".toList, none, false, false, true, none⟩
      = .returns [.runHourly false] out ∧
    main standard Numerals.print (twoFiles (hoursLine ++ '\n' :: mended) someYear) junk
      ⟨"SmallOffice_v2.ism".toList, none, false, false, true, none⟩ = .returns [.runHourly false] out' ∧
    SameTable [2, 6, 0, 1, 9, 4, 5] out out' := by
  obtain ⟨file', hB, he, h3, h4⟩ := mended_base.line (line := hoursLine) (key := "occupancyHourFirst".toList) (value := "7".toList)
    (names := occupancyNames)
    (defines_line (a := "occupancyHourFirst ".toList) (b := " 7".toList) (by decide +kernel) (by decide +kernel) (by decide +kernel)
      (by decide +kernel) (by decide +kernel) (by decide +kernel) (by decide +kernel))
    (by decide +kernel) (by unfold SameKey; decide +kernel) (by unfold SameKey; decide +kernel) (by unfold SameKey; decide +kernel)
  obtain ⟨out, -, -, -, -, h, -⟩ := C74_byHour (mended_inputs false false true none) ⟨rfl, rfl, rfl, rfl⟩ mended_describes mended_physical
    mended_systems mended_timetable someYear_complete someYear_suitable.lat someYear_suitable.zone junk
  have hb := hB.inputs
  have hs := Editing.hourly_ran (mended_inputs false false true none) false ⟨rfl, rfl, rfl, rfl⟩ someYear_complete someYear_suitable.zone junk junk h
  have hn : Param.number stod file' "occupancyhourfirst" = some (fin (7 : ℚ)) := by
    refine number_value ?_
    show (Properties.getProperty "occupancyhourfirst".toList file').bind _ = _
    rw [h3 _ (by unfold SameKey; decide +kernel)]
    decide +kernel
  have hw : (Hourly.window (simOf (Param.stored stod file' (newObject junk)) noAverages).pop).isSome = true := by
    have other : ∀ name : String, ¬ SameKey "occupancyHourFirst".toList name.toList → Param.number stod file' name = Param.number stod mendedStore name := by
      intro name hne
      show (Properties.getProperty name.toList file').bind _ = (Properties.getProperty name.toList mendedStore).bind _
      rw [h4 _ hne]
    have e1 := other "occupancydayfirst" (by unfold SameKey; decide +kernel)
    have e2 := other "occupancydaylast" (by unfold SameKey; decide +kernel)
    have e3 := other "occupancyhourlast" (by unfold SameKey; decide +kernel)
    obtain ⟨win, hwin⟩ := Option.isSome_iff_exists.mp hs
    unfold Hourly.window at hwin ⊢
    simp only [simOf, Param.stored, e1, e2, e3, hn, Option.getD_some, Option.bind_eq_bind, Option.bind_eq_some_iff, Option.pure_def] at hwin ⊢
    obtain ⟨a1, h1, a2, h2, a3, -, a4, h4, -⟩ := hwin
    have h3 : (CNum.cint (fin ((7 : ℚ) : ℝ)) : Option ℤ) = some 7 := by
      show cintR _ = _
      unfold cintR truncR
      norm_num
    rw [h1, h2, h3, h4]
    rfl
  have same : SameExcept [2, 6, 0, 1, 9, 4, 5]
      ((Hourly.simulate false ⟨simOf (Param.stored stod mendedStore (newObject junk)) noAverages,
        (Spec.EndToEnd.yearOf 41.98 (-87.92) (-6) fun c _ => someValues c).map fin, Hourly.Pushed.empty⟩).map Prod.snd)
      ((Hourly.simulate false ⟨simOf (Param.stored stod file' (newObject junk)) noAverages,
        (Spec.EndToEnd.yearOf 41.98 (-87.92) (-6) fun c _ => someValues c).map fin, Hourly.Pushed.empty⟩).map Prod.snd) := by
    rw [edit_Occupancy he] at hw ⊢
    exact C56_hourly_occupancy _ _ _ _ _ (hw.trans hs.symm)
  obtain ⟨out', h', -⟩ := Editing.hourly_tables (mended_inputs false false true none) (hb false false true none) false ⟨rfl, rfl, rfl, rfl⟩
    ⟨rfl, rfl, rfl, rfl⟩ someYear_complete someYear_suitable.zone someYear_complete someYear_suitable.zone junk junk rfl rfl same h
  exact ⟨out, out', h, h', (C75_hourly_kinds (names := occupancyNames) (columns := [2, 6, 0, 1, 9, 4, 5]) (by simp [hourlyKinds])
    (mended_inputs false false true none) (hb false false true none) he false ⟨rfl, rfl, rfl, rfl⟩ ⟨rfl, rfl, rfl, rfl⟩
    someYear_complete someYear_suitable.zone junk junk h h').2⟩

end ISO.Props
