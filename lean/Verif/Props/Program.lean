import Verif.Props.CommandLine
import Verif.Props.Parameters
import Verif.Lemmas.Complete
import Verif.Props.MonthlySystems
import Verif.Props.Properties

/-! # C51: what the command line program prints -/

namespace ISO.Props
open ISO ISO.Spec ISO.User ISO.CommandLine ISO.Lemmas

/-- C51: if the files are found, the program prints, in this order and nothing else, the comparison, the monthly table, the
table of the hourly simulation by month and the one by hour, each exactly when it is asked for (the monthly one also when
nothing is).  Read line by line and cell by cell, a table has the names of the end uses, then one line for each month or hour,
numbered from one, with the thirteen values of the simulation in the order of the names.  A comparison has, for every end use,
the two values of each month, numbered from zero, and their difference.  `m`, `r` and `h` are the results of the simulations.
Values of the monthly table have ten digits, others six, but ten if the monthly table comes before them. -/
theorem C51_program (lib : Library Dbl) (hl : Prints lib) (print : Printer Dbl) (hp : Plain print) (fs : FileSystem) (junk : Params Dbl)
    (o : Options) (u : UserModel Dbl) (hu : loadFor lib fs junk o = .ok u) (hf : Found fs o u) (m r h : List (Fin 13 → Dbl))
    (hm : (o.monthly = true ∨ Nothing o ∨ o.compare = some "md".toList ∨ o.compare = some "csv".toList) → monthlyResults u = .ok m)
    (hr : (o.hourlyByMonth = true ∨ o.compare = some "md".toList ∨ o.compare = some "csv".toList) → hourlyResults u true = .ok r)
    (hh : o.hourlyByHour = true → hourlyResults u false = .ok h) :
    ∃ compared monthly byMonth byHour : Str,
      main lib print fs junk o = .returns (actions o) (compared ++ monthly ++ byMonth ++ byHour) ∧
      (o.compare = some "md".toList → readTable '|' compared = (List.finRange 13).flatMap fun k : Fin 13 =>
        compareTable (print 6) true (useNames.getD k []) (m.map (· k)) (r.map (· k))) ∧
      (o.compare = some "csv".toList → readTable ',' compared = (List.finRange 13).flatMap fun k : Fin 13 =>
        compareTable (print 6) false (useNames.getD k []) (m.map (· k)) (r.map (· k))) ∧
      (∀ v, o.compare = some v → v ≠ "md".toList → v ≠ "csv".toList →
        compared = "No output type given for compare. Please use 'md' or 'csv'.\n".toList) ∧
      (o.compare = none → compared = []) ∧
      (o.monthly = true ∨ Nothing o → readTable ',' monthly = resultTable (print 10) "Monthly Results:".toList "Month".toList m) ∧
      (¬ (o.monthly = true ∨ Nothing o) → monthly = []) ∧
      (o.hourlyByMonth = true → readTable ',' byMonth =
        resultTable (print (if o.monthly then 10 else 6)) "Hourly results by month:".toList "month".toList r) ∧
      (¬ o.hourlyByMonth = true → byMonth = []) ∧
      (o.hourlyByHour = true → readTable ',' byHour =
        resultTable (print (if o.monthly then 10 else 6)) "Hourly results by hour:".toList "hour".toList h) ∧
      (¬ o.hourlyByHour = true → byHour = []) := by
  have hm' : (o.compare = some "md".toList ∨ o.compare = some "csv".toList) → monthlyResults u = .ok m := fun h => hm (Or.inr (Or.inr h))
  have hr' : (o.compare = some "md".toList ∨ o.compare = some "csv".toList) → hourlyResults u true = .ok r := fun h => hr (Or.inr h)
  have hload : loadText fs o u = [] := by
    obtain ⟨f1, f2, f3⟩ := hf
    have hd : u.dataFile = o.ism := loadFor_dataFile lib hl fs junk o u hu
    have hw : (weatherFile fs u).2 = true := by rw [weatherFile_found, hd]; exact f3
    unfold loadText
    simp only [f1, hw, if_true, Bool.not_true, Bool.false_eq_true, if_false]
    cases hd : o.defaults with
    | none => rfl
    | some d => simp only [f2 d hd, Bool.not_true, Bool.false_eq_true, if_false]
  have hc := compare_part (print := print) (u := u) hp o hm' hr'
  obtain ⟨t1, e1, c1, c2, c3, c4⟩ := hc
  obtain ⟨t2, e2, m1, m2⟩ := runAll_if (print := print) (u := u) (o := ⟨t1, 6⟩) (a := .runMonthly) (q := 10)
    (c := o.monthly = true ∨ (o.monthly = false ∧ o.hourlyByMonth = false ∧ o.hourlyByHour = false ∧ o.compare = none))
    (P := fun t => readTable ',' t = resultTable (print 10) "Monthly Results:".toList "Month".toList m)
    (fun hc => act_monthly hp (hm (hc.elim Or.inl fun h => Or.inr (Or.inl h))) _)
  simp only at e2
  -- the precision before the tables of the hourly simulation
  obtain ⟨q, hq, hq'⟩ : ∃ q, q = (if o.monthly = true ∨ (o.monthly = false ∧ o.hourlyByMonth = false ∧ o.hourlyByHour = false ∧
      o.compare = none) then 10 else 6) ∧ (o.hourlyByMonth = true ∨ o.hourlyByHour = true → q = if o.monthly then 10 else 6) := by
    refine ⟨_, rfl, ?_⟩
    rintro (h | h) <;> cases o.monthly <;> simp [h]
  rw [← hq] at e2
  obtain ⟨t3, e3, r1, r2⟩ := runAll_if (print := print) (u := u) (o := ⟨t1 ++ t2, q⟩) (a := .runHourly true) (q := q)
    (c := o.hourlyByMonth = true)
    (P := fun t => readTable ',' t = resultTable (print q) "Hourly results by month:".toList "month".toList r)
    (fun hc => by simpa only [if_true] using act_hourly hp (hr (Or.inl hc)) _)
  simp only [ite_self] at e3
  obtain ⟨t4, e4, h1, h2⟩ := runAll_if (print := print) (u := u) (o := ⟨t1 ++ t2 ++ t3, q⟩) (a := .runHourly false) (q := q)
    (c := o.hourlyByHour = true)
    (P := fun t => readTable ',' t = resultTable (print q) "Hourly results by hour:".toList "hour".toList h)
    (fun hc => by simpa only [Bool.false_eq_true, if_false] using act_hourly hp (hh hc) _)
  simp only [ite_self] at e4
  refine ⟨t1, t2, t3, t4, ?_, c1, c2, c3, c4, m1, m2, fun hc => ?_, r2, fun hc => ?_, h2⟩
  · have e : main lib print fs junk o = perform print u (actions o) [] (Out.start.put (loadText fs o u)) := by
      unfold main
      rw [hu]
    have es : Out.start.put (loadText fs o u) = Out.start := by rw [hload]; rfl
    rw [e, es]
    refine runAll_perform print u (actions o) [] _ ⟨t1 ++ t2 ++ t3 ++ t4, q⟩ ?_
    rw [actions_parts, runAll_append _ _ _ _ _ _ e1, runAll_append _ _ _ _ _ _ e2, runAll_append _ _ _ _ _ _ e3, e4]
  · rw [← hq' (Or.inl hc)]; exact r1 hc
  · rw [← hq' (Or.inr hc)]; exact h1 hc

/-! ### C52 -/

/-- the building file, or the building file and the defaults, as parameters -/
def parsed (fs : FileSystem) (o : Options) : Except Properties.Error Properties.Store :=
  match o.defaults with
  | none => Properties.ofFile (fs.read o.ism)
  | some d => Properties.ofFiles (fs.read o.ism) (fs.read d)

theorem loadFor_found (lib : Library Dbl) (fs : FileSystem) (junk : Params Dbl) (o : Options) (hb : fs.exists_ o.ism = true)
    (hd : ∀ d, o.defaults = some d → fs.exists_ d = true) :
    loadFor lib fs junk o =
      match loadBuilding lib (parsed fs o) { newUserModel junk with dataFile := o.ism, valid := some true } with
      | .ok u => loadWeather lib fs u
      | r => r := by
  unfold loadFor parsed
  cases hdef : o.defaults with
  | none =>
    simp only [load, hb, Bool.not_true, Bool.false_eq_true, if_false]
    cases loadBuilding lib _ _ <;> rfl
  | some d =>
    simp only [loadWithDefaults, hb, hd d hdef, Bool.not_true, Bool.false_eq_true, if_false]
    cases loadBuilding lib _ _ <;> rfl

/-- C52: the uninitialised members of the objects of the program never have an effect: whatever they hold, the program prints
the same, or ends with the same exception. -/
theorem C52_deterministic (lib : Library Dbl) (print : Printer Dbl) (fs : FileSystem) (o : Options) (junk junk' : Params Dbl) :
    main lib print fs junk o = main lib print fs junk' o := by
  -- a file that is not there: no simulation
  have missing : ∀ {u u' : UserModel Dbl}, loadFor lib fs junk o = .ok u → loadFor lib fs junk' o = .ok u' →
      u.valid = some false → u'.valid = some false → loadText fs o u = loadText fs o u' →
      main lib print fs junk o = main lib print fs junk' o := by
    intro u u' h h' hv hv' ht
    unfold main
    rw [h, h']
    simp only
    rw [ht]
    exact perform_invalid print (by rw [hv]; simp) (by rw [hv']; simp) _ _ _
  by_cases hb : fs.exists_ o.ism = true
  · by_cases hd : ∀ d, o.defaults = some d → fs.exists_ d = true
    · unfold main
      rw [loadFor_found lib fs junk o hb hd, loadFor_found lib fs junk' o hb hd]
      cases hp : parsed fs o with
      | error e => rfl
      | ok file =>
        unfold loadBuilding
        simp only
        rcases load_cases lib.stod file with ha | ⟨r, hr⟩
        · have e := stored_new ha junk junk'
          have h1 := C06_success lib.stod file (newObject junk) ha
          have h2 := C06_success lib.stod file (newObject junk') ha
          rw [show (newUserModel junk).params = newObject junk from rfl, show (newUserModel junk').params = newObject junk' from rfl, h1, h2]
          simp only [e]
          rfl
        · obtain ⟨u1, h1, hn⟩ := hr (newObject junk)
          obtain ⟨u2, h2, -⟩ := hr (newObject junk')
          rw [show (newUserModel junk).params = newObject junk from rfl, show (newUserModel junk').params = newObject junk' from rfl, h1, h2]
          revert hn
          cases Param.judge lib.stod file r <;> intro hn <;> first | exact absurd rfl hn | rfl
    · push Not at hd
      obtain ⟨d, hd, hn⟩ := hd
      have e : ∀ junk : Params Dbl, loadFor lib fs junk o = .ok { newUserModel junk with dataFile := o.ism, valid := some false } := by
        intro junk
        unfold loadFor
        rw [hd]
        simp [loadWithDefaults, hb, hn]
      refine missing (e junk) (e junk') rfl rfl ?_
      unfold loadText
      simp [hd, hb, hn]
  · have e : ∀ junk : Params Dbl, loadFor lib fs junk o = .ok { newUserModel junk with dataFile := o.ism, valid := some false } := by
      intro junk
      unfold loadFor
      cases hd : o.defaults with
      | none => simp [load, hb]
      | some d => simp [loadWithDefaults, hb]
    refine missing (e junk) (e junk') rfl rfl ?_
    unfold loadText
    simp [hb]

/-- C52: from the files to the numbers: if the files are there, every parameter is acceptable and the weather file has a year
`w` of weather, then the monthly results printed are those of the monthly simulation with the parameters of the file and
the averages of `w`, and the hourly results those of the hourly simulation with the same parameters and `w`. -/
theorem C52_results (lib : Library Dbl) (hl : Prints lib) (fs : FileSystem) (junk : Params Dbl) (o : Options)
    (hb : fs.exists_ o.ism = true) (hd : ∀ d, o.defaults = some d → fs.exists_ d = true) (file : Properties.Store)
    (hfile : parsed fs o = .ok file) (ha : ∀ r ∈ Param.table, Param.judge lib.stod file r = .accepted) (path weather : Str)
    (hp : Param.given file "weatherfilepath" = some path)
    (hW : if fs.exists_ path then weather = path else weather = resolveFilename o.ism path ∧ fs.exists_ weather = true)
    (w : Epw.Weather Dbl) (hw : Epw.toWeather (Epw.loadFile lib.atof (fs.read weather) Epw.construct) = some w) :
    ∃ u, loadFor lib fs junk o = .ok u ∧ Found fs o u ∧
      (∀ rs, monthlyResults u = .ok rs ↔
        Monthly.simulate (simOf (Param.stored lib.stod file (newObject junk)) (siteAverages lib w)) = some rs) ∧
      ∀ byMonth rs averages, hourlyResults u byMonth = .ok rs ↔ ∃ after,
        Hourly.simulate byMonth ⟨simOf (Param.stored lib.stod file (newObject junk)) averages, w, Hourly.Pushed.empty⟩ = some (after, rs) := by
  obtain ⟨v, hv⟩ : ∃ v : UserModel Dbl, v = { newUserModel junk with
      dataFile := o.ism, valid := some true, params := Param.stored lib.stod file (newObject junk) } := ⟨_, rfl⟩
  have hpath : v.params.weatherFilePath = path := by
    rw [hv]
    show (Param.given file "weatherfilepath").getD _ = _
    rw [hp]; rfl
  have hwf : weatherFile fs v = (weather, true) := by
    unfold weatherFile
    rw [hpath, show v.dataFile = o.ism by rw [hv]]
    split at hW
    · rename_i he; rw [if_pos he, hW]
    · rename_i he; rw [if_neg he, ← hW.1]; simp only [hW.2]
  have hload : loadFor lib fs junk o = loadWeather lib fs v := by
    rw [loadFor_found lib fs junk o hb hd, hfile]
    unfold loadBuilding
    simp only
    rw [show (newUserModel junk).params = newObject junk from rfl, C06_success lib.stod file (newObject junk) ha, hv]
  have hv' : v.edata = Epw.construct ∧ v.heap = [WeatherText.Entries.unset] ∧ v.weather = 0 ∧ v.valid = some true := by rw [hv]; exact ⟨rfl, rfl, rfl, rfl⟩
  obtain ⟨h1, h2, h3, h4⟩ := hv'
  have hok : ∃ u, loadWeather lib fs v = .ok u := by
    unfold loadWeather
    rw [hwf]
    simp only [if_true]
    rw [fill_some lib hl _ w (by rw [h1]; exact hw)]
    exact ⟨_, rfl⟩
  obtain ⟨u, hu⟩ := hok
  obtain ⟨w', hw', hu'⟩ := loadWeather_ok lib hl fs v u hu
  rw [hwf, h1] at hw'
  simp only at hw'
  obtain rfl : w = w' := Option.some.inj (hw.symm.trans hw')
  rw [hwf] at hu'
  simp only [if_true] at hu'
  have hpar : u.params = Param.stored lib.stod file (newObject junk) := by rw [hu', hv]
  have hvalid : u.valid = some true := by rw [hu']; exact h4
  have hloc : u.location = some 0 := by rw [hu', ← h3]
  have hheap : u.heap[0]? = some (averages lib w) := by
    rw [hu']
    simp only [h2, h3]
    rfl
  have hed : Epw.toWeather u.edata = some w := by rw [hu', h1]; exact hw
  have hl' := hload.trans hu
  refine ⟨u, hl', (valid_found lib hl fs junk o u hl').mp hvalid, fun rs => ?_, fun byMonth rs a => ?_⟩
  · unfold monthlyResults toMonthlyModel
    rw [hvalid]
    simp only
    rw [monthlyWeather, hloc, Option.bind_some, hheap, Option.bind_some, complete_averages, Option.bind_some, hpar]
    exact ofOption_iff
  · unfold hourlyResults toHourlyModel
    rw [hvalid]
    simp only
    rw [hourlyWeather, hed, Option.bind_some, hpar, ofOption_iff]
    rw [hourly_averages byMonth _ noAverages a w, Option.map_eq_some_iff]
    constructor
    · rintro ⟨⟨after, rs'⟩, h, rfl⟩; exact ⟨after, h⟩
    · rintro ⟨after, h⟩; exact ⟨⟨after, rs⟩, h, rfl⟩

/-- C52: the program without options, from the files to the printed text: title, names, and twelve lines with the results of the
monthly simulation. -/
theorem C52_default (lib : Library Dbl) (hl : Prints lib) (print : Printer Dbl) (hpl : Plain print) (fs : FileSystem) (junk : Params Dbl)
    (o : Options) (ho : Nothing o) (hb : fs.exists_ o.ism = true) (hd : ∀ d, o.defaults = some d → fs.exists_ d = true)
    (file : Properties.Store) (hfile : parsed fs o = .ok file) (ha : ∀ r ∈ Param.table, Param.judge lib.stod file r = .accepted)
    (path weather : Str) (hp : Param.given file "weatherfilepath" = some path)
    (hW : if fs.exists_ path then weather = path else weather = resolveFilename o.ism path ∧ fs.exists_ weather = true)
    (w : Epw.Weather Dbl) (hw : Epw.toWeather (Epw.loadFile lib.atof (fs.read weather) Epw.construct) = some w)
    (rs : List (Fin 13 → Dbl))
    (hrs : Monthly.simulate (simOf (Param.stored lib.stod file (newObject junk)) (siteAverages lib w)) = some rs) :
    ∃ text, main lib print fs junk o = .returns [.runMonthly] text ∧
      readTable ',' text = resultTable (print 10) "Monthly Results:".toList "Month".toList rs := by
  obtain ⟨u, hu, hf, hm, -⟩ := C52_results lib hl fs junk o hb hd file hfile ha path weather hp hW w hw
  obtain ⟨o1, o2, o3, o4⟩ := ho
  obtain ⟨t1, t2, t3, t4, h1, -, -, -, h2, h3, -, -, h4, -, h5⟩ := C51_program lib hl print hpl fs junk o u hu hf rs [] []
    (fun _ => (hm rs).mpr hrs)
    (by rw [o2, o4]; rintro (h | h | h) <;> cases h)
    (by rw [o3]; intro h; cases h)
  rw [h2 o4, h4 (by rw [o2]; decide), h5 (by rw [o3]; decide), List.nil_append, List.append_nil, List.append_nil] at h1
  refine ⟨t2, ?_, h3 (Or.inr ⟨o1, o2, o3, o4⟩)⟩
  rw [h1]
  congr 1
  obtain ⟨ism, d, m, hm, hh, c⟩ := o
  simp only at o1 o2 o3 o4
  subst o1 o2 o3 o4
  rfl

/-- C52: with an acceptable file of finite numbers, and finite averages `a`, all parameters of the simulation are finite, and
the monthly simulation has results unless a month has no sunlight or a window has a shading device that does not exist. -/
theorem C52_defined (lib : Library Dbl) (hs : ∀ t v, lib.stod t = .ok v → ∃ r, v = Dbl.fin r) (junk : Params Dbl) (file : Properties.Store)
    (ha : ∀ r ∈ Param.table, Param.judge lib.stod file r = .accepted) (a : WeatherData ℝ) :
    ∃ x : Sim ℝ, simOf (Param.stored lib.stod file (newObject junk)) (a.map Dbl.fin) = x.map Dbl.fin ∧ x.weather = a ∧
      (0 < windowHours x.pop → (Monthly.simulate (x.map Dbl.fin) = none ↔ (∃ m, ∀ j, a.mhEgh m j = 0) ∨
        ∃ i, ¬(1 ≤ x.bldg.windowShadingDevice i ∧ x.bldg.windowShadingDevice i < 4))) := by
  obtain ⟨x, hx, hxa⟩ := stored_real hs ha junk a
  refine ⟨x, hx, hxa, fun hw => ?_⟩
  have h := C41_defined x hw
  rw [hxa] at h
  have hbem : -2147483649 < x.building.buildingEnergyManagement ∧ x.building.buildingEnergyManagement < 2147483648 := by
    have e : (Param.code file "bemtype" [("none", 1.0), ("simple", 2.0), ("advanced", 3.0)]).getD junk.building.buildingEnergyManagement =
        Dbl.fin x.building.buildingEnergyManagement := congrArg (fun s : Sim Dbl => s.building.buildingEnergyManagement) hx
    have hj := ha ⟨"bemtype", .keyword ["none", "simple", "advanced"], true⟩ (by decide +kernel)
    rw [code_given (stod := lib.stod) (allowed := [("none", 1.0), ("simple", 2.0), ("advanced", 3.0)]) hj _ (Dbl.fin 1)] at e
    cases hc : Param.code file "bemtype" [("none", (1.0 : Dbl)), ("simple", 2.0), ("advanced", 3.0)] with
    | none =>
      rw [hc] at e
      rw [← Dbl.fin.inj e]
      norm_num
    | some v =>
      rw [hc, Option.getD_some] at e
      subst e
      unfold Param.code at hc
      rw [Option.bind_eq_some_iff] at hc
      obtain ⟨t, -, hc⟩ := hc
      rw [Option.map_eq_some_iff] at hc
      obtain ⟨p, hp, hc⟩ := hc
      have hm := List.mem_of_find?_eq_some hp
      simp only [List.mem_cons, List.not_mem_nil, or_false] at hm
      rcases hm with rfl | rfl | rfl <;> rw [Dbl.fin_lit] at hc <;> rw [← Dbl.fin.inj hc] <;> norm_num
  simpa [hbem.1, hbem.2] using h

/-! ### hypotheses met -/

/-- a building file -/
def exampleFile : Str :=
  fileOf ((Param.table.filter (·.required)).map fun r =>
    (r.name.toList, match r.kind with
      | .facades => "1,1,1,1,1,1,1,1,1".toList
      | .keyword allowed => (allowed.getD 1 "").toList
      | .text => "chicago.epw".toList
      | _ => if r.name = "occupancyhourlast" then "17".toList else "1".toList))

/-- a library that knows two numbers -/
noncomputable def smallLibrary : Library Dbl :=
  ⟨fun t => .ok (if t = "17".toList then Dbl.fin 17 else Dbl.fin 1), fun _ => Dbl.fin 1, signText⟩

/-- a disk with that file and a weather file in the same directory -/
def exampleDisk : FileSystem where
  exists_ p := p = "models/office.ism".toList ∨ p = "models/chicago.epw".toList
  read p := if p = "models/office.ism".toList then some exampleFile else some "".toList

theorem signText_plain : Plain (fun _ => signText) := by
  intro _ v
  cases v with
  | fin x => unfold signText; simp only; split_ifs <;> decide
  | pinf => show ∀ c ∈ signText .pinf, _; decide
  | ninf => show ∀ c ∈ signText .ninf, _; decide
  | nan => show ∀ c ∈ signText .nan, _; decide

/-- the parameters of the file -/
def officeStore : Properties.Store :=
  match Properties.ofFile (some exampleFile) with
  | .ok s => s
  | .error _ => []

theorem officeStore_eq : Properties.ofFile (some exampleFile) = .ok officeStore := by decide +kernel

theorem officeStore_accepted : ∀ r ∈ Param.table, Param.judge smallLibrary.stod officeStore r = .accepted := by
  have h : ∀ r ∈ Param.table, Param.judge (fun t => (.ok (t = "17".toList) : Except Properties.ConvError Bool)) officeStore r = .accepted := by
    decide +kernel
  intro r hr
  rw [← h r hr]
  exact judge_map (fun t => (.ok (t = "17".toList) : Except Properties.ConvError Bool)) (fun b => if b then Dbl.fin 17 else Dbl.fin 1) officeStore
    smallLibrary.stod (fun t => by simp only [smallLibrary, Except.map, decide_eq_true_eq]) r

theorem stored_fields (lib : Library Dbl) (junk : Params Dbl) (file : Properties.Store) (w : WeatherData Dbl) (x : Sim ℝ)
    (hx : simOf (Param.stored lib.stod file (newObject junk)) w = x.map Dbl.fin) :
    (Param.number lib.stod file "occupancyhourlast").getD junk.pop.hoursEnd = Dbl.fin x.pop.hoursEnd ∧
    (Param.number lib.stod file "occupancyhourfirst").getD junk.pop.hoursStart = Dbl.fin x.pop.hoursStart ∧
    ∀ i, (Param.facades lib.stod file "windowSDF").getD (fun _ => 0.0) i = Dbl.fin (x.bldg.windowShadingDevice i) :=
  ⟨congrArg (fun s : Sim Dbl => s.pop.hoursEnd) hx, congrArg (fun s : Sim Dbl => s.pop.hoursStart) hx,
    fun i => congrArg (fun s : Sim Dbl => s.bldg.windowShadingDevice i) hx⟩

theorem office_shading (i : Fin 9) : (Param.facades smallLibrary.stod officeStore "windowSDF").getD (fun _ => 0.0) i = Dbl.fin 1 := by
  have hg : Properties.getProperty "windowSDF".toList officeStore = some "1,1,1,1,1,1,1,1,1".toList := by decide +kernel
  generalize officeStore = file at hg
  have ht : Properties.tokens "1,1,1,1,1,1,1,1,1".toList = .ok (List.replicate 9 "1".toList) := by decide +kernel
  have h1 : smallLibrary.stod "1".toList = .ok (Dbl.fin 1) := congrArg Except.ok (if_neg (by decide))
  have hv : Properties.getPropertyAsDoubleVector smallLibrary.stod "windowSDF".toList file = .ok (some (List.replicate 9 (Dbl.fin 1))) := by
    unfold Properties.getPropertyAsDoubleVector
    rw [hg]
    simp only [ht, List.replicate, Properties.stodAll, h1]
  unfold Param.facades
  rw [hv]
  fin_cases i <;> rfl

/-- the program prints the results of that building: the hypotheses of `C52_default` and `C52_defined` are met -/
example (junk : Params Dbl) : ∃ rs text,
    main smallLibrary (fun _ => signText) exampleDisk junk ⟨"models/office.ism".toList, none, false, false, false, none⟩ =
      .returns [.runMonthly] text ∧
    readTable ',' text = resultTable signText "Monthly Results:".toList "Month".toList rs := by
  have hl : Prints smallLibrary := textLibrary_prints.1
  have hw : ∃ w, Epw.toWeather (Epw.loadFile smallLibrary.atof (some (Spec.Epw.file [Spec.Epw.line [[]]])) Epw.construct) = some w := by
    obtain ⟨-, -, h1, h2, h3⟩ := C14_header smallLibrary.atof [[]] (by simp) (by simp) [] (by decide) Epw.construct
    have h4 := C16_length smallLibrary.atof (some (Spec.Epw.file [Spec.Epw.line [[]]])) Epw.construct
    have h5 : CNum.cint (smallLibrary.atof (Spec.Epw.field [[]] 9)) = some 1 := by
      show cintR 1 = some 1
      simp [cintR, truncR]
    rw [h5] at h3
    generalize Epw.loadFile smallLibrary.atof (some (Spec.Epw.file [Spec.Epw.line [[]]])) Epw.construct = e' at h1 h2 h3 h4
    unfold Epw.toWeather
    rw [h1, h2, h3]
    simp only
    rw [dif_pos h4]
    exact ⟨_, rfl⟩
  obtain ⟨w, hw⟩ := hw
  obtain ⟨x, hx, -, hd⟩ := C52_defined smallLibrary (fun t v h => by
    cases h
    split
    · exact ⟨_, rfl⟩
    · exact ⟨_, rfl⟩) junk officeStore officeStore_accepted ⟨fun _ _ => 1, fun _ _ => 1, fun _ _ => 1, fun _ => 1, fun _ => 1, fun _ => 1⟩
  obtain ⟨e1, e2, e3⟩ := stored_fields smallLibrary junk officeStore _ x hx
  have he : x.pop.hoursEnd = 17 := by
    rw [Param.number, (by decide +kernel : Param.given officeStore "occupancyhourlast" = some "17".toList)] at e1
    refine (Dbl.fin.inj (Eq.trans ?_ e1)).symm
    rw [Option.bind_some, show smallLibrary.stod "17".toList = .ok (Dbl.fin 17) from congrArg Except.ok (if_pos rfl)]
    rfl
  have hst : x.pop.hoursStart = 1 := by
    rw [Param.number, (by decide +kernel : Param.given officeStore "occupancyhourfirst" = some "1".toList)] at e2
    refine (Dbl.fin.inj (Eq.trans ?_ e2)).symm
    rw [Option.bind_some, show smallLibrary.stod "1".toList = .ok (Dbl.fin 1) from congrArg Except.ok (if_neg (by decide))]
    rfl
  have hsd : ∀ i, x.bldg.windowShadingDevice i = 1 := by
    intro i
    have e := e3 i
    rw [office_shading] at e
    exact (Dbl.fin.inj e).symm
  have hwin : 0 < windowHours x.pop := by
    unfold windowHours
    rw [he, hst]
    norm_num
  obtain ⟨rs, hrs⟩ : ∃ rs, Monthly.simulate (x.map Dbl.fin) = some rs := by
    cases h : Monthly.simulate (x.map Dbl.fin) with
    | some rs => exact ⟨rs, rfl⟩
    | none =>
      rw [hd hwin] at h
      rcases h with ⟨m, h⟩ | ⟨i, h⟩
      · exact absurd (h 0) (by norm_num)
      · rw [hsd] at h; exact absurd ⟨le_refl _, by norm_num⟩ h
  rw [← hx] at hrs
  obtain ⟨text, h1, h2⟩ := C52_default smallLibrary hl (fun _ => signText) signText_plain exampleDisk junk
    ⟨"models/office.ism".toList, none, false, false, false, none⟩ ⟨rfl, rfl, rfl, rfl⟩ (by decide) (by simp) officeStore
    officeStore_eq officeStore_accepted "chicago.epw".toList "models/chicago.epw".toList (by decide +kernel) (by decide +kernel) w hw rs hrs
  exact ⟨rs, text, h1, h2⟩

end ISO.Props
