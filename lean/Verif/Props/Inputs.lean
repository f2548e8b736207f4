import Verif.Spec.Inputs
import Verif.Props.Program
import Verif.Lemmas.PropertiesRead
import Verif.Lemmas.Inputs

/-! # C62: what in the input files matters -/

namespace ISO.Props
open ISO ISO.Properties ISO.Spec ISO.Spec.Inputs ISO.User ISO.CommandLine ISO.Epw ISO.Lemmas

variable {α : Type} [CNum α] [OfInt α]

/-! ### the building file -/

omit [CNum α] [OfInt α] in
theorem runCalls_congr (stod : Str → Except ConvError α) {a b : Properties.Store} (calls : List (Call α))
    (h : ∀ c ∈ calls, getProperty c.name a = getProperty c.name b) (u : Params α) : runCalls stod a calls u = runCalls stod b calls u := by
  induction calls generalizing u with
  | nil => rfl
  | cons c cs ih =>
    have hc := h c (by simp)
    have e : initializeParameter stod a c u = initializeParameter stod b c u := by
      unfold initializeParameter Properties.getPropertyAsDouble getPropertyAsInt getPropertyAsBool getPropertyAsDoubleVector
      rw [hc]
    unfold runCalls
    rw [e]
    cases initializeParameter stod b c u with
    | ok u' => exact ih (fun c hc => h c (by simp [hc])) u'
    | throw e s => rfl
    | undefined => rfl

omit [OfInt α] in
theorem call_names : ((initializeParametersCalls ++ initializeStructureCalls : List (Call α)).map Call.name) = Param.table.map (·.name.toList) := by
  rfl

omit [OfInt α] in
theorem loadParameters_congr (stod : Str → Except ConvError α) {a b : Properties.Store}
    (h : ∀ row ∈ Param.table, getProperty row.name.toList a = getProperty row.name.toList b) (u : Params α) :
    loadParameters stod a u = loadParameters stod b u := by
  refine runCalls_congr stod _ (fun c hc => ?_) u
  have : c.name ∈ Param.table.map (·.name.toList) := by
    rw [← call_names (α := α)]
    exact List.mem_map_of_mem hc
  obtain ⟨row, hr, e⟩ := List.mem_map.1 this
  rw [← e]
  exact h row hr

theorem loadFor_parsed (lib : Library α) (fs : FileSystem) (junk : Params α) (o : Options) (hb : fs.exists_ o.ism = true)
    (hd : ∀ d, o.defaults = some d → fs.exists_ d = true) :
    loadFor lib fs junk o =
      match loadBuilding lib (parsed fs o) { newUserModel junk with dataFile := o.ism, valid := some true } with
      | .ok u => loadWeather lib fs u
      | r => r := by
  unfold loadFor parsed
  cases hdef : o.defaults with
  | none =>
    simp only [load, hb, Bool.not_true, Bool.false_eq_true, if_false]
    cases loadBuilding lib _ _ <;> rfl
  | some d =>
    simp only [loadWithDefaults, hb, hd d hdef, Bool.not_true, Bool.false_eq_true, if_false]
    cases loadBuilding lib _ _ <;> rfl

theorem loadWeather_keeps {lib : Library α} {fs : FileSystem} {v u : UserModel α} (h : loadWeather lib fs v = .ok u) :
    u.params = v.params ∧ u.dataFile = v.dataFile := by
  obtain ⟨⟨f, found⟩, hw⟩ : ∃ p, weatherFile fs v = p := ⟨_, rfl⟩
  rw [loadWeather_file lib fs v f found hw] at h
  generalize (if found = true then v.valid else some false) = valid at h
  generalize loadFile lib.atof (fs.read f) v.edata = d at h
  generalize hy : fillWeather lib _ = y at h
  cases y with
  | none => cases h
  | some y =>
    obtain ⟨heap, rfl⟩ := fillWeather_some hy
    cases h
    exact ⟨rfl, rfl⟩

omit [CNum α] [OfInt α] in
theorem loadText_found {fs : FileSystem} {o : Options} {u : UserModel α} (hb : fs.exists_ o.ism = true)
    (hd : ∀ d, o.defaults = some d → fs.exists_ d = true) :
    loadText fs o u = if (weatherFile fs u).2 then [] else "Weather File Not Found: ".toList ++ u.params.weatherFilePath ++ ['\n'] := by
  unfold loadText
  generalize "Weather File Not Found: ".toList ++ u.params.weatherFilePath ++ ['\n'] = t
  cases h : o.defaults with
  | none => rw [hb]; rfl
  | some d => rw [hb]; simp only [hd d h]; rfl

/-- what the texts give -/
theorem texts_parsed {fs : FileSystem} {o : Options} {texts : List Str} (h : Texts fs o texts) {ls : List Str} (hl : AllLines texts ls)
    (hm : ∀ l ∈ ls, ¬ Malformed l) :
    fs.exists_ o.ism = true ∧ (∀ d, o.defaults = some d → fs.exists_ d = true) ∧
    ∃ file, parsed fs o = .ok file ∧ ∀ key v, getProperty key file = some v ↔ FirstDef ls key v := by
  obtain ⟨hb, h⟩ := h
  unfold parsed
  cases hd : o.defaults with
  | none =>
    rw [hd] at h
    obtain ⟨b, hr, rfl⟩ := h
    obtain ⟨lss, hf, rfl⟩ := hl
    cases hf with
    | cons h1 h2 =>
      cases h2
      obtain ⟨m, hm'⟩ := (C03_loads_iff h1).2 (fun l hl => hm l (by simpa using hl))
      refine ⟨hb, by simp, m, by simp only; rw [hr]; exact hm', ?_⟩
      exact (constructed_spec (.file hm') ⟨[_], .cons h1 .nil, rfl⟩).2
  | some d =>
    rw [hd] at h
    obtain ⟨hd', b, t, hr, hr', rfl⟩ := h
    have hl' := hl
    obtain ⟨lss, hf, rfl⟩ := hl
    cases hf with
    | cons h1 h2 =>
      cases h2 with
      | cons h2 h3 =>
        cases h3
        rename_i la lb
        have e : ∃ m, Properties.ofFiles (some b) (some t) = .ok m := by
          obtain ⟨m, hm1⟩ := (C03_loads_iff h1).2 (fun l hl => hm l (by simp [hl]))
          unfold Properties.ofFile at hm1
          unfold Properties.ofFiles
          rw [hm1]
          show ∃ m', readFile (some t) m = .ok m'
          simp only [readFile, isLines_eq h2]
          exact readLines_ok_iff.2 (fun l hl => hm l (by simp [hl]))
        obtain ⟨m, hm'⟩ := e
        refine ⟨hb, fun d' e => by cases e; exact hd', m, by simp only; rw [hr, hr']; exact hm', ?_⟩
        exact (constructed_spec (.files hm') hl').2

/-- C62: the building file and the defaults file matter only through the first definition of each parameter.  Two calls of the program, with
and without a defaults file or on different disks, whose texts have no malformed lines, define every parameter alike and find the same
weather file, end alike and print the same.  For every arithmetic and all library functions. -/
theorem C62_definitions (lib : Library α) (print : Printer α) (junk : Params α) (fs fs' : FileSystem) (o o' : Options)
    (hopt : o' = { o with defaults := o'.defaults }) {texts texts' ls ls' : List Str} (ht : Texts fs o texts) (ht' : Texts fs' o' texts')
    (hl : AllLines texts ls) (hl' : AllLines texts' ls') (hm : ∀ l ∈ ls, ¬ Malformed l) (hm' : ∀ l ∈ ls', ¬ Malformed l)
    (hsame : SameDefinitions ls ls') (hw : SameWeather fs fs' o ls) :
    main lib print fs junk o = main lib print fs' junk o' := by
  obtain ⟨hb, hd, a, ha, hga⟩ := texts_parsed ht hl hm
  obtain ⟨hb', hd', b, hb2, hgb⟩ := texts_parsed ht' hl' hm'
  have hism : o'.ism = o.ism := by rw [hopt]
  have hact : actions o' = actions o := by rw [hopt]; rfl
  have hget : ∀ row ∈ Param.table, getProperty row.name.toList a = getProperty row.name.toList b := by
    intro row hr
    refine Option.ext fun v => ?_
    rw [hga, hgb]
    exact hsame row hr v
  have hlp := loadParameters_congr lib.stod hget
  unfold main
  rw [loadFor_parsed lib fs junk o hb hd, loadFor_parsed lib fs' junk o' hb' hd', ha, hb2, hism, hact]
  unfold loadBuilding
  simp only
  rw [← hlp]
  cases hp : loadParameters lib.stod a (newUserModel junk).params with
  | undefined => rfl
  | throw e s => rfl
  | ok p =>
    simp only
    have hacc := (C06_iff lib.stod a (newUserModel junk).params).1 ⟨p, hp⟩
    have hst := C06_success lib.stod a (newUserModel junk).params hacc
    rw [hp] at hst
    obtain ⟨path, hpath⟩ : ∃ path, Param.given a "weatherfilepath" = some path := by
      have := hacc ⟨"weatherfilepath", .text, true⟩ (by decide)
      unfold Param.judge at this
      cases hg : Param.given a "weatherfilepath" with
      | none => simp [hg] at this
      | some path => exact ⟨path, rfl⟩
    have hpp : p.weatherFilePath = path := by
      injection hst with hst
      rw [hst]
      show (Param.given a "weatherfilepath").getD _ = _
      rw [hpath]
      rfl
    have hfd : FirstDef ls "weatherfilepath".toList path := (hga _ _).1 hpath
    obtain ⟨⟨s1, s2⟩, s3, s4⟩ := hw path hfd
    generalize hv : ({ newUserModel junk with dataFile := o.ism, valid := some true, params := p } : UserModel α) = v
    have hvp : v.params.weatherFilePath = path := by rw [← hv]; exact hpp
    have hvd : v.dataFile = o.ism := by rw [← hv]
    have hwf : weatherFile fs v = weatherFile fs' v := by
      unfold weatherFile
      rw [hvp, hvd]
      simp only [s1, s3]
    have hread : fs.read (weatherFile fs v).1 = fs'.read (weatherFile fs v).1 := by
      unfold weatherFile
      rw [hvp, hvd]
      simp only
      split <;> assumption
    have hlw : loadWeather lib fs v = loadWeather lib fs' v := by
      unfold loadWeather
      rw [← hwf]
      simp only
      rw [hread]
    rw [hlw]
    cases hlu : loadWeather lib fs' v with
    | undefined => rfl
    | throw e s => rfl
    | ok u =>
      simp only
      have hup : u.params.weatherFilePath = path ∧ u.dataFile = o.ism := by
        obtain ⟨h1, h2⟩ := loadWeather_keeps hlu
        rw [h1, h2]
        exact ⟨hvp, hvd⟩
      have ht : loadText fs o u = loadText fs' o' u := by
        have hwf' : (weatherFile fs u).2 = (weatherFile fs' u).2 := by
          unfold weatherFile
          rw [hup.1, hup.2]
          simp only [s1, s3]
        rw [loadText_found hb hd, loadText_found hb' hd', hwf']
      rw [ht]

theorem firstDef_unique {ls : List Str} (hu : NoRepeats ls) (key v : Str) :
    FirstDef ls key v ↔ ∃ l ∈ ls, ∃ k, Defines l k v ∧ SameKey k key := by
  constructor
  · rintro ⟨pre, l, post, k, rfl, hd, hk, -⟩
    exact ⟨l, by simp, k, hd, hk⟩
  · rintro ⟨l, hl, k, hd, hk⟩
    obtain ⟨pre, post, rfl⟩ := List.append_of_mem hl
    refine ⟨pre, l, post, k, rfl, hd, hk, fun l' hl' k' v' hd' hk' => ?_⟩
    rw [NoRepeats, List.pairwise_append] at hu
    exact hu.2.2 l' hl' l (by simp) k' v' k v hd' hd (hk'.trans hk.symm)

theorem unique_perm {ls ls' : List Str} (h : ls.Perm ls') (hu : NoRepeats ls) : NoRepeats ls' :=
  List.Pairwise.perm hu h (fun h k v k' v' hd hd' hk => h k' v' k v hd' hd hk.symm)

/-- C62: the lines of a building file in which no parameter is given twice may be in any order. -/
theorem C62_order (lib : Library α) (print : Printer α) (junk : Params α) (fs fs' : FileSystem) (o : Options) (hd : o.defaults = none)
    (hb : fs.exists_ o.ism = true) (hb' : fs'.exists_ o.ism = true) {text text' : Str} (hr : fs.read o.ism = some text)
    (hr' : fs'.read o.ism = some text') {ls ls' : List Str} (hl : IsLines text ls) (hl' : IsLines text' ls') (hp : ls.Perm ls') (hu : NoRepeats ls)
    (hm : ∀ l ∈ ls, ¬ Malformed l) (hw : SameWeather fs fs' o ls) :
    main lib print fs junk o = main lib print fs' junk o := by
  refine C62_definitions lib print junk fs fs' o o rfl (texts := [text]) (texts' := [text']) (ls := ls) (ls' := ls') ⟨hb, by rw [hd]; exact ⟨_, hr, rfl⟩⟩
    ⟨hb', by rw [hd]; exact ⟨_, hr', rfl⟩⟩ ⟨[ls], .cons hl .nil, by simp⟩ ⟨[ls'], .cons hl' .nil, by simp⟩ hm
    (fun l h => hm l (hp.mem_iff.2 h)) (fun row _ v => ?_) hw
  rw [firstDef_unique hu, firstDef_unique (unique_perm hp hu)]
  simp only [hp.mem_iff]

open Classical in
theorem firstDef_filter (ls : List Str) {key v : Str} (hk : ∃ row ∈ Param.table, key = row.name.toList) :
    FirstDef ls key v ↔ FirstDef (ls.filter fun l => ¬ Irrelevant l) key v := by
  obtain ⟨row, hrow, rfl⟩ := hk
  induction ls with
  | nil => rfl
  | cons l ls ih =>
    by_cases hi : Irrelevant l
    · rw [List.filter_cons_of_neg (by simpa using hi), firstDef_cons_skip (fun k v hd => hi k v hd row hrow), ih]
    · rw [List.filter_cons_of_pos (by simpa using hi)]
      by_cases h : ∃ k v', Defines l k v' ∧ SameKey k row.name.toList
      · obtain ⟨k, v', hd, hk⟩ := h
        rw [firstDef_cons_here hd hk, firstDef_cons_here hd hk]
      · have h' : ∀ k' v', Defines l k' v' → ¬ SameKey k' row.name.toList := fun k' v' hd hk => h ⟨k', v', hd, hk⟩
        rw [firstDef_cons_skip h', firstDef_cons_skip h', ih]

open Classical in
/-- C62: comments, empty lines and parameters that the program does not know may be added and taken away anywhere. -/
theorem C62_irrelevant (lib : Library α) (print : Printer α) (junk : Params α) (fs fs' : FileSystem) (o : Options) (hd : o.defaults = none)
    (hb : fs.exists_ o.ism = true) (hb' : fs'.exists_ o.ism = true) {text text' : Str} (hr : fs.read o.ism = some text)
    (hr' : fs'.read o.ism = some text') {ls ls' : List Str} (hl : IsLines text ls) (hl' : IsLines text' ls')
    (he : (ls.filter fun l => ¬ Irrelevant l) = ls'.filter fun l => ¬ Irrelevant l)
    (hm : ∀ l ∈ ls, ¬ Malformed l) (hm' : ∀ l ∈ ls', ¬ Malformed l) (hw : SameWeather fs fs' o ls) :
    main lib print fs junk o = main lib print fs' junk o := by
  refine C62_definitions lib print junk fs fs' o o rfl (texts := [text]) (texts' := [text']) (ls := ls) (ls' := ls') ⟨hb, by rw [hd]; exact ⟨_, hr, rfl⟩⟩
    ⟨hb', by rw [hd]; exact ⟨_, hr', rfl⟩⟩ ⟨[ls], .cons hl .nil, by simp⟩ ⟨[ls'], .cons hl' .nil, by simp⟩ hm hm' (fun row hrow v => ?_) hw
  rw [firstDef_filter ls ⟨row, hrow, rfl⟩, he, ← firstDef_filter ls' ⟨row, hrow, rfl⟩]

/-- C62: a call with a defaults file is a call with its lines appended to the building file. -/
theorem C62_defaults (lib : Library α) (print : Printer α) (junk : Params α) (fs fs' : FileSystem) (o : Options) (d : Str)
    (hb : fs.exists_ o.ism = true) (hd : fs.exists_ d = true) (hb' : fs'.exists_ o.ism = true) {text default both : Str}
    (hr : fs.read o.ism = some text) (hrd : fs.read d = some default) (hr' : fs'.read o.ism = some both) {ls ds : List Str}
    (hl : IsLines text ls) (hld : IsLines default ds) (hl' : IsLines both (ls ++ ds)) (hm : ∀ l ∈ ls ++ ds, ¬ Malformed l)
    (hw : SameWeather fs fs' o (ls ++ ds)) :
    main lib print fs junk { o with defaults := some d } = main lib print fs' junk { o with defaults := none } := by
  refine C62_definitions lib print junk fs fs' { o with defaults := some d } { o with defaults := none } rfl (texts := [text, default])
    (texts' := [both]) (ls := ls ++ ds) (ls' := ls ++ ds) ⟨hb, hd, _, _, hr, hrd, rfl⟩ ⟨hb', _, hr', rfl⟩ ⟨[ls, ds], .cons hl (.cons hld .nil), by simp⟩
    ⟨[ls ++ ds], .cons hl' .nil, by simp⟩ hm hm (fun _ _ _ => Iff.rfl) hw

/-! ### examples -/

/-- the lines of the building file of C52 -/
def officeLines : List Str :=
  (Param.table.filter (·.required)).map fun r =>
    r.name.toList ++ " = ".toList ++ (match r.kind with
      | .facades => "1,1,1,1,1,1,1,1,1".toList
      | .keyword allowed => (allowed.getD 1 "").toList
      | .text => "chicago.epw".toList
      | _ => if r.name = "occupancyhourlast" then "17".toList else "1".toList)

/-- the text with these lines -/
def linesText (ls : List Str) : Str := (ls.map (· ++ ['\n'])).flatten

theorem linesText_lines {ls : List Str} (h : ∀ l ∈ ls, '\n' ∉ l) : IsLines (linesText ls) ls := ⟨h, .inl rfl⟩

/-- no two lines define the same key, as a computation -/
def uniqueKeys : List Str → Bool
  | [] => true
  | l :: ls => (match parseLine l with
      | .define k _ => ls.all fun l' => (match parseLine l' with | .define k' _ => k ≠ k' | _ => true)
      | _ => true) && uniqueKeys ls

theorem uniqueKeys_unique {ls : List Str} (h : uniqueKeys ls = true) : NoRepeats ls := by
  induction ls with
  | nil => exact List.Pairwise.nil
  | cons l ls ih =>
    simp only [uniqueKeys, Bool.and_eq_true] at h
    refine List.Pairwise.cons (fun l' hl' k v k' v' hd hd' hk => ?_) (ih h.2)
    have h1 := h.1
    rw [defines_parse hd] at h1
    simp only [List.all_eq_true] at h1
    have h2 := h1 l' hl'
    rw [defines_parse hd'] at h2
    simp only [decide_eq_true_eq, ne_eq] at h2
    exact h2 hk

/-- all definitions of the weather file give this path, as a computation -/
def onePath (path : Str) (ls : List Str) : Bool :=
  ls.all fun l => match parseLine l with | .define k v => k ≠ "weatherfilepath".toList || v = path | _ => true

theorem onePath_first {path : Str} {ls : List Str} (h : onePath path ls = true) {v : Str} (hv : FirstDef ls "weatherfilepath".toList v) : v = path := by
  obtain ⟨pre, l, post, k, rfl, hd, hk, -⟩ := hv
  unfold onePath at h
  rw [List.all_eq_true] at h
  have := h l (by simp)
  rw [defines_parse hd] at this
  have e : lower k = "weatherfilepath".toList := hk.trans (by decide)
  simpa [e] using this

/-- no malformed lines, as a computation -/
def wellFormed (ls : List Str) : Bool :=
  ls.all fun l => match parseLine l with | .define _ _ => true | .skip => true | _ => false

theorem wellFormed_lines {ls : List Str} (h : wellFormed ls = true) : ∀ l ∈ ls, ¬ Malformed l := by
  intro l hl hm
  unfold wellFormed at h
  rw [List.all_eq_true] at h
  have := h l hl
  rcases (parseLine_bad_iff l).2 hm with e | e | e <;> simp [e] at this

/-- a disk with a building file, a defaults file and otherwise weather files -/
def inputsDisk (building default weather : Str) : FileSystem where
  exists_ _ := true
  read p := if p = "office.ism".toList then some building else if p = "defaults.ism".toList then some default else some weather

theorem inputsDisk_weather (b d b' d' w : Str) (o : Options) (ho : o.ism = "office.ism".toList) {ls : List Str}
    (h : onePath "chicago.epw".toList ls = true) : SameWeather (inputsDisk b d w) (inputsDisk b' d' w) o ls := by
  intro path hp
  rw [onePath_first h hp, ho]
  unfold inputsDisk
  refine ⟨⟨rfl, ?_⟩, rfl, ?_⟩ <;> dsimp only
  · rw [if_neg (by decide), if_neg (by decide), if_neg (by decide), if_neg (by decide)]
  · rw [if_neg (by decide), if_neg (by decide), if_neg (by decide), if_neg (by decide)]

theorem inputsDisk_building (b d w : Str) : (inputsDisk b d w).read "office.ism".toList = some b := by
  unfold inputsDisk; dsimp only; rw [if_pos rfl]

theorem inputsDisk_defaults (b d w : Str) : (inputsDisk b d w).read "defaults.ism".toList = some d := by
  unfold inputsDisk; dsimp only; rw [if_neg (by decide), if_pos rfl]

theorem officeLines_newline : ∀ l ∈ officeLines, '\n' ∉ l := by decide +kernel
theorem officeLines_unique : uniqueKeys officeLines = true := by decide +kernel
theorem officeLines_path : onePath "chicago.epw".toList officeLines = true := by decide +kernel
theorem officeLines_formed : wellFormed officeLines = true := by decide +kernel

/-- the hypotheses of `C62_order` are met: the lines of the example building in reverse order -/
example (lib : Library α) (print : Printer α) (junk : Params α) (weather : Str) :
    main lib print (inputsDisk (linesText officeLines) [] weather) junk ⟨"office.ism".toList, none, true, true, false, none⟩ =
    main lib print (inputsDisk (linesText officeLines.reverse) [] weather) junk ⟨"office.ism".toList, none, true, true, false, none⟩ :=
  C62_order lib print junk _ _ _ rfl rfl rfl (inputsDisk_building _ _ _) (inputsDisk_building _ _ _) (linesText_lines officeLines_newline)
    (linesText_lines (fun l hl => officeLines_newline l (List.mem_reverse.1 hl))) (List.reverse_perm _).symm (uniqueKeys_unique officeLines_unique)
    (wellFormed_lines officeLines_formed) (inputsDisk_weather _ _ _ _ _ _ rfl officeLines_path)

/-- the hypotheses of `C62_defaults` are met: the first forty lines in the building file and the others in the defaults file -/
example (lib : Library α) (print : Printer α) (junk : Params α) (weather : Str) :
    main lib print (inputsDisk (linesText (officeLines.take 40)) (linesText (officeLines.drop 40)) weather) junk
      ⟨"office.ism".toList, some "defaults.ism".toList, true, true, false, none⟩ =
    main lib print (inputsDisk (linesText officeLines) [] weather) junk ⟨"office.ism".toList, none, true, true, false, none⟩ := by
  have e : officeLines.take 40 ++ officeLines.drop 40 = officeLines := List.take_append_drop _ _
  exact C62_defaults lib print junk _ _ ⟨"office.ism".toList, none, true, true, false, none⟩ "defaults.ism".toList rfl rfl rfl (inputsDisk_building _ _ _)
    (inputsDisk_defaults _ _ _) (inputsDisk_building _ _ _) (linesText_lines fun l hl => officeLines_newline l (List.mem_of_mem_take hl))
    (linesText_lines fun l hl => officeLines_newline l (List.mem_of_mem_drop hl)) (by rw [e]; exact linesText_lines officeLines_newline)
    (by rw [e]; exact wellFormed_lines officeLines_formed) (by rw [e]; exact inputsDisk_weather _ _ _ _ _ _ rfl officeLines_path)

theorem irrelevant_lines {ls : List Str} (h : (ls.all fun l => match parseLine l with | .define k _ => Param.table.all fun row => k ≠ row.name.toList.map Char.toLower | _ => true) = true) :
    ∀ l ∈ ls, Irrelevant l := by
  intro l hl k v hd row hrow hk
  rw [List.all_eq_true] at h
  have h1 := h l hl
  rw [defines_parse hd] at h1
  simp only [List.all_eq_true] at h1
  have := h1 row hrow
  simp only [decide_eq_true_eq, ne_eq] at this
  exact this hk

/-- lines that are added -/
def addedLines : List Str := ["# an office in Chicago".toList, "  ".toList, "".toList, "owner = somebody".toList, "floors=12".toList]

/-- the hypotheses of `C62_irrelevant` are met: a comment, empty lines and unknown parameters at the beginning -/
example (lib : Library α) (print : Printer α) (junk : Params α) (weather : Str) :
    main lib print (inputsDisk (linesText (addedLines ++ officeLines)) [] weather) junk ⟨"office.ism".toList, none, true, true, false, none⟩ =
    main lib print (inputsDisk (linesText officeLines) [] weather) junk ⟨"office.ism".toList, none, true, true, false, none⟩ := by
  have hi : ∀ l ∈ addedLines, Irrelevant l := irrelevant_lines (by decide +kernel)
  have hn : ∀ l ∈ addedLines ++ officeLines, '\n' ∉ l := by
    intro l hl
    rcases List.mem_append.1 hl with h | h
    · revert l; decide +kernel
    · exact officeLines_newline l h
  have hf : wellFormed (addedLines ++ officeLines) = true := by decide +kernel
  have hp : onePath "chicago.epw".toList (addedLines ++ officeLines) = true := by decide +kernel
  refine C62_irrelevant lib print junk _ _ _ rfl rfl rfl (inputsDisk_building _ _ _) (inputsDisk_building _ _ _) (linesText_lines hn)
    (linesText_lines officeLines_newline) ?_ (wellFormed_lines hf) (wellFormed_lines officeLines_formed) (inputsDisk_weather _ _ _ _ _ _ rfl hp)
  rw [List.filter_append, List.filter_eq_nil_iff.2 (by simpa using hi), List.nil_append]

end ISO.Props
