import Verif.Lemmas.Settings
import Verif.Lemmas.Inputs
import Verif.Props.Editing

/-! # C80: a line of the building file and a call of the setter say the same -/

namespace ISO.Props
open ISO ISO.User ISO.Spec ISO.Spec.Param ISO.Lemmas ISO.Lemmas.Settings Dbl
open ISO.Spec.Editing (Edited)

variable {stod : Str → Except Properties.ConvError Dbl} {file file' : Properties.Store} {name : String} {text : Str} {c : SetterCall Dbl}

/-- what the getters show after the parameters have been stored -/
theorem Settings.getters {u p : Params Dbl} (h : loadParameters stod file u = .ok p) (e : Extra Dbl) (g : Getter) :
    g.read ⟨p, e⟩ = ((g.line.bind (given file)).bind (g.meaning stod)).getD (g.read ⟨u, e⟩) := by
  have ha := (C06_iff stod file u).mp ⟨p, h⟩
  rw [C06_success stod file u ha] at h
  injection h with h
  rw [← h]
  exact read_stored stod file u e g

namespace Settings

theorem accessor_line {a : Accessor} {n : String} (h : a.line = some n) : (Getter.of a).line = some n ∧ head (.of a) = .of a := by
  rcases a with a | a | a | a | a | a | a | a | a | a | ⟨a, f⟩ | _ | _
  case facade => cases h
  all_goals exact ⟨h, rfl⟩

/-- the getters that show what a call sets are those of the line that says the same -/
theorem written_says (h : Says stod name text c) (g : Getter) : written c g = if g.line = some name then g.meaning stod text else none := by
  rcases c with ⟨a, v⟩ | ⟨c, t⟩ | ⟨n, v⟩ | v
  · obtain ⟨h1, h2⟩ := h
    obtain ⟨h3, h4⟩ := accessor_line h1
    rcases g with b | d
    · by_cases hb : b = a
      · subst hb
        rw [if_pos h3, h2]
        show (if b = b then _ else _) = _
        rw [if_pos rfl]
      · show (if b = a then _ else _) = _
        rw [if_neg hb, if_neg]
        intro hl
        have k := line_inj hl h3
        rw [h4] at k
        rcases b with b | b | b | b | b | b | b | b | b | b | ⟨b, f⟩ | _ | _
        case facade =>
          injection k with k
          rw [← k] at h1
          cases h1
        all_goals exact hb (Getter.of.inj k)
    · rw [if_neg]
      · rfl
      · intro hl
        have k := line_inj hl h3
        rw [h4] at k
        cases k
  · obtain ⟨h1, rfl, h2⟩ := h
    have h3 : (Getter.code c).line = some name := congrArg some h1
    rcases g with b | d
    · rw [if_neg]
      · rfl
      · intro hl
        have k := line_inj hl h3
        rcases b with b | b | b | b | b | b | b | b | b | b | ⟨b, f⟩ | _ | _ <;> cases k
    · by_cases hd : d = c
      · subst hd
        rw [if_pos h3]
        show (if d = d then _ else _) = _
        rw [if_pos rfl]
        rfl
      · show (if d = c then _ else _) = _
        rw [if_neg hd, if_neg]
        intro hl
        exact hd (Getter.code.inj (line_inj hl h3))
  · obtain ⟨h1, n1, n2, n3, n4, n5, n6, n7, n8, n9, h2, rfl⟩ := h
    have h3 : ∀ f, (Getter.of (.facade n f)).line = some name := fun f => congrArg some h1
    rcases g with b | d
    · rcases b with b | b | b | b | b | b | b | b | b | b | ⟨b, f⟩ | _ | _
      case facade =>
        by_cases hb : b = n
        · subst hb
          rw [if_pos (h3 f)]
          show (if b = b ∧ _ then _ else _) = (nineNumbers stod text).bind _
          rw [if_pos ⟨rfl, rfl⟩, h2]
          cases f <;> rfl
        · show (if b = n ∧ _ then _ else _) = _
          rw [if_neg fun h => hb h.1, if_neg]
          intro hl
          have k := line_inj hl (h3 .N)
          injection k with k
          injection k with k
          exact hb k
      all_goals
        rw [if_neg]
        · rfl
        · intro hl
          have k := line_inj hl (h3 .N)
          cases k
    · rw [if_neg]
      · rfl
      · intro hl
        have k := line_inj hl (h3 .N)
        cases k
  · obtain ⟨h1, h2⟩ := h
    have h3 : (Getter.of (.heating .dhwDistributionEfficiency)).line = some name := congrArg some h1.symm
    by_cases hg : g = .of (.heating .dhwDistributionEfficiency)
    · subst hg
      rw [if_pos h3]
      show _ = (stod text).toOption.map Reading.num
      rw [h2]
      rfl
    · rw [if_neg]
      · rcases g with b | d
        · rcases b with b | b | b | b | b | b | b | b | b | b | ⟨b, f⟩ | _ | _
          case heating =>
            cases b
            case dhwDistributionEfficiency => exact absurd rfl hg
            all_goals rfl
          all_goals rfl
        · rfl
      · intro hl
        have k := line_inj hl h3
        rcases g with b | d
        · rcases b with b | b | b | b | b | b | b | b | b | b | ⟨b, f⟩ | _ | _
          case facade => cases k
          all_goals exact hg k
        · exact hg k

/-- a call that a line says has a getter, and the line has a meaning for it -/
theorem says_getter (h : Says stod name text c) : ∃ g : Getter, g.line = some name ∧ (g.meaning stod text).isSome = true := by
  rcases c with ⟨a, v⟩ | ⟨c, t⟩ | ⟨n, v⟩ | v
  · exact ⟨.of a, (accessor_line h.1).1, by rw [h.2]; rfl⟩
  · obtain ⟨h1, rfl, k, hk, e⟩ := h
    refine ⟨.code c, congrArg some h1, ?_⟩
    show (Option.map _ _).isSome = true
    rw [Option.isSome_map, List.findIdx?_isSome, List.any_eq_true]
    exact ⟨k, hk, by simpa using e⟩
  · obtain ⟨h1, n1, n2, n3, n4, n5, n6, n7, n8, n9, h2, rfl⟩ := h
    refine ⟨.of (.facade n .N), congrArg some h1, ?_⟩
    show ((nineNumbers stod text).bind _).isSome = true
    rw [h2]
    rfl
  · refine ⟨.of (.heating .dhwDistributionEfficiency), congrArg some h.1.symm, ?_⟩
    show ((stod text).toOption.map Reading.num).isSome = true
    rw [h.2]
    rfl

/-- the nine getters of a vector show something together -/
theorem meaning_head (stod : Str → Except Properties.ConvError Dbl) (text : Str) (g : Getter) :
    (g.meaning stod text).isSome = ((head g).meaning stod text).isSome := by
  rcases g with b | d
  · rcases b with b | b | b | b | b | b | b | b | b | b | ⟨b, f⟩ | _ | _
    case facade =>
      show ((nineNumbers stod text).bind _).isSome = ((nineNumbers stod text).bind _).isSome
      unfold nineNumbers
      cases Properties.tokens text with
      | error e => rfl
      | ok ts =>
        simp only
        cases Properties.stodAll stod ts with
        | error e => rfl
        | ok v =>
          simp only
          by_cases h9 : v.length = 9
          · rw [if_pos h9, Option.bind_some, Option.bind_some, Option.isSome_map, Option.isSome_map]
            have hf : linePlace f < v.length := by rw [h9]; cases f <;> decide
            have hN : linePlace .N < v.length := by rw [h9]; decide
            rw [List.getElem?_eq_getElem hf, List.getElem?_eq_getElem hN]
            rfl
          · rw [if_neg h9]
            rfl
    all_goals rfl
  · rfl

theorem judge_number {n : String} {q : Bool} (hg : given file n = some text) (hm : ((stod text).toOption.map Reading.num).isSome = true) :
    judge stod file ⟨n, .number, q⟩ = .accepted := by
  show ofRead q ((given file n).map stod) = _
  rw [hg]
  cases hs : stod text with
  | ok v => simp only [Option.map_some, hs, ofRead]
  | error e => rw [hs] at hm; cases hm

theorem judge_meaning {g : Getter} {q : Bool} (hl : g.line = some name) (hg : given file name = some text) (hm : (g.meaning stod text).isSome = true) :
    judge stod file ⟨name, kindOf g, q⟩ = .accepted := by
  have hbool : ∀ {n}, given file n = some text →
      (if text = "true".toList then some (Reading.flag true : Reading Dbl) else if text = "false".toList then some (Reading.flag false) else none).isSome = true →
      judge stod file ⟨n, .boolean, q⟩ = .accepted := by
    intro n hg hm
    show (if (boolean file n).isSome || !q then Verdict.accepted else .missing) = _
    unfold boolean
    rw [hg, Option.bind_some]
    split_ifs at hm ⊢ with h1 h2 <;> simp_all
  rcases g with b | d
  · rcases b with b | b | b | b | b | b | b | b | b | b | ⟨b, f⟩ | _ | _
    case extra => cases hl
    case facade =>
      replace hm : ((nineNumbers stod text).bind _).isSome = true := hm
      show (match given file name with | none => _ | some t => _) = _
      rw [hg]
      simp only
      unfold nineNumbers at hm
      cases ht : Properties.tokens text with
      | error e => rw [ht] at hm; cases hm
      | ok ts =>
        rw [ht] at hm
        simp only at hm ⊢
        cases hs : Properties.stodAll stod ts with
        | error e => rw [hs] at hm; cases hm
        | ok v =>
          rw [hs] at hm
          simp only at hm ⊢
          by_cases h9 : v.length = 9
          · rw [if_neg (by omega), if_pos h9]
          · rw [if_neg h9] at hm
            cases hm
    case weatherFilePath =>
      show (if (given file name).isSome || !q then Verdict.accepted else .missing) = _
      rw [hg]
      rfl
    case cooling =>
      cases b
      case forcedAirCooling => exact hbool hg hm
      all_goals exact judge_number hg hm
    case heating =>
      cases b
      case forcedAirHeating => exact hbool hg hm
      all_goals exact judge_number hg hm
    case ventilation =>
      cases b
      case vent_rate_flag =>
        replace hm : ((Properties.stoi text).toOption.map fun n => (Reading.num (fin (n : ℝ)) : Reading Dbl)).isSome = true := hm
        show ofRead q ((given file name).map Properties.stoi) = _
        rw [hg]
        cases hs : Properties.stoi text with
        | ok v => simp only [Option.map_some, hs, ofRead]
        | error e => rw [hs] at hm; cases hm
      all_goals exact judge_number hg hm
    case terrainClass => exact judge_number hg hm
    all_goals cases b <;> exact judge_number hg hm
  · replace hm : (Option.map _ _).isSome = true := hm
    rw [Option.isSome_map, List.findIdx?_isSome, List.any_eq_true] at hm
    obtain ⟨k, hk, e⟩ := hm
    show (match given file name with | none => _ | some t => _) = _
    rw [hg]
    simp only
    rw [if_pos]
    rw [of_decide_eq_true e]
    exact List.mem_map_of_mem hk

theorem judge_same {r : Row} (h : given file' r.name = given file r.name) : judge stod file' r = judge stod file r := by
  unfold judge boolean
  rw [h]

end Settings

open Settings

/-- **C80, one line.** If a line of the building file says what a call of a setter says, then loading the file with this line gives the object
that loading the file without it (or with another such line) and then the call give; and the call does not throw. -/
theorem C80_call (hs : Says stod name text c) (hn : given file' name = some text)
    (ho : ∀ r ∈ table, r.name ≠ name → given file' r.name = given file r.name) {u p : Params Dbl} (h : loadParameters stod file u = .ok p) (e : Extra Dbl) :
    ∃ p', loadParameters stod file' u = .ok p' ∧ c.run ⟨p, e⟩ = (.ok (), ⟨p', e⟩) := by
  have ha := (C06_iff stod file u).mp ⟨p, h⟩
  obtain ⟨g0, l0, m0⟩ := says_getter hs
  obtain ⟨q0, r0⟩ := row_of g0 l0
  have ha' : ∀ r ∈ table, judge stod file' r = .accepted := by
    intro r hr
    by_cases hrn : r.name = name
    · rw [row_unique hr r0 (by rw [hrn])]
      exact judge_meaning l0 hn m0
    · rw [judge_same (ho r hr hrn)]
      exact ha r hr
  refine ⟨_, C06_success stod file' u ha', ?_⟩
  have hp := C06_success stod file' u ha'
  generalize stored stod file' u = p' at hp ⊢
  refine Prod.ext ?_ (C57_whole _ _ fun g => ?_)
  · rw [(C57_refused c ⟨p, e⟩).1]
    intro hr
    rcases c with ⟨a, v⟩ | ⟨c, t⟩ | ⟨n, v⟩ | v
    · exact hr
    · obtain ⟨-, rfl, k, hk, e⟩ := hs
      exact hr k hk e
    · obtain ⟨-, n1, n2, n3, n4, n5, n6, n7, n8, n9, -, rfl⟩ := hs
      exact hr rfl
    · exact hr
  · show g.read (c.run ⟨p, e⟩).2 = g.read ⟨p', e⟩
    rw [C57_call, written_says hs, Settings.getters hp, Settings.getters h]
    by_cases hg : g.line = some name
    · rw [if_pos hg, hg, Option.bind_some, Option.bind_some, hn, Option.bind_some]
      cases hm : g.meaning stod text with
      | some v => rfl
      | none =>
        exfalso
        have k := meaning_head stod text g
        rw [← line_inj l0 hg, ← meaning_head, m0, hm] at k
        cases k
    · rw [if_neg hg, Option.getD_none]
      cases hl : g.line with
      | none => rfl
      | some n =>
        obtain ⟨q, hr⟩ := row_of g hl
        rw [Option.bind_some, Option.bind_some, ho _ hr (fun he => hg (by rw [hl]; exact congrArg some he))]

namespace Settings

/-- the call of a setter changes the path of the weather file only if it is made for that -/
theorem path_same (hs : Says stod name text c) (hw : name ≠ "weatherfilepath") (u : Object Dbl) :
    (c.run u).2.params.weatherFilePath = u.params.weatherFilePath := by
  have h := C57_call c (.of .weatherFilePath) u
  rw [written_says hs, if_neg, Option.getD_none] at h
  · exact Reading.text.inj h
  · intro e
    exact hw (Option.some.inj e).symm

theorem fillWeather_params (lib : Library Dbl) (x : UserModel Dbl) (p : Params Dbl) :
    fillWeather lib { x with params := p } = (fillWeather lib x).map fun y => { y with params := p } := by
  unfold fillWeather
  have hx : ({ x with params := p } : UserModel Dbl).edata = x.edata := rfl
  rw [hx]
  cases h1 : Epw.toWeather x.edata with
  | none => rw [Option.bind_eq_bind, Option.bind_none, Option.bind_eq_bind, Option.bind_none, Option.map_none]
  | some w =>
    rw [Option.bind_eq_bind, Option.bind_some, Option.bind_eq_bind, Option.bind_some]
    cases h2 : WeatherText.toISOData lib.fmt w with
    | none => rw [Option.bind_none, Option.bind_none, Option.map_none]
    | some t => rw [Option.bind_some, Option.bind_some, Option.map_some]

/-- loading the weather does not depend on the other parameters -/
theorem loadWeather_params (lib : Library Dbl) {fs fs' : FileSystem} (he : fs'.exists_ = fs.exists_) {x : UserModel Dbl} {p : Params Dbl}
    (hp : p.weatherFilePath = x.params.weatherFilePath) (hr : ∀ f, f = x.params.weatherFilePath ∨ f = resolveFilename x.dataFile x.params.weatherFilePath →
      fs'.read f = fs.read f) {y : UserModel Dbl} (h : loadWeather lib fs x = .ok y) :
    loadWeather lib fs' { x with params := p } = .ok { y with params := p } ∧ y.params = x.params := by
  have hf : weatherFile fs' { x with params := p } = weatherFile fs x := by
    unfold weatherFile
    simp only [hp, he]
  have hg : fs'.read (weatherFile fs x).1 = fs.read (weatherFile fs x).1 := by
    apply hr
    unfold weatherFile
    split_ifs
    · exact .inl rfl
    · exact .inr rfl
  generalize hw : weatherFile fs x = a at hf hg
  obtain ⟨f, found⟩ := a
  rw [loadWeather_file lib fs x f found hw] at h
  rw [loadWeather_file lib fs' _ f found hf, hg]
  have hd : ({ x with params := p } : UserModel Dbl).edata = x.edata := rfl
  rw [hd]
  generalize Epw.loadFile lib.atof (fs.read f) x.edata = d at h ⊢
  have key := fillWeather_params lib { x with valid := if found then x.valid else some false, edata := d } p
  rw [key]
  cases hy : fillWeather lib { x with valid := if found then x.valid else some false, edata := d } with
  | none => rw [hy] at h; cases h
  | some z =>
    rw [hy] at h
    simp only [Option.map_some] at h ⊢
    injection h with h
    obtain ⟨heap, hz⟩ := fillWeather_some hy
    rw [← h, hz]
    exact ⟨rfl, rfl⟩

theorem load_line (lib : Library Dbl) {fs : FileSystem} {f building line : Str} (hx : fs.exists_ f = true) (hb : fs.read f = some building)
    (ha : SaysSame lib.stod line c) {u u1 : UserModel Dbl} (h : load lib fs f u = .ok u1)
    (hf : f ≠ u1.params.weatherFilePath ∧ f ≠ resolveFilename f u1.params.weatherFilePath) (e : Extra Dbl) :
    load lib (fs.replace f (line ++ '\n' :: building)) f u = .ok { u1 with params := (c.run ⟨u1.params, e⟩).2.params } ∧
    (c.run ⟨u1.params, e⟩).2.params.weatherFilePath = u1.params.weatherFilePath := by
  obtain ⟨hl, key, value, name, hd, hk, hw, hs⟩ := ha
  unfold load at h ⊢
  have hx' : (fs.replace f (line ++ '\n' :: building)).exists_ f = true := hx
  have hr' : (fs.replace f (line ++ '\n' :: building)).read f = some (line ++ '\n' :: building) := if_pos rfl
  simp only [hx, hb, Bool.not_true, Bool.false_eq_true, if_false] at h
  simp only [hx', hr', Bool.not_true, Bool.false_eq_true, if_false]
  unfold loadBuilding at h ⊢
  cases hfile : Properties.ofFile (some building) with
  | error e => rw [hfile] at h; cases h
  | ok file =>
    obtain ⟨g0, l0, -⟩ := says_getter hs
    obtain ⟨q0, r0⟩ := row_of g0 l0
    obtain ⟨file', hfile', hedit, hgiven, -⟩ := C75_line hfile hl hd [name] (by
      intro r hr hsk
      have : lower r.name.toList = lower name.toList := hsk.symm.trans hk
      rw [row_unique hr r0 this]
      simp)
    rw [hfile] at h
    rw [hfile']
    simp only at h ⊢
    cases hp : loadParameters lib.stod file u.params with
    | throw e p => rw [hp] at h; cases h
    | undefined => rw [hp] at h; cases h
    | ok p =>
      rw [hp] at h
      simp only at h
      obtain ⟨p', h1, h2⟩ := C80_call hs (hgiven _ hk) (fun r hr hn => hedit r hr (by simpa using hn)) hp e
      rw [h1]
      simp only
      have hpath := path_same hs hw ⟨p, e⟩
      rw [h2] at hpath
      have hsame : u1.params = p := by
        have := (loadWeather_params lib (fs := fs) (fs' := fs) rfl (p := p) rfl (fun _ _ => rfl) h).2
        exact this
      have key := loadWeather_params lib (fs := fs) (fs' := fs.replace f (line ++ '\n' :: building)) rfl (p := p') hpath (fun g hg => by
        have : g ≠ f := by
          rintro rfl
          rw [hsame] at hf
          rcases hg with hg | hg
          · exact hf.1 hg
          · exact hf.2 hg
        exact if_neg this) h
      rw [hsame, h2]
      exact ⟨key.1, hpath⟩

end Settings

/-- **C80, getters.** After a load every getter shows what its line of the building file says, and what it showed before if the file has no such
line (or, for a setting that is not required, an unreadable one). -/
theorem C80_getters (lib : Library Dbl) {fs : FileSystem} {f building : Str} (hx : fs.exists_ f = true) (hb : fs.read f = some building)
    (hfile : Properties.ofFile (some building) = .ok file) {u u1 : UserModel Dbl} (h : run lib [(fs, .load f)] u = some u1) (e : Extra Dbl)
    (g : Getter) :
    g.read ⟨u1.params, e⟩ = ((g.line.bind (given file)).bind (g.meaning lib.stod)).getD (g.read ⟨u.params, e⟩) := by
  rw [run, step] at h
  unfold load at h
  simp only [hx, hb, Bool.not_true, Bool.false_eq_true, if_false] at h
  unfold loadBuilding at h
  rw [hfile] at h
  simp only at h
  cases hp : loadParameters lib.stod file u.params with
  | throw e p => rw [hp] at h; cases h
  | undefined => rw [hp] at h; cases h
  | ok p =>
    rw [hp] at h
    simp only at h
    cases hw : loadWeather lib fs { u with dataFile := f, params := p, valid := some true } with
    | throw e p => rw [hw] at h; cases h
    | undefined => rw [hw] at h; cases h
    | ok v =>
      rw [hw] at h
      cases h
      rw [(Settings.loadWeather_params lib (fs := fs) (fs' := fs) rfl (p := p) rfl (fun _ _ => rfl) hw).2]
      exact Settings.getters hp e g

/-- **C80, the program.** Load a building file that names a weather file of its own and then call setters, any number and in any order; or
put a line on top of the building file for every call, the last one uppermost, and load this file: the user model is the same, with the same
weather, and so is every simulation made from it. -/
theorem C80_history (lib : Library Dbl) {fs : FileSystem} {f building : Str} (hx : fs.exists_ f = true) (hb : fs.read f = some building)
    (edits : List (Str × SetterCall Dbl)) (ha : ∀ x ∈ edits, SaysSame lib.stod x.1 x.2) {u u1 : UserModel Dbl}
    (h : run lib [(fs, .load f)] u = some u1)
    (hf : f ≠ u1.params.weatherFilePath ∧ f ≠ resolveFilename f u1.params.weatherFilePath) (e : Extra Dbl) :
    ∃ u2, run lib ((fs, .load f) :: edits.map fun x => (fs, .call x.2 e)) u = some u2 ∧
      run lib [(fs.replace f (edits.foldl (fun text x => x.1 ++ '\n' :: text) building), .load f)] u = some u2 := by
  have once : ∀ {g : FileSystem} {v : UserModel Dbl}, run lib [(g, .load f)] u = some v ↔ load lib g f u = .ok v := by
    intro g v
    rw [run, step]
    cases load lib g f u <;> simp [run]
  have same : ∀ g : FileSystem, fs.replace f building = fs := by
    intro _
    have : (fun g => if g = f then some building else fs.read g) = fs.read := by
      funext g
      split_ifs with hg
      · rw [hg, hb]
      · rfl
    unfold FileSystem.replace
    rw [this]
  have all : ∀ (edits : List (Str × SetterCall Dbl)) (building : Str) (v : UserModel Dbl), (∀ x ∈ edits, SaysSame lib.stod x.1 x.2) →
      load lib (fs.replace f building) f u = .ok v → f ≠ v.params.weatherFilePath ∧ f ≠ resolveFilename f v.params.weatherFilePath →
      ∃ v', run lib (edits.map fun x => (fs, .call x.2 e)) v = some v' ∧
        load lib (fs.replace f (edits.foldl (fun text x => x.1 ++ '\n' :: text) building)) f u = .ok v' := by
    intro edits
    induction edits with
    | nil => intro building v _ hv _; exact ⟨v, rfl, hv⟩
    | cons x l ih =>
      intro building v hA hv hfv
      have hA' := List.forall_mem_cons.mp hA
      have twice : ∀ a b, (fs.replace f a).replace f b = fs.replace f b := by
        intro a b
        show (⟨_, _⟩ : FileSystem) = ⟨_, _⟩
        congr 1
        funext g
        show (if g = f then some b else if g = f then some a else fs.read g) = if g = f then some b else fs.read g
        split_ifs <;> rfl
      obtain ⟨k1, k2⟩ := Settings.load_line lib (fs := fs.replace f building) (building := building) hx (if_pos rfl) hA'.1 hv hfv e
      rw [twice] at k1
      exact ih _ _ hA'.2 k1 (by rw [k2]; exact hfv)
  obtain ⟨v', h1, h2⟩ := all edits building u1 ha (by rw [same fs]; exact once.mp h) hf
  refine ⟨v', ?_, once.mpr h2⟩
  rw [run, step, once.mp h]
  exact h1

end ISO.Props
