import Verif.Model.CommandLine
import Verif.Props.Loading
import Verif.Lemmas.Program

/-! # C42: the command line program runs what is asked for -/

namespace ISO.Props
open ISO ISO.Spec ISO.User ISO.CommandLine ISO.Lemmas

/-- nothing was asked for -/
def Nothing (o : Options) : Prop := o.monthly = false ∧ o.hourlyByMonth = false ∧ o.hourlyByHour = false ∧ o.compare = none

/-- C42: what is run, for every combination of options: each simulation exactly when it is asked for, the monthly one also
when nothing is; a comparison for "md" and "csv" only, a message for any other comparison format. -/
theorem C42_actions (o : Options) :
    (Action.runMonthly ∈ actions o ↔ o.monthly = true ∨ Nothing o) ∧
    (Action.runHourly true ∈ actions o ↔ o.hourlyByMonth = true) ∧
    (Action.runHourly false ∈ actions o ↔ o.hourlyByHour = true) ∧
    (Action.compare true ∈ actions o ↔ o.compare = some "md".toList) ∧
    (Action.compare false ∈ actions o ↔ o.compare = some "csv".toList) ∧
    (Action.message ∈ actions o ↔ ∃ v, o.compare = some v ∧ v ≠ "md".toList ∧ v ≠ "csv".toList) := by
  obtain ⟨ism, d, m, hm, hh, c⟩ := o
  have hne : "csv".toList ≠ "md".toList := by decide
  cases c with
  | none => cases m <;> cases hm <;> cases hh <;> simp [actions, Nothing]
  | some v =>
    by_cases h1 : v = "md".toList
    · subst h1
      cases m <;> cases hm <;> cases hh <;> simp [actions, Nothing, compareActions]
    · by_cases h2 : v = "csv".toList
      · subst h2
        cases m <;> cases hm <;> cases hh <;> simp [actions, Nothing, compareActions]
      · rw [show "md".toList = ['m', 'd'] from by decide] at h1; rw [show "csv".toList = ['c', 's', 'v'] from by decide] at h2
        cases m <;> cases hm <;> cases hh <;> simp [actions, Nothing, compareActions, h1, h2]

/-- C42: each at most once, and at least one thing is done. -/
theorem C42_once (o : Options) : (actions o).Nodup ∧ actions o ≠ [] := by
  obtain ⟨ism, d, m, hm, hh, c⟩ := o
  cases c with
  | none => cases m <;> cases hm <;> cases hh <;> simp [actions]
  | some v =>
    by_cases h1 : v = "md".toList
    · subst h1
      cases m <;> cases hm <;> cases hh <;> simp [actions, compareActions]
    · by_cases h2 : v = "csv".toList
      · subst h2
        cases m <;> cases hm <;> cases hh <;> simp [actions, compareActions]
      · rw [show "md".toList = ['m', 'd'] from by decide] at h1; rw [show "csv".toList = ['c', 's', 'v'] from by decide] at h2
        cases m <;> cases hm <;> cases hh <;> simp [actions, compareActions, h1, h2]

/-- the simulations an action needs have a result -/
def HasResults (u : UserModel Dbl) : Action → Prop
  | .runMonthly => ∃ rs, monthlyResults u = .ok rs
  | .runHourly b => ∃ rs, hourlyResults u b = .ok rs
  | .compare _ => (∃ rs, monthlyResults u = .ok rs) ∧ ∃ rs, hourlyResults u true = .ok rs
  | .message => True

/-- the files needed are there -/
def Found (fs : FileSystem) (o : Options) (u : UserModel Dbl) : Prop :=
  fs.exists_ o.ism = true ∧ (∀ d, o.defaults = some d → fs.exists_ d = true) ∧ weatherFound fs o.ism u.params.weatherFilePath = true

theorem valid_found (lib : Library Dbl) (hl : Prints lib) (fs : FileSystem) (junk : Params Dbl) (o : Options) (u : UserModel Dbl)
    (h : loadFor lib fs junk o = .ok u) : u.valid = some true ↔ Found fs o u := by
  unfold Found
  cases hd : o.defaults with
  | none =>
    rw [loadFor, hd] at h
    rw [C10_load lib hl fs o.ism _ u h]
    simp
  | some d =>
    rw [loadFor, hd] at h
    rw [C10_loadWithDefaults lib hl fs o.ism d _ u h]
    simp [and_assoc]

theorem loadFor_dataFile (lib : Library Dbl) (hl : Prints lib) (fs : FileSystem) (junk : Params Dbl) (o : Options) (u : UserModel Dbl)
    (h : loadFor lib fs junk o = .ok u) : u.dataFile = o.ism := by
  have key : ∀ (props : Except Properties.Error Properties.Store) (v v' : UserModel Dbl), v.dataFile = o.ism →
      loadBuilding lib props v = .ok v' → loadWeather lib fs v' = .ok u → u.dataFile = o.ism := by
    intro props v v' hv hb hu
    have hd : v'.dataFile = v.dataFile := by
      unfold loadBuilding at hb
      cases props with
      | error e => cases hb
      | ok st =>
        simp only at hb
        cases hp : loadParameters lib.stod st v.params with
        | ok p => rw [hp] at hb; simp only [Result.ok.injEq] at hb; rw [← hb]
        | throw e p => rw [hp] at hb; cases hb
        | undefined => rw [hp] at hb; cases hb
    obtain ⟨w, -, rfl⟩ := loadWeather_ok lib hl fs v' u hu
    exact hd.trans hv
  unfold loadFor at h
  cases hd : o.defaults with
  | none =>
    rw [hd] at h
    simp only [load] at h
    split at h
    · simp only [Result.ok.injEq] at h; rw [← h]
    · split at h
      · rename_i v' hb
        exact key _ _ v' (by rfl) hb h
      · rename_i hn; exact absurd h (hn _)
  | some d =>
    rw [hd] at h
    simp only [loadWithDefaults] at h
    split at h
    · simp only [Result.ok.injEq] at h; rw [← h]
    · split at h
      · simp only [Result.ok.injEq] at h; rw [← h]
      · split at h
        · rename_i v' hb
          exact key _ _ v' (by rfl) hb h
        · rename_i hn; exact absurd h (hn _)

/-- C42: if the files are found and the simulations asked for have a result, the program does all of it, in that order; if
a file is not found, it prints which one and dereferences a null pointer (a defect) before doing any simulation. -/
theorem C42_runs (lib : Library Dbl) (hl : Prints lib) (print : Printer Dbl) (hp : Plain print) (fs : FileSystem) (junk : Params Dbl)
    (o : Options) (u : UserModel Dbl) (h : loadFor lib fs junk o = .ok u) :
    (Found fs o u → (∀ a ∈ actions o, HasResults u a) → ∃ text, main lib print fs junk o = .returns (actions o) text) ∧
    (¬ Found fs o u → actions o ≠ [.message] → ∃ did text, main lib print fs junk o = .nullPointer did text ∧
      (∀ a ∈ did, a = .message) ∧
      ∃ file what : Str, text = what ++ " Not Found: ".toList ++ file ++ "\n".toList ++
          (if did = [] then [] else "No output type given for compare. Please use 'md' or 'csv'.\n".toList) ∧
        (fs.exists_ o.ism = false → what = "ISO Model File".toList ∧ file = o.ism) ∧
        (∀ d, fs.exists_ o.ism = true → o.defaults = some d → fs.exists_ d = false → what = "ISO Model File".toList ∧ file = d) ∧
        (fs.exists_ o.ism = true → (∀ d, o.defaults = some d → fs.exists_ d = true) →
          what = "Weather File".toList ∧ file = u.params.weatherFilePath)) := by
  have hv := valid_found lib hl fs junk o u h
  have e : main lib print fs junk o = perform print u (actions o) [] (Out.start.put (loadText fs o u)) := by
    unfold main
    rw [h]
  rw [e]
  constructor
  · intro _ hr
    have key : ∀ (as : List Action) (out : Out), (∀ a ∈ as, HasResults u a) → ∃ out', runAll print u as out = .ok out' := by
      intro as
      induction as with
      | nil => intro out _; exact ⟨out, rfl⟩
      | cons a as ih =>
        intro out ha
        have h1 : ∃ out1, act print u out a = .ok out1 := by
          have := ha a List.mem_cons_self
          cases a with
          | runMonthly => obtain ⟨m, hm⟩ := this; obtain ⟨t, ht, -⟩ := act_monthly hp hm out; exact ⟨_, ht⟩
          | runHourly b => obtain ⟨r, hr⟩ := this; obtain ⟨t, ht, -⟩ := act_hourly hp hr out; exact ⟨_, ht⟩
          | compare b =>
            obtain ⟨⟨m, hm⟩, r, hr⟩ := this
            obtain ⟨t, ht, -⟩ := act_compare hp hm hr b out
            exact ⟨_, ht⟩
          | message => exact ⟨_, rfl⟩
        obtain ⟨out1, h1⟩ := h1
        obtain ⟨out', h2⟩ := ih out1 fun a h => ha a (List.mem_cons_of_mem _ h)
        exact ⟨out', by rw [runAll, h1]; exact h2⟩
    obtain ⟨out', h2⟩ := key (actions o) (Out.start.put (loadText fs o u)) hr
    exact ⟨out'.text, by rw [runAll_perform print u _ [] _ _ h2, List.nil_append]⟩
  · intro h' hm
    rw [← hv] at h'
    have hbuild : toHourlyModel u = none ∧ toMonthlyModel u = none := by
      constructor
      · cases hx : toHourlyModel u with
        | none => rfl
        | some m => exact absurd ((C10_build u).1.mp ⟨m, hx⟩) h'
      · cases hx : toMonthlyModel u with
        | none => rfl
        | some m => exact absurd ((C10_build u).2.mp ⟨m, hx⟩) h'
    have hres : (∀ b, hourlyResults u b = .nullPointer) ∧ monthlyResults u = .nullPointer := by
      constructor
      · intro b; unfold hourlyResults; rw [hbuild.1]
      · unfold monthlyResults; rw [hbuild.2]
    have one : ∀ (a : Action) (as did : List Action) (out : Out), a ≠ .message → perform print u (a :: as) did out = .nullPointer did out.text := by
      intro a as did out ha
      have : act print u out a = .nullPointer := by
        cases a with
        | message => exact absurd rfl ha
        | runMonthly => show (monthlyResults u).bind _ = _; rw [hres.2]; rfl
        | runHourly b => show (hourlyResults u b).bind _ = _; rw [hres.1]; rfl
        | compare b => show (hourlyResults u true).bind _ = _; rw [hres.1]; rfl
      rw [perform, this]
    obtain ⟨file, what, ht, h1, h2, h3⟩ : ∃ file what : Str, loadText fs o u = what ++ " Not Found: ".toList ++ file ++ "\n".toList ∧
        (fs.exists_ o.ism = false → what = "ISO Model File".toList ∧ file = o.ism) ∧
        (∀ d, fs.exists_ o.ism = true → o.defaults = some d → fs.exists_ d = false → what = "ISO Model File".toList ∧ file = d) ∧
        (fs.exists_ o.ism = true → (∀ d, o.defaults = some d → fs.exists_ d = true) →
          what = "Weather File".toList ∧ file = u.params.weatherFilePath) := by
      cases hb : fs.exists_ o.ism with
      | false =>
        refine ⟨o.ism, "ISO Model File".toList, ?_, fun _ => ⟨rfl, rfl⟩, fun _ h => by simp at h, fun h => by simp at h⟩
        unfold loadText
        rw [hb]
        rfl
      | true =>
        by_cases hd : ∀ d, o.defaults = some d → fs.exists_ d = true
        · refine ⟨u.params.weatherFilePath, "Weather File".toList, ?_, fun h => by simp at h, ?_, fun _ _ => ⟨rfl, rfl⟩⟩
          · have hw : (weatherFile fs u).2 = false := by
              rw [weatherFile_found, loadFor_dataFile lib hl fs junk o u h]
              cases hw : weatherFound fs o.ism u.params.weatherFilePath with
              | false => rfl
              | true => exact absurd (hv.mpr ⟨hb, hd, hw⟩) h'
            unfold loadText
            simp only [hb, hw, Bool.not_true, Bool.false_eq_true, if_false]
            cases hdef : o.defaults with
            | none => rfl
            | some d => simp only [hd d hdef, Bool.not_true, Bool.false_eq_true, if_false]; rfl
          · intro d _ hdef hdf
            rw [hd d hdef] at hdf
            cases hdf
        · push Not at hd
          obtain ⟨d, hdef, hdf⟩ := hd
          have hdf := Bool.eq_false_of_not_eq_true hdf
          refine ⟨d, "ISO Model File".toList, ?_, fun h => by simp at h, ?_, fun _ hall => ?_⟩
          · unfold loadText
            simp only [hb, hdef, hdf, Bool.not_true, Bool.false_eq_true, if_false, Bool.not_false, if_true]
            rfl
          · intro d' _ hdef' _
            rw [hdef] at hdef'
            cases hdef'
            exact ⟨rfl, rfl⟩
          · rw [hall d hdef] at hdf
            cases hdf
    obtain ⟨hnd, hne⟩ := C42_once o
    cases ha : actions o with
    | nil => exact absurd ha hne
    | cons a as =>
      rw [ha] at hnd hm
      by_cases hmsg : a = .message
      · subst hmsg
        cases as with
        | nil => exact absurd rfl hm
        | cons b bs =>
          have hb : b ≠ .message := by
            rintro rfl
            simp at hnd
          refine ⟨[.message], _, (by rw [perform]; exact one b bs _ _ hb), by simp, file, what, ?_, h1, h2, h3⟩
          rw [if_neg (by simp), ← ht]
          rfl
      · refine ⟨[], _, one a as [] _ hmsg, by simp, file, what, ?_, h1, h2, h3⟩
        rw [if_pos rfl, List.append_nil, ← ht]
        rfl

/-- concrete cases: nothing asked for; everything asked for; an unknown comparison format runs nothing -/
example : actions ⟨"a.ism".toList, none, false, false, false, none⟩ = [.runMonthly] ∧
    actions ⟨"a.ism".toList, none, true, true, true, some "md".toList⟩ = [.compare true, .runMonthly, .runHourly true, .runHourly false] ∧
    actions ⟨"a.ism".toList, none, false, false, false, some "html".toList⟩ = [.message] := by decide

/-- a missing building file: null pointer -/
example (lib : Library Dbl) (print : Printer Dbl) (junk : Params Dbl) :
    main lib print ⟨fun _ => false, fun _ => none⟩ junk ⟨"a.ism".toList, none, false, false, false, none⟩ = .nullPointer [] "ISO Model File Not Found: a.ism\n".toList := by
  rfl

end ISO.Props
