import Verif.Lemmas.Output
import Verif.Props.Aggregate
import Verif.Lemmas.Complete
import Verif.Lemmas.Loading

/-! # Lemmas about the command line program -/

namespace ISO.Lemmas
open ISO ISO.Spec ISO.User ISO.CommandLine ISO.Props

theorem ofOption_ok {σ : Type} {x : Option σ} {s : σ} (h : Step.ofOption x = .ok s) : x = some s := by
  cases x with
  | none => cases h
  | some a => rw [Step.ofOption, Step.ok.injEq] at h; rw [h]

theorem monthlyResults_length (u : UserModel Dbl) (rs : List (Hourly.EndUses Dbl)) (h : monthlyResults u = .ok rs) : rs.length = 12 := by
  unfold monthlyResults at h
  split at h
  · cases h
  · have h' := ofOption_ok h
    rw [Option.bind_eq_some_iff] at h'
    obtain ⟨w, -, h'⟩ := h'
    simp only [Monthly.simulate, Option.bind_eq_bind, Option.bind_eq_some_iff, Option.pure_def, Option.some.injEq] at h'
    obtain ⟨s, -, rfl⟩ := h'
    simp [Monthly.outputGeneration]

theorem hourlyResults_length (u : UserModel Dbl) (b : Bool) (rs : List (Hourly.EndUses Dbl)) (h : hourlyResults u b = .ok rs) :
    rs.length = if b then 12 else 8760 := by
  unfold hourlyResults at h
  split at h
  · cases h
  · have h' := ofOption_ok h
    rw [Option.bind_eq_some_iff] at h'
    obtain ⟨w, -, h'⟩ := h'
    rw [Option.map_eq_some_iff] at h'
    obtain ⟨⟨m', out⟩, h', rfl⟩ := h'
    cases b with
    | false => exact (C28_aggregated _ h').1
    | true =>
      cases hf : Hourly.simulate false (⟨simOf _ noAverages, w, Hourly.Pushed.empty⟩ : Hourly.Model Dbl) with
      | none =>
        rw [(C28_fail_together _).mp hf] at h'
        cases h'
      | some r =>
        obtain ⟨-, out', h1, h2, -⟩ := C28_aggregated _ (m' := r.1) (hourly := r.2) (by rw [hf])
        rw [h'] at h1
        rw [(Prod.mk.inj (Option.some.inj h1)).2]
        exact h2

theorem ofOption_iff {σ : Type} {x : Option σ} {s : σ} : Step.ofOption x = .ok s ↔ x = some s := by
  refine ⟨ofOption_ok, ?_⟩
  rintro rfl
  rfl

/-- a load either stores the parameters of the file or ends in a way that does not depend on what was in the object -/
theorem load_cases (stod : Str → Except Properties.ConvError Dbl) (file : Properties.Store) :
    (∀ r ∈ Param.table, Param.judge stod file r = .accepted) ∨
    ∃ r : Param.Row, ∀ u : Params Dbl, ∃ u', loadParameters stod file u = outcome r (Param.judge stod file r) u' u' ∧
      Param.judge stod file r ≠ .accepted := by
  have first : ∀ rs : List Param.Row, (∀ r ∈ rs, Param.judge stod file r = .accepted) ∨
      ∃ pre r post, rs = pre ++ r :: post ∧ (∀ r ∈ pre, Param.judge stod file r = .accepted) ∧ Param.judge stod file r ≠ .accepted := by
    intro rs
    induction rs with
    | nil => left; simp
    | cons a rs ih =>
      by_cases ha : Param.judge stod file a = .accepted
      · rcases ih with ih | ⟨pre, r, post, e, h1, h2⟩
        · left
          intro x hx
          rcases List.mem_cons.mp hx with rfl | hx
          · exact ha
          · exact ih x hx
        · refine .inr ⟨a :: pre, r, post, by rw [e]; rfl, ?_, h2⟩
          intro x hx
          rcases List.mem_cons.mp hx with rfl | hx
          · exact ha
          · exact h1 x hx
      · exact .inr ⟨[], a, rs, rfl, by simp, ha⟩
  rcases first Param.table with h | ⟨pre, r, post, e, h1, h2⟩
  · exact .inl h
  · obtain ⟨g, hg, -⟩ := calls_chain stod file
    refine .inr ⟨r, fun u => ?_⟩
    obtain ⟨u', h⟩ := chain_fail stod file hg pre post r e h1 h2 u
    exact ⟨u', h, h2⟩

/-- an invalid user model: no simulation is run -/
theorem perform_invalid (print : Printer Dbl) {u u' : UserModel Dbl} (h : u.valid ≠ some true) (h' : u'.valid ≠ some true)
    (as did : List Action) (o : Out) : perform print u as did o = perform print u' as did o := by
  have key : ∀ (o : Out) (v : UserModel Dbl), v.valid ≠ some true → ∀ a, act print v o a = if a = .message then
      .ok (o.put "No output type given for compare. Please use 'md' or 'csv'.\n".toList) else .nullPointer := by
    intro o v hv a
    have hm : toMonthlyModel v = none := by unfold toMonthlyModel; split <;> [exact absurd (by assumption) hv; rfl]
    have hh : toHourlyModel v = none := by unfold toHourlyModel; split <;> [exact absurd (by assumption) hv; rfl]
    have hm' : monthlyResults v = .nullPointer := by unfold monthlyResults; rw [hm]
    have hh' : ∀ b, hourlyResults v b = .nullPointer := by intro b; unfold hourlyResults; rw [hh]
    cases a with
    | message => rfl
    | runMonthly => show (monthlyResults v).bind _ = _; rw [hm']; rfl
    | runHourly b => show (hourlyResults v b).bind _ = _; rw [hh']; rfl
    | compare b => show (hourlyResults v true).bind _ = _; rw [hh']; rfl
  induction as generalizing did o with
  | nil => rfl
  | cons a as ih =>
    unfold perform
    rw [key o u h a, key o u' h' a]
    by_cases hm : a = .message
    · rw [if_pos hm]; exact ih _ _
    · rw [if_neg hm]

theorem complete_averages (lib : Library Dbl) (w : Epw.Weather Dbl) : complete (averages lib w) = some (siteAverages lib w) := by
  unfold complete
  rw [dif_pos ⟨fun _ _ => rfl, fun _ _ => rfl, fun _ _ => rfl, fun _ => rfl, fun _ => rfl, fun _ => rfl⟩]
  rfl

/-- the hourly simulation does not use the averages -/
theorem hourly_averages (b : Bool) (p : Params Dbl) (a a' : WeatherData Dbl) (w : Epw.Weather Dbl) :
    (Hourly.simulate b ⟨simOf p a, w, Hourly.Pushed.empty⟩).map (·.2) = (Hourly.simulate b ⟨simOf p a', w, Hourly.Pushed.empty⟩).map (·.2) := by
  have run : ∀ (c : Hourly.Consts Dbl) (r : Hourly.Ratios Dbl) (is : List (Hourly.Schedule Dbl × Hourly.HourWeather Dbl)) (s : Hourly.ThermalState Dbl),
      Hourly.runHours (simOf p a) c r is s = Hourly.runHours (simOf p a') c r is s := by
    intro c r is
    induction is with
    | nil => intro s; rfl
    | cons i is ih =>
      intro s
      have h : Hourly.calculateHour (simOf p a) c r i.1 i.2 s = Hourly.calculateHour (simOf p a') c r i.1 i.2 s := rfl
      unfold Hourly.runHours
      simp only [h, ih]
  have raw : ∀ (r : Hourly.Ratios Dbl) (win : Hourly.Window), Hourly.rawResults (simOf p a) r win w = Hourly.rawResults (simOf p a') r win w := by
    intro r win
    unfold Hourly.rawResults
    have e : Hourly.hourInput (simOf p a) win w = Hourly.hourInput (simOf p a') win w := by
      funext i
      rfl
    rw [run, e]
    rfl
  have uses : ∀ rs : List (Hourly.HourResults Dbl), Hourly.endUses (simOf p a) rs = Hourly.endUses (simOf p a') rs := fun rs => rfl
  -- the year's results as a variable, so that nothing unfolds them
  have e : ∀ (a : WeatherData Dbl) (year : Hourly.Window → List (Hourly.EndUses Dbl)),
      (∀ win, Hourly.endUses (simOf p a) (Hourly.rawResults (simOf p a) (Hourly.pushAll p.bldg Hourly.Pushed.empty).ratios win w) = year win) →
      (Hourly.simulate b ⟨simOf p a, w, Hourly.Pushed.empty⟩).map (·.2) = (Hourly.window p.pop).bind fun win =>
        if b then Hourly.aggregate (year win) else some (year win) := by
    intro a year hy
    unfold Hourly.simulate
    show Option.map _ ((Hourly.window p.pop).bind _) = _
    cases Hourly.window p.pop with
    | none => rfl
    | some win =>
      rw [Option.bind_some, Option.bind_some]
      have hy' := hy win
      simp only [show (simOf p a).bldg = p.bldg from rfl, hy']
      cases b with
      | false => rfl
      | true => rw [if_pos rfl, if_pos rfl]; cases Hourly.aggregate (year win) <;> rfl
  rw [e a' _ fun _ => rfl, e a (fun win => Hourly.endUses (simOf p a') (Hourly.rawResults (simOf p a')
    (Hourly.pushAll p.bldg Hourly.Pushed.empty).ratios win w)) fun win => by rw [raw, uses]]

/-- the actions one after the other -/
noncomputable def runAll (print : Printer Dbl) (u : UserModel Dbl) : List Action → Out → Step Out
  | [], o => .ok o
  | a :: as, o => (act print u o a).bind (runAll print u as)

theorem runAll_perform (print : Printer Dbl) (u : UserModel Dbl) (as did : List Action) (o o' : Out) (h : runAll print u as o = .ok o') :
    perform print u as did o = .returns (did ++ as) o'.text := by
  induction as generalizing did o with
  | nil =>
    cases h
    rw [perform, List.append_nil]
  | cons a as ih =>
    rw [runAll] at h
    rw [perform]
    cases ha : act print u o a with
    | ok o1 =>
      rw [ha] at h
      have := ih (did ++ [a]) o1 h
      rw [List.append_assoc] at this
      exact this
    | nullPointer => rw [ha] at h; cases h
    | undefined => rw [ha] at h; cases h

theorem runAll_append (print : Printer Dbl) (u : UserModel Dbl) (as bs : List Action) (o o' : Out) (h : runAll print u as o = .ok o') :
    runAll print u (as ++ bs) o = runAll print u bs o' := by
  induction as generalizing o with
  | nil => cases h; rfl
  | cons a as ih =>
    rw [runAll] at h
    rw [List.cons_append, runAll]
    cases ha : act print u o a with
    | ok o1 => rw [ha] at h; exact ih o1 h
    | nullPointer => rw [ha] at h; cases h
    | undefined => rw [ha] at h; cases h

theorem runAll_one (print : Printer Dbl) (u : UserModel Dbl) (a : Action) (o o' : Out) (h : act print u o a = .ok o') :
    runAll print u [a] o = .ok o' := by rw [runAll, h]; rfl

variable {print : Printer Dbl} (hp : Plain print) {u : UserModel Dbl}
include hp

theorem act_monthly {m : List (Hourly.EndUses Dbl)} (hm : monthlyResults u = .ok m) (o : Out) :
    ∃ t, act print u o .runMonthly = .ok ⟨o.text ++ t, 10⟩ ∧
      readTable ',' t = resultTable (print 10) "Monthly Results:".toList "Month".toList m := by
  obtain ⟨t, h1, h2⟩ := printMonthly_eq print hp m (monthlyResults_length u m hm) o
  refine ⟨t, ?_, h2⟩
  show runMonthlySimulation print u o = _
  unfold runMonthlySimulation
  rw [hm]
  show Step.ofOption (printMonthly print m o) = _
  rw [h1]; rfl

theorem act_hourly {b : Bool} {r : List (Hourly.EndUses Dbl)} (hr : hourlyResults u b = .ok r) (o : Out) :
    ∃ t, act print u o (.runHourly b) = .ok ⟨o.text ++ t, o.precision⟩ ∧
      readTable ',' t = resultTable (print o.precision)
        (if b then "Hourly results by month:".toList else "Hourly results by hour:".toList) (if b then "month".toList else "hour".toList) r := by
  obtain ⟨t, h1, h2⟩ := printHourly_eq print hp b r (hourlyResults_length u b r hr) o
  refine ⟨t, ?_, h2⟩
  show runHourlySimulation print u b o = _
  unfold runHourlySimulation
  rw [hr]
  show Step.ofOption (printHourly print b r o) = _
  rw [h1]; rfl

theorem act_compare {m r : List (Hourly.EndUses Dbl)} (hm : monthlyResults u = .ok m) (hr : hourlyResults u true = .ok r) (b : Bool) (o : Out) :
    ∃ t, act print u o (.compare b) = .ok ⟨o.text ++ t, o.precision⟩ ∧
      readTable (separator b) t = (List.finRange 13).flatMap fun k : Fin 13 =>
        compareTable (print o.precision) b (useNames.getD k []) (m.map (· k)) (r.map (· k)) := by
  have hl := hourlyResults_length u true r hr
  rw [if_pos rfl] at hl
  obtain ⟨t, h1, h2⟩ := printCompare_eq print hp b m r (monthlyResults_length u m hm) hl o
  refine ⟨t, ?_, h2⟩
  show CommandLine.compare print u b o = _
  unfold CommandLine.compare
  rw [hr, hm]
  show Step.ofOption (printCompare print b m r o) = _
  rw [h1]; rfl

omit hp in
/-- the actions in four parts -/
theorem actions_parts (o : Options) : actions o = compareActions o ++
    ((if o.monthly = true ∨ (o.monthly = false ∧ o.hourlyByMonth = false ∧ o.hourlyByHour = false ∧ o.compare = none) then [.runMonthly] else []) ++
    ((if o.hourlyByMonth = true then [.runHourly true] else []) ++ if o.hourlyByHour = true then [.runHourly false] else [])) := by
  obtain ⟨ism, d, m, hm, hh, c⟩ := o
  cases c <;> cases m <;> cases hm <;> cases hh <;> simp [actions, compareActions]

omit hp in
/-- a part that is run or not -/
theorem runAll_if {c : Prop} [Decidable c] {a : Action} {o : Out} {q : ℕ} {P : Str → Prop}
    (h : c → ∃ t, act print u o a = .ok ⟨o.text ++ t, q⟩ ∧ P t) :
    ∃ t, runAll print u (if c then [a] else []) o = .ok ⟨o.text ++ t, if c then q else o.precision⟩ ∧ (c → P t) ∧ (¬c → t = []) := by
  by_cases hc : c
  · obtain ⟨t, h1, h2⟩ := h hc
    rw [if_pos hc, if_pos hc]
    exact ⟨t, runAll_one print u a o _ h1, fun _ => h2, fun h => absurd hc h⟩
  · rw [if_neg hc, if_neg hc]
    exact ⟨[], by rw [List.append_nil]; rfl, fun h => absurd h hc, fun _ => rfl⟩

/-- the part of a comparison -/
theorem compare_part (o : Options) {m r : List (Hourly.EndUses Dbl)}
    (hm : (o.compare = some "md".toList ∨ o.compare = some "csv".toList) → monthlyResults u = .ok m)
    (hr : (o.compare = some "md".toList ∨ o.compare = some "csv".toList) → hourlyResults u true = .ok r) :
    ∃ t, runAll print u (compareActions o) Out.start = .ok ⟨t, 6⟩ ∧
      (o.compare = some "md".toList → readTable '|' t = (List.finRange 13).flatMap fun k : Fin 13 =>
        compareTable (print 6) true (useNames.getD k []) (m.map (· k)) (r.map (· k))) ∧
      (o.compare = some "csv".toList → readTable ',' t = (List.finRange 13).flatMap fun k : Fin 13 =>
        compareTable (print 6) false (useNames.getD k []) (m.map (· k)) (r.map (· k))) ∧
      (∀ v, o.compare = some v → v ≠ "md".toList → v ≠ "csv".toList →
        t = "No output type given for compare. Please use 'md' or 'csv'.\n".toList) ∧
      (o.compare = none → t = []) := by
  have hne : "csv".toList ≠ "md".toList := by decide
  unfold compareActions
  generalize hmsg : "No output type given for compare. Please use 'md' or 'csv'.\n".toList = msg
  cases hcmp : o.compare with
  | none => exact ⟨[], rfl, nofun, nofun, nofun, fun _ => rfl⟩
  | some v =>
    rw [hcmp] at hm hr
    by_cases h1 : v = "md".toList
    · subst h1
      obtain ⟨t, ht, h2⟩ := act_compare hp (hm (Or.inl rfl)) (hr (Or.inl rfl)) true Out.start
      refine ⟨t, ?_, fun _ => h2, fun h => absurd (Option.some.inj h).symm hne, fun v h hv _ => absurd (Option.some.inj h).symm hv, nofun⟩
      simp only
      rw [if_pos trivial]
      exact runAll_one print u _ _ _ ht
    · by_cases h2 : v = "csv".toList
      · subst h2
        obtain ⟨t, ht, h2⟩ := act_compare hp (hm (Or.inr rfl)) (hr (Or.inr rfl)) false Out.start
        refine ⟨t, ?_, fun h => absurd (Option.some.inj h) hne, fun _ => h2, fun v h _ hv => absurd (Option.some.inj h).symm hv, nofun⟩
        simp only
        rw [if_neg hne, if_pos trivial]
        exact runAll_one print u _ _ _ ht
      · refine ⟨msg, ?_, fun h => absurd (Option.some.inj h) h1, fun h => absurd (Option.some.inj h) h2, fun _ _ _ _ => rfl, nofun⟩
        simp only
        rw [if_neg h1, if_neg h2]
        refine runAll_one print u _ _ _ ?_
        rw [act, hmsg]
        rfl

end ISO.Lemmas
