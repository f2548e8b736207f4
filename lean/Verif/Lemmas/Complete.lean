import Verif.Lemmas.Parameters
import Verif.Model.CommandLine
import Verif.Num.Lemmas

/-! # Lemma: an accepted file leaves no member uninitialised -/

namespace ISO.Lemmas
open ISO ISO.User ISO.Spec.Param CNum

section
variable {α : Type} [CNum α] {stod : Str → Except Properties.ConvError α} {file : Properties.Store}

omit [CNum α] in
theorem number_given {n : String} (h : judge stod file ⟨n, .number, true⟩ = .accepted) (a b : α) :
    (number stod file n).getD a = (number stod file n).getD b := by
  unfold judge at h
  simp only at h
  unfold number
  cases hg : given file n with
  | none => rw [hg] at h; cases h
  | some t =>
    rw [hg, Option.map_some] at h
    rw [Option.bind_some]
    cases hs : stod t with
    | ok v => rfl
    | error e => rw [hs] at h; cases e <;> cases h

omit [CNum α] in
theorem text_given {n : String} (h : judge stod file ⟨n, .text, true⟩ = .accepted) (a b : Str) :
    (given file n).getD a = (given file n).getD b := by
  unfold judge at h
  simp only at h
  cases hg : given file n with
  | none => rw [hg] at h; cases h
  | some t => rfl

theorem code_given {n : String} {allowed : List (String × α)} (h : judge stod file ⟨n, .keyword (allowed.map Prod.fst), true⟩ = .accepted) (a b : α) :
    (code file n allowed).getD a = (code file n allowed).getD b := by
  unfold judge at h
  simp only at h
  unfold code
  cases hg : given file n with
  | none => rw [hg] at h; cases h
  | some t =>
    rw [hg] at h
    simp only at h
    rw [Option.bind_some]
    split at h
    · rename_i hm
      rw [List.map_map, List.mem_map] at hm
      obtain ⟨p, hp, e⟩ := hm
      cases hf : allowed.find? (fun a => decide (lower t = a.1.toList)) with
      | none =>
        rw [List.find?_eq_none] at hf
        exact absurd (hf p hp) (by simp [← e])
      | some v => rfl
    · cases h

/-- the nine facade vectors start as zeros, so nothing is to be shown about them; every other required value is given -/
theorem stored_new (h : ∀ r ∈ table, judge stod file r = .accepted) (junk junk' : Params α) :
    stored stod file (newObject junk) = stored stod file (newObject junk') := by
  have e : ∀ n, ⟨n, .number, true⟩ ∈ table → ∀ a b : α, (number stod file n).getD a = (number stod file n).getD b :=
    fun n hn => number_given (h _ hn)
  have c : ∀ n (allowed : List (String × α)), ⟨n, .keyword (allowed.map Prod.fst), true⟩ ∈ table → ∀ a b : α,
      (code file n allowed).getD a = (code file n allowed).getD b :=
    fun n al hn => code_given (h _ hn)
  have w : ∀ a b : Str, (given file "weatherfilepath").getD a = (given file "weatherfilepath").getD b :=
    text_given (stod := stod) (h _ (by decide +kernel))
  unfold stored newObject
  congr 1
  all_goals first
    | (refine e _ ?_ _ _; decide +kernel)
    | exact w _ _
    | (congr 1 <;> first
        | rfl
        | (refine e _ ?_ _ _; decide +kernel)
        | (refine c _ _ ?_ _ _; simp only [List.map_cons, List.map_nil]; decide +kernel))

end

/-- a judgement does not depend on the numbers read -/
theorem judge_map {α β : Type} (stod : Str → Except Properties.ConvError α) (f : α → β) (file : Properties.Store)
    (stod' : Str → Except Properties.ConvError β) (h : ∀ t, stod' t = (stod t).map f) (r : Row) :
    judge stod' file r = judge stod file r := by
  have all : ∀ ts, Properties.stodAll stod' ts = (Properties.stodAll stod ts).map (List.map f) := by
    intro ts
    induction ts with
    | nil => rfl
    | cons t ts ih =>
      unfold Properties.stodAll
      rw [h, ih]
      cases stod t with
      | error e => rfl
      | ok x =>
        simp only [Except.map]
        cases Properties.stodAll stod ts <;> rfl
  unfold judge
  cases r.kind with
  | number =>
    simp only
    cases given file r.name with
    | none => rfl
    | some t =>
      rw [Option.map_some, Option.map_some, h]
      cases stod t with
      | ok v => rfl
      | error e => cases e <;> rfl
  | facades =>
    simp only
    cases given file r.name with
    | none => rfl
    | some t =>
      simp only [all]
      cases Properties.tokens t with
      | error e => rfl
      | ok ts =>
        simp only
        cases Properties.stodAll stod ts with
        | ok v => simp only [Except.map, List.length_map]
        | error e => cases e <;> rfl
  | _ => rfl

/-! ### finite numbers -/

open Dbl

/-- the number, 0 for the others -/
noncomputable def toReal : Dbl → ℝ
  | .fin r => r
  | _ => 0

theorem toReal_of {v : Dbl} (h : ∃ r, v = fin r) : fin (toReal v) = v := by
  obtain ⟨r, rfl⟩ := h
  rfl

section
variable {stod : Str → Except Properties.ConvError Dbl} (hs : ∀ t v, stod t = .ok v → ∃ r, v = fin r) {file : Properties.Store}
include hs

theorem number_fin {n : String} {v : Dbl} (h : number stod file n = some v) : ∃ r, v = fin r := by
  unfold number at h
  rw [Option.bind_eq_some_iff] at h
  obtain ⟨t, -, h⟩ := h
  cases hst : stod t with
  | ok v' =>
    rw [hst] at h
    exact Option.some.inj h ▸ hs t v' hst
  | error e => rw [hst] at h; cases h

theorem stodAll_fin {ts : List Str} {vs : List Dbl} (h : Properties.stodAll stod ts = .ok vs) : ∀ v ∈ vs, ∃ r, v = fin r := by
  induction ts generalizing vs with
  | nil => cases h; simp
  | cons t ts ih =>
    unfold Properties.stodAll at h
    cases h1 : stod t with
    | error e => rw [h1] at h; cases h
    | ok x =>
      rw [h1] at h
      simp only at h
      cases h2 : Properties.stodAll stod ts with
      | error e => rw [h2] at h; cases h
      | ok xs =>
        rw [h2] at h
        cases h
        intro v hv
        rcases List.mem_cons.mp hv with rfl | hv
        · exact hs t v h1
        · exact ih h2 v hv

theorem facades_fin (n : String) (a : Fin 9 → Dbl) (ha : ∀ i, ∃ r, a i = fin r) (i : Fin 9) :
    fin (toReal ((facades stod file n).getD a i)) = (facades stod file n).getD a i := by
  apply toReal_of
  cases hf : facades stod file n with
  | none => exact ha i
  | some f =>
    unfold facades at hf
    split at hf
    · rename_i n' ne e se s sw w nw roof hg
      cases hf
      have hall : ∀ v ∈ [n', ne, e, se, s, sw, w, nw, roof], ∃ r, v = fin r := by
        unfold Properties.getPropertyAsDoubleVector at hg
        split at hg
        · cases hg
        · split at hg
          · cases hg
          · split at hg
            · rename_i xs hx
              cases hg
              exact stodAll_fin hs hx
            · cases hg
            · cases hg
      simp only [List.mem_cons, List.not_mem_nil, or_false, forall_eq_or_imp, forall_eq] at hall
      obtain ⟨h1, h2, h3, h4, h5, h6, h7, h8, h9⟩ := hall
      rw [Option.getD_some]
      fin_cases i <;> assumption
    · cases hf

theorem number_real {n : String} (h : judge stod file ⟨n, .number, true⟩ = .accepted) (a : Dbl) :
    fin (toReal ((number stod file n).getD a)) = (number stod file n).getD a := by
  rw [number_given h a (fin 0)]
  apply toReal_of
  cases hn : number stod file n with
  | none => exact ⟨0, rfl⟩
  | some v => exact number_fin hs hn

theorem optional_real (n : String) {a : Dbl} (ha : ∃ r, a = fin r) :
    fin (toReal ((number stod file n).getD a)) = (number stod file n).getD a := by
  apply toReal_of
  cases hn : number stod file n with
  | none => exact ha
  | some v => exact number_fin hs hn

omit hs in
theorem code_real {n : String} {allowed : List (String × Dbl)} (h : judge stod file ⟨n, .keyword (allowed.map Prod.fst), true⟩ = .accepted)
    (ha : ∀ p ∈ allowed, ∃ r, p.2 = fin r) (a : Dbl) : fin (toReal ((code file n allowed).getD a)) = (code file n allowed).getD a := by
  rw [code_given h a (fin 0)]
  apply toReal_of
  cases hn : code file n allowed with
  | none => exact ⟨0, rfl⟩
  | some v =>
    unfold code at hn
    rw [Option.bind_eq_some_iff] at hn
    obtain ⟨t, -, hn⟩ := hn
    rw [Option.map_eq_some_iff] at hn
    obtain ⟨p, hp, rfl⟩ := hn
    exact ha p (List.mem_of_find?_eq_some hp)

set_option maxRecDepth 2000 in
/-- if all numbers are finite, so is every number the simulations read -/
theorem stored_real (h : ∀ r ∈ table, judge stod file r = .accepted) (junk : Params Dbl) (w : WeatherData ℝ) :
    ∃ x : Sim ℝ, CommandLine.simOf (stored stod file (newObject junk)) (w.map fin) = x.map fin ∧ x.weather = w := by
  have e : ∀ n, ⟨n, .number, true⟩ ∈ table → ∀ a : Dbl, fin (toReal ((number stod file n).getD a)) = (number stod file n).getD a :=
    fun n hn => number_real hs (h _ hn)
  have c : ∀ n (allowed : List (String × Dbl)), ⟨n, .keyword (allowed.map Prod.fst), true⟩ ∈ table → (∀ p ∈ allowed, ∃ r, p.2 = fin r) → ∀ a : Dbl,
      fin (toReal ((code file n allowed).getD a)) = (code file n allowed).getD a :=
    fun n al hn ha => code_real (h _ hn) ha
  have o : ∀ n {a : Dbl}, (∃ r, a = fin r) → fin (toReal ((number stod file n).getD a)) = (number stod file n).getD a := optional_real hs
  have f := facades_fin hs (file := file)
  refine ⟨(CommandLine.simOf (stored stod file (newObject junk)) (w.map fin)).map toReal, ?_, rfl⟩
  dsimp only [stored, newObject, CommandLine.simOf, Sim.map, Population.map, Lighting.map, Building.map, Structure.map, Heating.map, Cooling.map,
    Ventilation.map, PhysicalQuantities.map, SimulationSettings.map]
  congr 1
  all_goals try first
    | (refine (e _ ?_ _).symm; decide +kernel)
    | rfl
  all_goals congr 1
  all_goals try first
    | (refine (e _ ?_ _).symm; decide +kernel)
    | (refine (o _ ?_).symm; exact ⟨_, rfl⟩)
    | (funext i; refine (f _ _ (fun _ => ?_) i).symm; exact ⟨_, rfl⟩)
  all_goals
    refine (c _ _ ?_ ?_ _).symm
    · simp only [List.map_cons, List.map_nil]; decide +kernel
    · simp only [List.mem_cons, List.not_mem_nil, or_false, forall_eq_or_imp, forall_eq]
      refine ⟨⟨_, rfl⟩, ?_⟩
      first | exact ⟨_, rfl⟩ | exact ⟨⟨_, rfl⟩, _, rfl⟩

end
end ISO.Lemmas
