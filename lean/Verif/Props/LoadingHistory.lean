import Verif.Props.Loading

/-!
# C10: the last call of a history, and the mark set by hand
-/

namespace ISO.Props
open ISO ISO.Spec ISO.Epw ISO.WeatherText ISO.User CNum Dbl

/-- what a call that returns leaves -/
def returned {α : Type} : Result α → Option α
  | .ok u => some u
  | _ => none

theorem run_after (lib : Library Dbl) (ops last : List (FileSystem × Op Dbl)) (u₀ u : UserModel Dbl) (h : run lib ops u₀ = some u) :
    run lib (ops ++ last) u₀ = run lib last u := by
  rw [run_append, h]; rfl

theorem run_one (lib : Library Dbl) (fs : FileSystem) (op : Op Dbl) (u : UserModel Dbl) : run lib [(fs, op)] u = returned (step lib fs op u) := by
  cases hs : step lib fs op u <;> simp only [run, hs, returned]

/-- C10: a load at the end of any history acts on the object that the calls before it left. -/
theorem C10_last (lib : Library Dbl) (ops : List (FileSystem × Op Dbl)) (fs : FileSystem) (u₀ u : UserModel Dbl) (h : run lib ops u₀ = some u) :
    (∀ f, run lib (ops ++ [(fs, .load f)]) u₀ = returned (load lib fs f u)) ∧
    (∀ f d, run lib (ops ++ [(fs, .loadWithDefaults f d)]) u₀ = returned (loadWithDefaults lib fs f d u)) ∧
    run lib (ops ++ [(fs, .loadWeather)]) u₀ = returned (loadWeather lib fs u) ∧
    run lib (ops ++ [(fs, .loadAndSetWeather)]) u₀ = returned (loadAndSetWeather lib fs u) ∧
    ∀ n data, run lib (ops ++ [(fs, .loadWeatherBlock n data)]) u₀ = returned (loadWeatherBlock lib n data u) := by
  refine ⟨?_, ?_, ?_, ?_, ?_⟩ <;> intros <;> rw [run_after lib ops _ u₀ u h, run_one] <;> rfl

/-- C10, the mark set by hand: after any history it decides alone whether simulations can be built; parameters and weather stay. -/
theorem C10_byHand (lib : Library Dbl) (ops : List (FileSystem × Op Dbl)) (fs : FileSystem) (u₀ u : UserModel Dbl)
    (h : run lib ops u₀ = some u) (b : Bool) :
    ∃ u', run lib (ops ++ [(fs, .setValid b)]) u₀ = some u' ∧ u'.valid = some b ∧
      ((∃ m, toHourlyModel u' = some m) ↔ b = true) ∧ ((∃ m, toMonthlyModel u' = some m) ↔ b = true) ∧
      u'.params = u.params ∧ u'.edata = u.edata ∧ u'.location = u.location ∧ u'.heap = u.heap := by
  refine ⟨{ u with valid := some b }, by rw [run_after lib ops _ u₀ u h, run_one]; rfl, rfl, ?_, ?_, rfl, rfl, rfl, rfl⟩
  · rw [(C10_build _).1]; simp
  · rw [(C10_build _).2]; simp

/-- C10, a setter called by hand: after any history it changes the parameters by what it does to them, and nothing else, so whether
simulations can be built does not depend on it. -/
theorem C10_setter (lib : Library Dbl) (ops : List (FileSystem × Op Dbl)) (fs : FileSystem) (u₀ u : UserModel Dbl)
    (h : run lib ops u₀ = some u) (f : Params Dbl → Params Dbl) :
    ∃ u', run lib (ops ++ [(fs, .set f)]) u₀ = some u' ∧ u'.params = f u.params ∧ u'.valid = u.valid ∧
      u'.edata = u.edata ∧ u'.location = u.location ∧ u'.heap = u.heap ∧
      ((∃ m, toHourlyModel u' = some m) ↔ ∃ m, toHourlyModel u = some m) ∧ ((∃ m, toMonthlyModel u' = some m) ↔ ∃ m, toMonthlyModel u = some m) := by
  refine ⟨{ u with params := f u.params }, by rw [run_after lib ops _ u₀ u h, run_one]; rfl, rfl, rfl, rfl, rfl, rfl, ?_, ?_⟩
  · rw [(C10_build _).1, (C10_build _).1]
  · rw [(C10_build _).2, (C10_build _).2]

/-- C10, why `C10_ready` leaves out the mark set by hand: on a new object it gives a model that can be built and has no weather. -/
theorem C10_byHand_unready (lib : Library Dbl) (fs : FileSystem) (junk : Params Dbl) :
    ∃ u m, run lib [(fs, .setValid true)] (newUserModel junk) = some u ∧ toMonthlyModel u = some m ∧ monthlyWeather u m = none ∧
      hourlyWeather u m = none := by
  refine ⟨{ newUserModel junk with valid := some true }, ⟨newObject junk, none⟩, rfl, rfl, rfl, ?_⟩
  rfl

/-- a history that returns, for the theorems above: the mark set by hand twice -/
example (lib : Library Dbl) (fs : FileSystem) (junk : Params Dbl) :
    ∃ u, run lib [(fs, .setValid true), (fs, .set fun p => p), (fs, .setValid false)] (newUserModel junk) = some u := ⟨_, rfl⟩

end ISO.Props
