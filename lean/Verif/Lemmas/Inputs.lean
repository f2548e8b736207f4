import Verif.Model.CommandLine

/-! Helper lemmas: loading the weather. -/

namespace ISO.Lemmas
open ISO ISO.User ISO.Epw

variable {α : Type} [CNum α] [OfInt α]

/-- loading the weather of a user model, by the file that is found -/
theorem loadWeather_file (lib : Library α) (fs : FileSystem) (u : UserModel α) (f : Str) (found : Bool) (h : weatherFile fs u = (f, found)) :
    loadWeather lib fs u = match fillWeather lib { u with valid := if found then u.valid else some false,
                                                          edata := loadFile lib.atof (fs.read f) u.edata } with
      | none => .undefined
      | some u => .ok { u with location := some u.weather } := by
  unfold loadWeather
  rw [h]
  cases found <;> rfl

theorem fillWeather_some {lib : Library α} {x y : UserModel α} (h : fillWeather lib x = some y) :
    ∃ heap, y = { x with heap := heap } := by
  unfold fillWeather at h
  cases h1 : toWeather x.edata with
  | none => rw [h1] at h; cases h
  | some w =>
    rw [h1, Option.bind_eq_bind, Option.bind_some] at h
    cases h2 : WeatherText.toISOData lib.fmt w with
    | none => rw [h2] at h; cases h
    | some t =>
      rw [h2, Option.bind_eq_bind, Option.bind_some, Option.some.injEq] at h
      exact ⟨_, h.symm⟩

end ISO.Lemmas
