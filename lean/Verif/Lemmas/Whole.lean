import Verif.Lemmas.Complete
import Verif.Lemmas.Program

/-! # Lemmas: files of finite numbers -/

namespace ISO.Lemmas
open ISO ISO.User ISO.Spec.Param CNum Dbl

/-- the number itself, 0 instead of an infinity or NaN -/
noncomputable def finitely (v : Dbl) : Dbl := fin (toReal v)

theorem finitely_of {v : Dbl} (h : ∃ r, v = fin r) : finitely v = v := toReal_of h

section
variable (stod : Str → Except Properties.ConvError Dbl)

/-- reading numbers with 0 for infinities and NaN -/
noncomputable def finiteStod (t : Str) : Except Properties.ConvError Dbl := (stod t).map finitely

theorem finiteStod_fin (t : Str) (v : Dbl) (h : finiteStod stod t = .ok v) : ∃ r, v = fin r := by
  unfold finiteStod at h
  cases hs : stod t with
  | ok x => rw [hs] at h; cases h; exact ⟨_, rfl⟩
  | error e => rw [hs] at h; cases h

theorem stodAll_finite (ts : List Str) : Properties.stodAll (finiteStod stod) ts = (Properties.stodAll stod ts).map (List.map finitely) := by
  induction ts with
  | nil => rfl
  | cons t ts ih =>
    unfold Properties.stodAll
    rw [finiteStod, ih]
    cases stod t with
    | error e => rfl
    | ok x =>
      simp only [Except.map]
      cases Properties.stodAll stod ts <;> rfl

variable {stod} {file : Properties.Store}

theorem number_finite (h : ∀ name v, number stod file name = some v → ∃ r, v = fin r) : number (finiteStod stod) file = number stod file := by
  funext name
  have hn := h name
  unfold number at hn ⊢
  revert hn
  cases given file name with
  | none => exact fun _ => rfl
  | some t =>
    intro hn
    rw [Option.bind_some] at hn ⊢
    rw [Option.bind_some, finiteStod]
    cases hs : stod t with
    | error e => rfl
    | ok x =>
      have := finitely_of (hn x (by rw [hs]; rfl))
      simp only [Except.map, Except.toOption]
      rw [this]

theorem vector_finite (name : Str) : Properties.getPropertyAsDoubleVector (finiteStod stod) name file =
    (Properties.getPropertyAsDoubleVector stod name file).map (Option.map (List.map finitely)) := by
  unfold Properties.getPropertyAsDoubleVector
  cases Properties.getProperty name file with
  | none => rfl
  | some t =>
    simp only
    cases Properties.tokens t with
    | error e => rfl
    | ok ts =>
      simp only [stodAll_finite]
      cases Properties.stodAll stod ts with
      | error e => cases e <;> rfl
      | ok xs => rfl

theorem facades_finite (h : ∀ name f, facades stod file name = some f → ∀ i, ∃ r, f i = fin r) :
    facades (finiteStod stod) file = facades stod file := by
  funext name
  have hn := h name
  unfold facades at hn ⊢
  rw [vector_finite]
  revert hn
  rcases Properties.getPropertyAsDoubleVector stod name.toList file with e | _ | l
  · exact fun _ => rfl
  · exact fun _ => rfl
  · intro hn
    rcases l with _ | ⟨n, _ | ⟨ne, _ | ⟨e, _ | ⟨se, _ | ⟨s, _ | ⟨sw, _ | ⟨w, _ | ⟨nw, _ | ⟨roof, _ | ⟨x, l⟩⟩⟩⟩⟩⟩⟩⟩⟩⟩ <;> try rfl
    have hall := fun i => finitely_of (hn _ rfl i)
    have k0 : finitely s = s := hall 0
    have k1 : finitely se = se := hall 1
    have k2 : finitely e = e := hall 2
    have k3 : finitely ne = ne := hall 3
    have k4 : finitely n = n := hall 4
    have k5 : finitely nw = nw := hall 5
    have k6 : finitely w = w := hall 6
    have k7 : finitely sw = sw := hall 7
    have k8 : finitely roof = roof := hall 8
    simp only [Except.map, Option.map_some, List.map_cons, List.map_nil, k0, k1, k2, k3, k4, k5, k6, k7, k8]

/-- if all numbers of the file are finite, nothing else is stored -/
theorem stored_finite (h1 : ∀ name v, number stod file name = some v → ∃ r, v = fin r)
    (h2 : ∀ name f, facades stod file name = some f → ∀ i, ∃ r, f i = fin r) (u : Params Dbl) :
    stored (finiteStod stod) file u = stored stod file u := by
  unfold stored
  rw [number_finite h1, facades_finite h2]

theorem judge_finite (r : Row) : judge (finiteStod stod) file r = judge stod file r := judge_map stod finitely file (finiteStod stod) (fun _ => rfl) r

end
end ISO.Lemmas
