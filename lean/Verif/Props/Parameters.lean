import Verif.Lemmas.Parameters
import Verif.Lemmas.PropertiesRead
import Verif.Props.Solar
import Verif.Props.EndUses

/-!
# C06: required and optional parameters; C07: facade vectors; C45: keywords
-/

namespace ISO.Props
open ISO ISO.User ISO.Spec.Param CNum

section
variable {α : Type} [CNum α] (stod : Str → Except Properties.ConvError α) (file : Properties.Store)

/-- C06: if every parameter is acceptable the load succeeds, each parameter given is in its own field and every field not
given has the value it had before. -/
theorem C06_success (u : Params α) (h : ∀ r ∈ table, judge stod file r = .accepted) :
    loadParameters stod file u = .ok (stored stod file u) := by
  obtain ⟨g, hg, hs⟩ := calls_chain stod file
  rw [loadParameters, chain_ok stod file hg h, hs]

/-- C06: otherwise the first parameter in the order of the table that is not acceptable decides: an exception that names
it if it is missing, an exception for a number out of range, a wrong number of facade values or an unknown keyword,
undefined behaviour for a vector of fewer than eight numbers. -/
theorem C06_failure (u : Params α) (pre post : List Row) (r : Row) (ht : table = pre ++ r :: post)
    (hp : ∀ r ∈ pre, judge stod file r = .accepted) :
    (judge stod file r = .missing → ∃ u', loadParameters stod file u = .throw (.missing r.name.toList) u') ∧
    (judge stod file r = .outOfRange → ∃ u', loadParameters stod file u = .throw (.conversion .outOfRange) u') ∧
    (judge stod file r = .wrongCount → ∃ u', loadParameters stod file u = .throw .wrongCount u') ∧
    (judge stod file r = .badKeyword → ∃ u', loadParameters stod file u = .throw .badKeyword u') ∧
    (judge stod file r = .undefined → loadParameters stod file u = .undefined) := by
  obtain ⟨g, hg, -⟩ := calls_chain stod file
  have key := fun hr => chain_fail stod file hg pre post r ht hp hr u
  refine ⟨fun h => ?_, fun h => ?_, fun h => ?_, fun h => ?_, fun h => ?_⟩
  all_goals
    obtain ⟨u', e⟩ := key (by rw [h]; decide)
    rw [h] at e
    first | exact ⟨u', e⟩ | exact e

/-- C06: the load succeeds exactly when every parameter is acceptable. -/
theorem C06_iff (u : Params α) :
    (∃ u', loadParameters stod file u = .ok u') ↔ ∀ r ∈ table, judge stod file r = .accepted := by
  constructor
  · rintro ⟨u', hu⟩ 
    by_contra hc
    push Not at hc
    -- the first row that is not accepted
    have first : ∀ rs : List Row, (∃ r ∈ rs, judge stod file r ≠ .accepted) →
        ∃ pre r post, rs = pre ++ r :: post ∧ (∀ r ∈ pre, judge stod file r = .accepted) ∧ judge stod file r ≠ .accepted := by
      intro rs
      induction rs with
      | nil => rintro ⟨r, hr, -⟩; cases hr
      | cons a rs ih =>
        intro h
        by_cases ha : judge stod file a = .accepted
        · obtain ⟨r, hr, hn⟩ := h
          obtain ⟨pre, r', post, e, h1, h2⟩ := ih ⟨r, (List.mem_cons.mp hr).resolve_left (fun e => hn (e ▸ ha)), hn⟩
          refine ⟨a :: pre, r', post, by rw [e]; rfl, ?_, h2⟩
          intro x hx
          rcases List.mem_cons.mp hx with rfl | hx
          · exact ha
          · exact h1 x hx
        · exact ⟨[], a, rs, rfl, by simp, ha⟩
    obtain ⟨pre, r, post, e, h1, h2⟩ := first table hc
    obtain ⟨g, hg, -⟩ := calls_chain stod file
    obtain ⟨u'', e'⟩ := chain_fail stod file hg pre post r e h1 h2 u
    rw [loadParameters, e'] at hu
    cases hj : judge stod file r <;> rw [hj] at hu h2 <;> first | exact h2 rfl | (simp only [outcome] at hu; cases hu)
  · intro h
    exact ⟨_, C06_success stod file u h⟩

/-- C06: a load that ends with an exception is not undone: exactly the parameters listed before the one that is not
acceptable have been stored, as if the file had named only those. -/
theorem C06_kept (u u' : Params α) (e : LoadError) (h : loadParameters stod file u = .throw e u') :
    ∃ pre r post, table = pre ++ r :: post ∧ (∀ x ∈ pre, judge stod file x = .accepted) ∧ judge stod file r ≠ .accepted ∧
      u' = stored stod (only file pre) u := by
  rcases first_refused stod file table with ha | ⟨pre, r, post, ht, hp, hr⟩
  · rw [C06_success stod file u ha] at h
    cases h
  · refine ⟨pre, r, post, ht, hp, hr, ?_⟩
    obtain ⟨g, hg, -⟩ := calls_chain stod file
    obtain ⟨g', hg', hs⟩ := calls_chain stod (only file pre)
    obtain ⟨h1, h2⟩ := given_only file pre post r ht
    rw [loadParameters, chain_kept stod file hg hg' pre post r ht hp hr h1 h2 u, hs] at h
    cases hj : judge stod file r <;> rw [hj] at h <;> simp only [outcome] at h <;> cases h <;> rfl

set_option maxRecDepth 4000 in
/-- C06: in a new object, an optional parameter that is not given has its default. -/
theorem C06_defaults (junk : Params α) :
    (∀ d ∈ (defaults : List (String × (Params α → α) × α)), given file d.1 = none → d.2.1 (stored stod file (newObject junk)) = d.2.2) ∧
    (given file "forcedaircooling" = none → (stored stod file (newObject junk)).cooling.forcedAirCooling = true) ∧
    (given file "forcedairheating" = none → (stored stod file (newObject junk)).heating.forcedAirHeating = true) ∧
    (given file "vent_rate_flag" = none → (stored stod file (newObject junk)).ventilation.vent_rate_flag = 1) := by
  refine ⟨?_, fun h => ?_, fun h => ?_, fun h => ?_⟩
  · unfold defaults
    simp only [List.forall_mem_cons, List.not_mem_nil, false_imp_iff, implies_true, and_true]
    refine ⟨?_, ?_, ?_, ?_, ?_, ?_, ?_, ?_, ?_, ?_, ?_, ?_, ?_, ?_, ?_, ?_, ?_, ?_, ?_, ?_, ?_, ?_, ?_, ?_, ?_, ?_, ?_, ?_, ?_, ?_, ?_, ?_, ?_, ?_, ?_, ?_, ?_, ?_, ?_, ?_, ?_, ?_, ?_, ?_, ?_, ?_, ?_, ?_, ?_, ?_, ?_, ?_, ?_, ?_, ?_, ?_, ?_, ?_, ?_⟩
    all_goals
      intro h
      simp only [stored, number, h, Option.bind_none, Option.getD_none, newObject]
  · simp only [stored, boolean, h, Option.bind_none, Option.getD_none, newObject]
  · simp only [stored, boolean, h, Option.bind_none, Option.getD_none, newObject]
  · simp only [stored, integer, h, Option.bind_none, Option.getD_none, newObject]

end

/-! ### C07 -/

/-- position in an .ism vector: N, NE, E, SE, S, SW, W, NW, Roof -/
def filePosition : Facade → Fin 9
  | .N => 0 | .NE => 1 | .E => 2 | .SE => 3 | .S => 4 | .SW => 5 | .W => 6 | .NW => 7 | .roof => 8

/-- the direction a facade faces, in degrees from south, west positive; `none` for the roof -/
noncomputable def faces : Facade → Option ℝ
  | .N => some 180 | .NE => some (-135) | .E => some (-90) | .SE => some (-45) | .S => some 0
  | .SW => some 45 | .W => some 90 | .NW => some 135 | .roof => none

/-- C07: each orientation's value in the file ends in the slot read by the accessors of that orientation. -/
theorem C07_order {α : Type} (v : List α) (h : v.length = 9) :
    ∃ w, ∃ hw : w.length = 9, northToSouth v = some w ∧ ∀ f, w[(slot f).1]'(by rw [hw]; exact (slot f).2) = v[(filePosition f).1]'(by rw [h]; exact (filePosition f).2) := by
  rcases v with - | ⟨a, - | ⟨b, - | ⟨c, - | ⟨d, - | ⟨e, - | ⟨f, - | ⟨g, - | ⟨k, - | ⟨r, t⟩⟩⟩⟩⟩⟩⟩⟩⟩
  all_goals try (simp only [List.length_cons, List.length_nil] at h; omega)
  refine ⟨_, ?_, rfl, ?_⟩
  · simpa using h
  · intro x
    cases x <;> rfl

/-- C07: the solar calculation takes the slot of an orientation to face that way. -/
theorem C07_azimuth (f : Facade) (d : ℝ) (h : faces f = some d) :
    ∃ hk : (slot f).1 < 8, (Solar.surfaceAzimuths ⟨(slot f).1, hk⟩ : ℝ) = Spec.Sun.deg d := by
  cases f <;> simp only [faces, Option.some.injEq, reduceCtorEq] at h <;> subst h <;>
    exact ⟨by decide, SunLemmas.facing_eq _⟩

/-- C07: re-ordering twice restores the vector. -/
theorem C07_twice {α : Type} (v w : List α) (h : northToSouth v = some w) : northToSouth w = some v := by
  rcases v with - | ⟨a, - | ⟨b, - | ⟨c, - | ⟨d, - | ⟨e, - | ⟨f, - | ⟨g, - | ⟨k, t⟩⟩⟩⟩⟩⟩⟩⟩
  all_goals first
    | (simp only [northToSouth, Option.some.injEq] at h; subst h; rfl)
    | cases h

/-- C07: with fewer than eight entries the program reads out of bounds. -/
theorem C07_short {α : Type} (v : List α) : northToSouth v = none ↔ v.length < 8 := by
  constructor
  · intro h
    by_contra hc
    obtain ⟨w, hw, -⟩ := northToSouth_some (Nat.not_lt.mp hc)
    rw [hw] at h; cases h
  · exact northToSouth_none

/-! ### C45 -/

section
variable {α : Type} [CNum α]

/-- C45: the heating fuel keyword -/
theorem C45_heating (t : Str) (u : Params α) :
    (lower t = "electric".toList → setHeatingEnergyCarrier t u = .ok { u with heating := { u.heating with energyType := 1.0 } }) ∧
    (lower t = "gas".toList → setHeatingEnergyCarrier t u = .ok { u with heating := { u.heating with energyType := 2.0 } }) ∧
    (lower t ∉ ["electric".toList, "gas".toList] → setHeatingEnergyCarrier t u = .error .badKeyword) := by
  refine ⟨fun h => ?_, fun h => ?_, fun h => ?_⟩
  · rw [setHeatingEnergyCarrier, if_pos h]
  · rw [setHeatingEnergyCarrier, if_neg (by rw [h]; decide), if_pos h]
  · simp only [List.mem_cons, List.not_mem_nil, or_false, not_or] at h
    rw [setHeatingEnergyCarrier, if_neg h.1, if_neg h.2]

/-- C45: the hot water fuel keyword -/
theorem C45_hotWater (t : Str) (u : Params α) :
    (lower t = "electric".toList → setDhwEnergyCarrier t u = .ok { u with heating := { u.heating with hotWaterEnergyType := 1.0 } }) ∧
    (lower t = "gas".toList → setDhwEnergyCarrier t u = .ok { u with heating := { u.heating with hotWaterEnergyType := 2.0 } }) ∧
    (lower t ∉ ["electric".toList, "gas".toList] → setDhwEnergyCarrier t u = .error .badKeyword) := by
  refine ⟨fun h => ?_, fun h => ?_, fun h => ?_⟩
  · rw [setDhwEnergyCarrier, if_pos h]
  · rw [setDhwEnergyCarrier, if_neg (by rw [h]; decide), if_pos h]
  · simp only [List.mem_cons, List.not_mem_nil, or_false, not_or] at h
    rw [setDhwEnergyCarrier, if_neg h.1, if_neg h.2]

/-- C45: the ventilation keyword -/
theorem C45_ventilation (t : Str) (u : Params α) :
    (lower t = "mechanical".toList → setVentilationType t u = .ok { u with ventilation := { u.ventilation with ventType := 1.0 } }) ∧
    (lower t = "combined".toList → setVentilationType t u = .ok { u with ventilation := { u.ventilation with ventType := 2.0 } }) ∧
    (lower t = "natural".toList → setVentilationType t u = .ok { u with ventilation := { u.ventilation with ventType := 3.0 } }) ∧
    (lower t ∉ ["mechanical".toList, "combined".toList, "natural".toList] → setVentilationType t u = .error .badKeyword) := by
  refine ⟨fun h => ?_, fun h => ?_, fun h => ?_, fun h => ?_⟩
  · rw [setVentilationType, if_pos h]
  · rw [setVentilationType, if_neg (by rw [h]; decide), if_pos h]
  · rw [setVentilationType, if_neg (by rw [h]; decide), if_neg (by rw [h]; decide), if_pos h]
  · simp only [List.mem_cons, List.not_mem_nil, or_false, not_or] at h
    rw [setVentilationType, if_neg h.1, if_neg h.2.1, if_neg h.2.2]

/-- C45: the energy management keyword -/
theorem C45_management (t : Str) (u : Params α) :
    (lower t = "none".toList → setBemType t u = .ok { u with building := { u.building with buildingEnergyManagement := 1.0 } }) ∧
    (lower t = "simple".toList → setBemType t u = .ok { u with building := { u.building with buildingEnergyManagement := 2.0 } }) ∧
    (lower t = "advanced".toList → setBemType t u = .ok { u with building := { u.building with buildingEnergyManagement := 3.0 } }) ∧
    (lower t ∉ ["none".toList, "simple".toList, "advanced".toList] → setBemType t u = .error .badKeyword) := by
  refine ⟨fun h => ?_, fun h => ?_, fun h => ?_, fun h => ?_⟩
  · rw [setBemType, if_pos h]
  · rw [setBemType, if_neg (by rw [h]; decide), if_pos h]
  · rw [setBemType, if_neg (by rw [h]; decide), if_neg (by rw [h]; decide), if_pos h]
  · simp only [List.mem_cons, List.not_mem_nil, or_false, not_or] at h
    rw [setBemType, if_neg h.1, if_neg h.2.1, if_neg h.2.2]

end

/-- C45: a rejected keyword ends the load with an exception and leaves the model as it was. -/
theorem C45_reject {α : Type} [CNum α] (stod : Str → Except Properties.ConvError α) (file : Properties.Store) (c : Call α)
    (set : Str → Params α → Except LoadError (Params α)) (hc : c.setter = .string set) (t : Str) (u : Params α)
    (hg : Properties.getProperty c.name file = some t) (h : set t u = .error .badKeyword) :
    initializeParameter stod file c u = .throw .badKeyword u := by
  unfold initializeParameter
  rw [hc]
  simp only [hg, h, ofSetter]

/-- C45: the codes are the ones the hourly simulation tests: after the keyword "gas" no heating is booked to electricity,
after "electric" none to gas. -/
theorem C45_effect (t : Str) (u u' : Params Dbl) (hs : setHeatingEnergyCarrier t u = .ok u') (m m' : Hourly.Model Dbl)
    (hm : m.sim.heating = u'.heating) (hourly : List (Hourly.EndUses Dbl)) (h : Hourly.simulate false m = some (m', hourly)) (i : ℕ)
    (hi : i < hourly.length) :
    (lower t = "gas".toList → hourly[i] 0 = .fin 0) ∧ (lower t = "electric".toList → hourly[i] 9 = .fin 0) := by
  have k := C25_split m h i hi
  constructor
  · intro ht
    rw [(C45_heating t u).2.1 ht] at hs
    apply k.2.1
    rw [hm, ← Except.ok.inj hs]
    show (2.0 : Dbl) ≠ .fin 1
    rw [Dbl.fin_lit]
    intro e
    have := Dbl.fin.inj e
    norm_num at this
  · intro ht
    rw [(C45_heating t u).1 ht] at hs
    apply k.1
    rw [hm, ← Except.ok.inj hs]
    show (1.0 : Dbl) = .fin 1
    rw [Dbl.fin_lit]
    norm_num

/-! ### hypotheses met -/

/-- a file that gives every required parameter, one optional one, and an unreadable optional one -/
def smallFile : Properties.Store :=
  ((table.filter (·.required)).map fun r =>
    (lower r.name.toList, match r.kind with
      | .facades => "1,2,3,4,5,6,7,8,9".toList
      | .keyword allowed => (allowed.getD 1 "").toList.map Char.toUpper
      | _ => "12".toList)) ++ [("hci".toList, "7".toList), ("hri".toList, "x".toList)]

/-- reads whole numbers -/
def readWhole (t : Str) : Except Properties.ConvError ℕ := (Properties.stoi t).map Int.toNat

example : ∀ r ∈ table, judge readWhole smallFile r = .accepted := by decide +kernel

/-- without its first two entries: the first missing parameter in table order is the one reported -/
example : judge readWhole (smallFile.drop 2) ⟨"terrainclass", .number, true⟩ = .missing ∧
    judge readWhole (smallFile.drop 2) ⟨"buildingheight", .number, true⟩ = .missing := by decide +kernel

/-- the first parameter is stored although the second is missing -/
example (u : Params Dbl) : loadParameters (fun _ => .ok (Dbl.fin 7)) [("floorarea".toList, "7".toList), ("terrainclass".toList, "7".toList)] u =
    .throw (.missing "buildingheight".toList) { u with terrain := .fin 7 } := rfl

example : number readWhole smallFile "hci" = some 7 ∧ number readWhole smallFile "hri" = none ∧
    lower "NaTuRaL".toList = "natural".toList := by decide +kernel

example : northToSouth [1, 2, 3, 4, 5, 6, 7, 8, 9] = some [5, 4, 3, 2, 1, 8, 7, 6, 9] := by decide

end ISO.Props
