import Verif.Spec.Accessors
import Verif.Lemmas.Accessors
import Verif.Num.Lemmas
import Mathlib.Tactic.FinCases

/-!
# C57: the getters and setters of UserModel
-/

namespace ISO.Props
open ISO ISO.User ISO.User.Accessor

/-! ## One call of a setter of a pair -/

/-- after its setter the getter shows the value -/
theorem get_set_same (a : Accessor) (v : a.Arg Dbl) (u : Object Dbl) : a.get (a.set v u) = a.shown v := by
  cases a with
  | facade n f => 
    rw [get_facade, set_facade, shown_facade]
    simp only [vec_setVec, if_true]
    exact congrArg Reading.num (Function.update_self (slot f) v (vec n u.params.bldg))
  | terrainClass => rfl
  | weatherFilePath => rfl
  | building n => rw [get_building, set_building, ← same_building]
  | cooling n => rw [get_cooling, set_cooling, ← same_cooling]
  | heating n => rw [get_heating, set_heating, ← same_heating]
  | lights n => rw [get_lights, set_lights, ← same_lights]
  | phys n => rw [get_phys, set_phys, ← same_phys]
  | pop n => rw [get_pop, set_pop, ← same_pop]
  | simSettings n => rw [get_simSettings, set_simSettings, ← same_simSettings]
  | ventilation n => rw [get_ventilation, set_ventilation, ← same_ventilation]
  | bldg n => rw [get_bldg, set_bldg, ← same_bldg]
  | extra n => rw [get_extra, set_extra, ← same_extra]

/-- the setter changes no other getter -/
theorem get_set_other (a b : Accessor) (h : b ≠ a) (v : a.Arg Dbl) (u : Object Dbl) : b.get (a.set v u) = b.get u := by
  cases a <;> cases b <;>
    (try simp only [get_building, get_cooling, get_heating, get_lights, get_phys, get_pop, get_simSettings, get_ventilation, get_bldg, get_extra,
      get_facade, set_building, set_cooling, set_heating, set_lights, set_phys, set_pop, set_simSettings, set_ventilation, set_bldg,
      set_extra, set_facade, vec_write, read_setVec]) <;>
    first
    | rfl
    | exact other_building _ _ (fun e => h (congrArg Accessor.building e)) _ _
    | exact other_cooling _ _ (fun e => h (congrArg Accessor.cooling e)) _ _
    | exact other_heating _ _ (fun e => h (congrArg Accessor.heating e)) _ _
    | exact other_lights _ _ (fun e => h (congrArg Accessor.lights e)) _ _
    | exact other_phys _ _ (fun e => h (congrArg Accessor.phys e)) _ _
    | exact other_pop _ _ (fun e => h (congrArg Accessor.pop e)) _ _
    | exact other_simSettings _ _ (fun e => h (congrArg Accessor.simSettings e)) _ _
    | exact other_ventilation _ _ (fun e => h (congrArg Accessor.ventilation e)) _ _
    | exact other_bldg _ _ (fun e => h (congrArg Accessor.bldg e)) _ _
    | exact other_extra _ _ (fun e => h (congrArg Accessor.extra e)) _ _
    | exact absurd rfl h
    | skip
  rename_i n f m g
  congr 1
  rw [vec_setVec]
  split_ifs with e
  · subst e
    have hs : slot g ≠ slot f := fun e => h (by rw [slot_injective e])
    exact Function.update_of_ne hs _ _
  · rfl

/-- the setter of a pair changes no setting given by a keyword -/
theorem code_set (c : Code) (a : Accessor) (v : a.Arg Dbl) (u : Object Dbl) : c.get (a.set v u) = c.get u := by
  cases a <;>
    (try simp only [set_building, set_cooling, set_heating, set_lights, set_phys, set_pop, set_simSettings, set_ventilation, set_bldg,
      set_extra, set_facade]) <;>
    cases c <;>
    first
    | rfl
    | exact code_building _ _ _
    | exact (code_heating _ _ _).1
    | exact (code_heating _ _ _).2
    | exact code_ventilation _ _ _
    | skip

/-! ## One call of any setter -/

/-- the object with another code -/
def withCode (c : Code) (x : Dbl) (u : Object Dbl) : Object Dbl :=
  match c with
  | .bemType => { u with params := { u.params with building := { u.params.building with buildingEnergyManagement := x } } }
  | .dhwEnergyCarrier => { u with params := { u.params with heating := { u.params.heating with hotWaterEnergyType := x } } }
  | .heatingEnergyCarrier => { u with params := { u.params with heating := { u.params.heating with energyType := x } } }
  | .ventilationType => { u with params := { u.params with ventilation := { u.params.ventilation with ventType := x } } }

theorem code_withCode (c d : Code) (x : Dbl) (u : Object Dbl) : d.get (withCode c x u) = if d = c then x else d.get u := by
  cases c <;> cases d <;> rfl

theorem get_withCode (c : Code) (a : Accessor) (x : Dbl) (u : Object Dbl) : a.get (withCode c x u) = a.get u := by
  cases c <;> cases a with
  | building n => rw [get_building, get_building]; cases n <;> rfl
  | heating n => rw [get_heating, get_heating]; cases n <;> rfl
  | ventilation n => rw [get_ventilation, get_ventilation]; cases n <;> rfl
  | terrainClass => rfl
  | weatherFilePath => rfl
  | _ =>
    simp only [get_cooling, get_lights, get_phys, get_pop, get_simSettings, get_bldg, get_extra, get_facade]
    rfl

/-- the setters of the settings given by a keyword -/
theorem keyword_run (c : Code) (text : Str) (u : Object Dbl) :
    (∀ k ∈ keywords c, lower text ≠ k.toList) ∧ c.set text u = (.error .badKeyword, u) ∨
    ∃ i : ℕ, (keywords c).findIdx? (fun k => lower text = k.toList) = some i ∧ (∃ k ∈ keywords c, lower text = k.toList) ∧
      c.set text u = (.ok (), withCode c (.fin ((i : ℝ) + 1)) u) := by
  have one : (1.0 : Dbl) = .fin (((0 : ℕ) : ℝ) + 1) := by rw [Dbl.fin_lit 10 true 1]; norm_num
  have two : (2.0 : Dbl) = .fin (((1 : ℕ) : ℝ) + 1) := by rw [Dbl.fin_lit 20 true 1]; norm_num
  have three : (3.0 : Dbl) = .fin (((2 : ℕ) : ℝ) + 1) := by rw [Dbl.fin_lit 30 true 1]; norm_num
  have three_way (k1 k2 k3 : String) (w : Dbl → Object Dbl) (hk : keywords c = [k1, k2, k3])
      (hw : ∀ x, withCode c x u = w x)
      (hset : c.setParams text u.params = if lower text = k1.toList then .ok (w (1.0 : Dbl)).params else if lower text = k2.toList then .ok (w (2.0 : Dbl)).params
        else if lower text = k3.toList then .ok (w (3.0 : Dbl)).params else .error .badKeyword)
      (hextra : ∀ x, { u with params := (w x).params } = w x) : 
      (∀ k ∈ keywords c, lower text ≠ k.toList) ∧ c.set text u = (.error .badKeyword, u) ∨
      ∃ i : ℕ, (keywords c).findIdx? (fun k => lower text = k.toList) = some i ∧ (∃ k ∈ keywords c, lower text = k.toList) ∧
        c.set text u = (.ok (), withCode c (.fin ((i : ℝ) + 1)) u) := by
    simp only [Code.set, hset, hk, hw]
    by_cases h1 : lower text = k1.toList
    · exact .inr ⟨0, by simp [List.findIdx?_cons, h1], ⟨k1, by simp, h1⟩, by simp only [if_pos h1, one, hextra]⟩
    by_cases h2 : lower text = k2.toList
    · exact .inr ⟨1, by simp [List.findIdx?_cons, h1, ← h2], ⟨k2, by simp, h2⟩, by simp only [if_neg h1, if_pos h2, two, hextra]⟩
    by_cases h3 : lower text = k3.toList
    · exact .inr ⟨2, by simp [List.findIdx?_cons, h1, h2, ← h3], ⟨k3, by simp, h3⟩, by simp only [if_neg h1, if_neg h2, if_pos h3, three, hextra]⟩
    · exact .inl ⟨by simp [h1, h2, h3], by simp only [if_neg h1, if_neg h2, if_neg h3]⟩
  have two_way (k1 k2 : String) (w : Dbl → Object Dbl) (hk : keywords c = [k1, k2])
      (hw : ∀ x, withCode c x u = w x)
      (hset : c.setParams text u.params = if lower text = k1.toList then .ok (w (1.0 : Dbl)).params else if lower text = k2.toList then .ok (w (2.0 : Dbl)).params
        else .error .badKeyword)
      (hextra : ∀ x, { u with params := (w x).params } = w x) : 
      (∀ k ∈ keywords c, lower text ≠ k.toList) ∧ c.set text u = (.error .badKeyword, u) ∨
      ∃ i : ℕ, (keywords c).findIdx? (fun k => lower text = k.toList) = some i ∧ (∃ k ∈ keywords c, lower text = k.toList) ∧
        c.set text u = (.ok (), withCode c (.fin ((i : ℝ) + 1)) u) := by
    simp only [Code.set, hset, hk, hw]
    by_cases h1 : lower text = k1.toList
    · exact .inr ⟨0, by simp [List.findIdx?_cons, h1], ⟨k1, by simp, h1⟩, by simp only [if_pos h1, one, hextra]⟩
    by_cases h2 : lower text = k2.toList
    · exact .inr ⟨1, by simp [List.findIdx?_cons, h1, ← h2], ⟨k2, by simp, h2⟩, by simp only [if_neg h1, if_pos h2, two, hextra]⟩
    · exact .inl ⟨by simp [h1, h2], by simp only [if_neg h1, if_neg h2]⟩
  cases c with
  | bemType => exact three_way _ _ _ _ rfl (fun x => rfl) rfl (fun x => rfl)
  | dhwEnergyCarrier => exact two_way _ _ _ rfl (fun x => rfl) rfl (fun x => rfl)
  | heatingEnergyCarrier => exact two_way _ _ _ rfl (fun x => rfl) rfl (fun x => rfl)
  | ventilationType => exact three_way _ _ _ _ rfl (fun x => rfl) rfl (fun x => rfl)

/-- the setters that take a whole vector -/
theorem vector_run (n : NineVector) (v : List Dbl) (u : Object Dbl) :
    n.set v u = if h : v.length = 9 then (.ok (), { u with params := { u.params with bldg := setVec n (fun i => v[i.1]) u.params.bldg } })
      else (.error .wrongCount, u) := by
  by_cases h : v.length = 9
  · cases n <;>
      simp only [NineVector.set, NineVector.setParams, setWallArea, setWallU, setWallThermalEmissivity, setWallSolarAbsorption, setWindowArea,
        setWindowU, setWindowSHGC, setWindowSCF, setWindowSDF, h, dif_pos, setVec]
  · cases n <;>
      simp only [NineVector.set, NineVector.setParams, setWallArea, setWallU, setWallThermalEmissivity, setWallSolarAbsorption, setWindowArea,
        setWindowU, setWindowSHGC, setWindowSCF, setWindowSDF, h, dif_neg, not_false_eq_true]

/-- **C57.** One call of a setter: what it is documented to set is what its getter shows, and every other getter shows what it showed. -/
theorem C57_call (c : SetterCall Dbl) (g : Getter) (u : Object Dbl) : g.read (c.run u).2 = (written c g).getD (g.read u) := by
  cases c with
  | value a v =>
    cases g with
    | of b =>
      simp only [SetterCall.run, Getter.read, written]
      by_cases h : b = a
      · subst h; rw [if_pos rfl]; exact get_set_same _ _ _
      · rw [if_neg h]; exact get_set_other a b h v u
    | code d => simp only [SetterCall.run, Getter.read, written, code_set]; rfl
  | keyword c text =>
    rcases keyword_run c text u with ⟨hno, hrun⟩ | ⟨i, hi, -, hrun⟩
    · have hnone : (keywords c).findIdx? (fun k => lower text = k.toList) = none := by
        rw [List.findIdx?_eq_none_iff]; intro k hk; simpa using hno k hk
      simp only [SetterCall.run, hrun]
      cases g with
      | of b => rfl
      | code d => simp only [written, hnone, Option.map_none, ite_self]; rfl
    · simp only [SetterCall.run, hrun]
      cases g with
      | of b => exact get_withCode c b _ u
      | code d =>
        simp only [Getter.read, code_withCode, written, hi, Option.map_some]
        split_ifs <;> rfl
  | vector n v =>
    simp only [SetterCall.run, vector_run]
    by_cases h : v.length = 9
    · rw [dif_pos h]
      cases g with
      | code d => cases d <;> rfl
      | of b =>
        cases b with
        | facade m f =>
          simp only [Getter.read, get_facade, vec_setVec, written, h, and_true]
          split_ifs with e
          · have hp : place f = (slot f).1 := by cases f <;> rfl
            have hlt : (slot f).1 < v.length := by rw [h]; exact (slot f).2
            rw [hp, List.getElem?_eq_getElem hlt]; rfl
          · rfl
        | bldg m => simp only [Getter.read, get_bldg, read_setVec, written]; rfl
        | terrainClass => rfl
        | weatherFilePath => rfl
        | _ =>
          simp only [Getter.read, written, get_building, get_cooling, get_heating, get_lights, get_phys, get_pop, get_simSettings,
            get_ventilation, get_extra]
          rfl
    · rw [dif_neg h]
      have : written (.vector n v) g = none := by
        cases g with
        | code d => rfl
        | of b =>
          cases b with
          | facade m f => simp only [written, h, and_false, if_false]
          | _ => rfl
      rw [this]; rfl
  | dhwDistributionSystem v =>
    have hrun : (SetterCall.run (.dhwDistributionSystem v) u).2 = (SetterCall.run (.value (.heating .dhwDistributionEfficiency) v) u).2 := rfl
    rw [hrun]
    cases g with
    | code d => exact congrArg Reading.num (code_set d (.heating .dhwDistributionEfficiency) v u)
    | of b =>
      by_cases h : b = .heating .dhwDistributionEfficiency
      · subst h; rfl
      · refine (get_set_other _ b h v u).trans ?_
        have : written (.dhwDistributionSystem v) (.of b) = none := by
          cases b with
          | heating m => cases m <;> first | rfl | exact absurd rfl h
          | _ => rfl
        rw [this]; rfl

/-- **C57.** Histories of any length: every getter shows the value of the last call that sets it, and what it showed at the start if no call
sets it. -/
theorem C57_history (calls : List (SetterCall Dbl)) (g : Getter) (u : Object Dbl) :
    g.read (runAll calls u) = (lastWritten g calls).getD (g.read u) := by
  induction calls using List.reverseRecOn with
  | nil => rfl
  | append_singleton cs c ih =>
    simp only [runAll, lastWritten, List.foldl_append, List.foldl_cons, List.foldl_nil, List.reverse_append, List.reverse_cons, List.reverse_nil,
      List.nil_append, List.cons_append, List.findSome?_cons] at ih ⊢
    rw [C57_call]
    cases written c g with
    | some r => rfl
    | none => exact ih

/-- **C57.** A call throws exactly when it is refused, and then nothing has changed. -/
theorem C57_refused (c : SetterCall Dbl) (u : Object Dbl) :
    ((c.run u).1 = .ok () ↔ ¬ Refused c) ∧ (Refused c → (c.run u).2 = u) := by
  cases c with
  | value a v => exact ⟨⟨fun _ h => h, fun _ => rfl⟩, fun h => h.elim⟩
  | dhwDistributionSystem v => exact ⟨⟨fun _ h => h, fun _ => rfl⟩, fun h => h.elim⟩
  | keyword c text =>
    simp only [SetterCall.run, Refused]
    rcases keyword_run c text u with ⟨hno, hrun⟩ | ⟨i, -, ⟨k, hk, hk'⟩, hrun⟩
    · rw [hrun]; exact ⟨⟨fun h => (nomatch h), fun h => absurd hno h⟩, fun _ => rfl⟩
    · rw [hrun]; exact ⟨⟨fun _ h => h k hk hk', fun _ => rfl⟩, fun h => absurd hk' (h k hk)⟩
  | vector n v =>
    simp only [SetterCall.run, Refused, vector_run]
    by_cases h : v.length = 9
    · rw [dif_pos h]; exact ⟨⟨fun _ h' => h' h, fun _ => rfl⟩, fun h' => absurd h h'⟩
    · rw [dif_neg h]; exact ⟨⟨fun h' => (nomatch h'), fun h' => absurd h h'⟩, fun _ => rfl⟩

/-- **C57.** The getters show everything: two objects that no getter tells apart are the same, in particular their simulations are. -/
theorem C57_whole (u w : Object Dbl) (h : ∀ g : Getter, g.read u = g.read w) : u = w := by
  have ha (a : Accessor) : a.get u = a.get w := h (.of a)
  have hc (c : Code) : c.get u = c.get w := Reading.num.inj (h (.code c))
  have hf (n : NineVector) : vec n u.params.bldg = vec n w.params.bldg := by
    funext i
    have hs : ∃ f, slot f = i := by
      fin_cases i
      exacts [⟨.S, rfl⟩, ⟨.SE, rfl⟩, ⟨.E, rfl⟩, ⟨.NE, rfl⟩, ⟨.N, rfl⟩, ⟨.NW, rfl⟩, ⟨.W, rfl⟩, ⟨.SW, rfl⟩, ⟨.roof, rfl⟩]
    obtain ⟨f, rfl⟩ := hs
    have := ha (.facade n f)
    rw [get_facade, get_facade] at this
    exact Reading.num.inj this
  have e1 : u.params.building = w.params.building :=
    whole_building _ _ (fun n => by have := ha (.building n); rwa [get_building, get_building] at this) (hc .bemType)
  have e2 : u.params.cooling = w.params.cooling :=
    whole_cooling _ _ (fun n => by have := ha (.cooling n); rwa [get_cooling, get_cooling] at this)
  have e3 : u.params.heating = w.params.heating :=
    whole_heating _ _ (fun n => by have := ha (.heating n); rwa [get_heating, get_heating] at this) (hc .heatingEnergyCarrier) (hc .dhwEnergyCarrier)
  have e4 : u.params.lights = w.params.lights :=
    whole_lights _ _ (fun n => by have := ha (.lights n); rwa [get_lights, get_lights] at this)
  have e5 : u.params.phys = w.params.phys :=
    whole_phys _ _ (fun n => by have := ha (.phys n); rwa [get_phys, get_phys] at this)
  have e6 : u.params.pop = w.params.pop :=
    whole_pop _ _ (fun n => by have := ha (.pop n); rwa [get_pop, get_pop] at this)
  have e7 : u.params.simSettings = w.params.simSettings :=
    whole_simSettings _ _ (fun n => by have := ha (.simSettings n); rwa [get_simSettings, get_simSettings] at this)
  have e8 : u.params.ventilation = w.params.ventilation :=
    whole_ventilation _ _ (fun n => by have := ha (.ventilation n); rwa [get_ventilation, get_ventilation] at this) (hc .ventilationType)
  have e9 : u.params.bldg = w.params.bldg :=
    whole_bldg _ _ (fun n => by have := ha (.bldg n); rwa [get_bldg, get_bldg] at this)
      (hf .wallArea) (hf .wallU) (hf .wallThermalEmissivity) (hf .wallSolarAbsorption) (hf .windowArea) (hf .windowU) (hf .windowSHGC)
      (hf .windowSCF) (hf .windowSDF)
  have e10 : u.extra = w.extra :=
    whole_extra _ _ (fun n => by have := ha (.extra n); rwa [get_extra, get_extra] at this)
  have e11 : u.params.terrain = w.params.terrain := Reading.num.inj (ha .terrainClass)
  have e12 : u.params.weatherFilePath = w.params.weatherFilePath := Reading.text.inj (ha .weatherFilePath)
  obtain ⟨⟨⟩, _⟩ := u
  obtain ⟨⟨⟩, _⟩ := w
  simp only at e1 e2 e3 e4 e5 e6 e7 e8 e9 e10 e11 e12
  subst_vars
  rfl

/-- **C57.** Only the last value of every setting counts: two histories that leave the same last values end in the same object, whatever the
order of the calls. -/
theorem C57_order (calls calls' : List (SetterCall Dbl)) (u : Object Dbl) (h : ∀ g, lastWritten g calls = lastWritten g calls') :
    runAll calls u = runAll calls' u :=
  C57_whole _ _ fun g => by rw [C57_history, C57_history, h g]

/-! ## Cases -/

/-- a history: a value, a keyword in capitals, a vector, a refused keyword, a vector that is too short, the first value again -/
noncomputable def someCalls : List (SetterCall Dbl) :=
  [.value (.heating .heatingSystemEfficiency) (.fin 0.8), .keyword .ventilationType "NATURAL".toList,
    .vector .wallArea [.fin 10, .fin 11, .fin 12, .fin 13, .fin 14, .fin 15, .fin 16, .fin 17, .fin 18], .keyword .ventilationType "windy".toList,
    .vector .wallArea [.fin 1], .value (.heating .heatingSystemEfficiency) (.fin 0.9)]

example (u : Object Dbl) : (Getter.of (.heating .heatingSystemEfficiency)).read (runAll someCalls u) = .num (.fin 0.9) := by
  rw [C57_history]; rfl

example (u : Object Dbl) : (Getter.of (.facade .wallArea .SE)).read (runAll someCalls u) = .num (.fin 11) := by
  rw [C57_history]
  simp [lastWritten, someCalls, written, place]

example (u : Object Dbl) : (Getter.code .ventilationType).read (runAll someCalls u) = .num (.fin 3) := by
  rw [C57_history]
  have h1 : (keywords .ventilationType).findIdx? (fun k => lower "NATURAL".toList = k.toList) = some 2 := by decide +kernel
  have h2 : (keywords .ventilationType).findIdx? (fun k => lower "windy".toList = k.toList) = none := by decide +kernel
  simp only [lastWritten, someCalls, List.reverse_cons, List.reverse_nil, List.nil_append, List.cons_append, List.findSome?_cons, written, h1, h2,
    if_true, Option.map_none, Option.map_some, Option.getD_some]
  norm_num

example (u : Object Dbl) : (Getter.of (.heating .dhwDemand)).read (runAll someCalls u) = (Getter.of (.heating .dhwDemand)).read u := by
  rw [C57_history]; rfl

/-- refused and accepted calls exist -/
example : Refused (.keyword .bemType "cheap".toList) ∧ ¬ Refused (.keyword .bemType "Advanced".toList) := by
  constructor
  · have h : ∀ k ∈ keywords .bemType, lower "cheap".toList ≠ k.toList := by decide +kernel
    exact h
  · intro h
    exact h "advanced" (by decide +kernel) (by decide +kernel)

/-- two settings set in either order -/
example (u : Object Dbl) (x y : Dbl) :
    runAll [.value (.heating .dhwDemand) x, .value .terrainClass y] u = runAll [.value .terrainClass y, .value (.heating .dhwDemand) x] u := by
  refine C57_order _ _ u fun g => ?_
  cases g with
  | code c => rfl
  | of b =>
    simp only [lastWritten, List.reverse_cons, List.reverse_nil, List.nil_append, List.cons_append, List.findSome?_cons, List.findSome?_nil, written]
    by_cases h1 : b = .terrainClass
    · subst h1; rfl
    · by_cases h2 : b = .heating .dhwDemand
      · subst h2; rfl
      · simp only [if_neg h1, if_neg h2]

/-- two objects that differ are told apart by a getter -/
example (u : Object Dbl) : ∃ g : Getter, g.read ((SetterCall.value .terrainClass (.fin 1)).run u).2 ≠ g.read ((SetterCall.value .terrainClass (.fin 2)).run u).2 := by
  refine ⟨.of .terrainClass, ?_⟩
  rw [C57_call, C57_call]
  intro h
  have := Dbl.fin.inj (Reading.num.inj (show Reading.num (Dbl.fin 1) = Reading.num (Dbl.fin 2) from h))
  norm_num at this

end ISO.Props
