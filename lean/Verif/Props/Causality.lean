import Verif.Spec.Effects
import Verif.Props.SmallOffice
import Verif.Props.Size
import Verif.Lemmas.HourlySim
import Verif.Lemmas.HourlyOut

/-! # C55: the hourly model does not look ahead -/

namespace ISO.Props
open ISO ISO.Hourly ISO.Spec ISO.Dbl CNum Epw

section
variable {α : Type} [CNum α]

theorem runHours_take (x : Sim α) (c : Consts α) (r : Ratios α) (n : Nat) : ∀ (l : List (Schedule α × HourWeather α)) (st : ThermalState α),
    (runHours x c r l st).take n = runHours x c r (l.take n) st := by
  induction n with
  | zero => intro l st; simp [runHours]
  | succ n ih =>
    intro l st
    cases l with
    | nil => simp [runHours]
    | cons a l => obtain ⟨sch, w⟩ := a; simp only [runHours, List.take_succ_cons, ih]

end

section
variable {α : Type} [CNum α] [OfInt α]

theorem ofFn_take_eq {β : Type} {N : Nat} (f g : Fin N → β) (n : Nat) (h : ∀ i : Fin N, i.1 < n → f i = g i) :
    (List.ofFn f).take n = (List.ofFn g).take n := by
  refine List.ext_getElem (by simp) ?_
  intro i h1 h2
  rw [List.getElem_take, List.getElem_take, List.getElem_ofFn, List.getElem_ofFn]
  rw [List.length_take] at h1
  exact h _ (lt_of_lt_of_le h1 (min_le_left _ _))

/-- weather of the same site that is the same in the first `n` hours -/
structure SameUntil (n : Nat) (w w' : Weather α) : Prop where
  latitude : w.latitude = w'.latitude
  longitude : w.longitude = w'.longitude
  timezone : w.timezone = w'.timezone
  data : ∀ (c : Fin 7) (i : Fin 8760), i.1 < n → w.data c i = w'.data c i

theorem hourWeather_same {n : Nat} {w w' : Weather α} (h : SameUntil n w w') (i : Fin 8760) (hi : i.1 < n) :
    hourWeather w i = hourWeather w' i := by
  have hs : Solar.site w = Solar.site w' := by
    unfold Solar.site; rw [h.latitude, h.longitude, h.timezone]
  unfold hourWeather
  rw [h.data _ i hi, h.data _ i hi, h.data _ i hi]
  congr 1
  funext k
  split_ifs with hk
  · unfold Solar.eglobe; rw [hs, h.data _ i hi, h.data _ i hi]
  · rfl

theorem rawResults_take {n : Nat} {w w' : Weather α} (h : SameUntil n w w') (x : Sim α) (r : Ratios α) (win : Window) :
    (rawResults x r win w).take n = (rawResults x r win w').take n := by
  unfold rawResults
  have e := ofFn_take_eq (hourInput x win w) (hourInput x win w') n fun i hi => by unfold hourInput; rw [hourWeather_same h i hi]
  rw [runHours_take, runHours_take, e]

/-- the end use that takes the heating energy: electricity if the fuel code is one, otherwise gas -/
noncomputable def fuelUse (x : Sim α) : Fin 13 := bif ceq x.heating.energyType 1.0 then heatingElectricity else heatingGas

/-- the comparison of two years whose first `n` hours have the same results -/
theorem endUses_take (x : Sim α) (n : Nat) (rs rs' : List (HourResults α)) (ht : rs.take n = rs'.take n) (i : Nat) (hin : i < n)
    (h1 : i < rs.length) (h2 : i < rs'.length) (h3 : i < (endUses x rs).length) (h4 : i < (endUses x rs').length) :
    (∀ k : Fin 13, k ≠ fuelUse x → k ≠ coolingElectricity → (endUses x rs)[i] k = (endUses x rs')[i] k) ∧
    (endUses x rs)[i] (fuelUse x) = rs[i].Qneed_ht / (yearDistribution x rs).1 / x.heating.efficiency / 1000.0 ∧
    (endUses x rs')[i] (fuelUse x) = rs[i].Qneed_ht / (yearDistribution x rs').1 / x.heating.efficiency / 1000.0 ∧
    (endUses x rs)[i] coolingElectricity = rs[i].Qneed_cl / (yearDistribution x rs).2 / x.cooling.cop / 1000.0 ∧
    (endUses x rs')[i] coolingElectricity = rs[i].Qneed_cl / (yearDistribution x rs').2 / x.cooling.cop / 1000.0 := by
  have e1 : rs[i] = rs'[i] := by
    have a := congrArg (fun l => l[i]?) ht
    simp only [List.getElem?_take, if_pos hin] at a
    rw [List.getElem?_eq_getElem h1, List.getElem?_eq_getElem h2] at a
    exact Option.some.inj a
  have o1 : (endUses x rs)[i] = hourEndUses x (yearDistribution x rs) rs[i] := by
    simp only [endUses, List.getElem_map]
  have o2 : (endUses x rs')[i] = hourEndUses x (yearDistribution x rs') rs[i] := by
    simp only [endUses, List.getElem_map, e1]
  rw [o1, o2]
  generalize rs[i] = r
  generalize yearDistribution x rs = y
  generalize yearDistribution x rs' = y'
  unfold fuelUse
  cases hc : ceq x.heating.energyType 1.0
  all_goals
    refine ⟨?_, ?_, ?_, rfl, rfl⟩
    · intro k h1 h2
      fin_cases k <;> first | rfl | exact absurd rfl h1 | exact absurd rfl h2 | simp [hourEndUses, hc]
    · simp [hourEndUses, hc]
    · simp [hourEndUses, hc]

/-- `C55_causal` for the hourly results of two years -/
theorem causal_years (x : Sim α) (n N : Nat) (rs rs' : List (HourResults α)) (ht : rs.take n = rs'.take n)
    (hl : rs.length = N) (hl' : rs'.length = N) (out out' : List (EndUses α)) (k : endUses x rs = out) (k' : endUses x rs' = out') :
    ∃ (_ : out.length = N) (_ : out'.length = N) (heatEff coolEff heatEff' coolEff' : α) (heat cool : Nat → α),
      ∀ (i : Nat) (hi : i < N), i < n →
      (∀ k : Fin 13, k ≠ fuelUse x → k ≠ coolingElectricity → out[i] k = out'[i] k) ∧
      out[i] (fuelUse x) = heat i / heatEff / x.heating.efficiency / 1000.0 ∧
      out'[i] (fuelUse x) = heat i / heatEff' / x.heating.efficiency / 1000.0 ∧
      out[i] coolingElectricity = cool i / coolEff / x.cooling.cop / 1000.0 ∧
      out'[i] coolingElectricity = cool i / coolEff' / x.cooling.cop / 1000.0 := by
  subst k k'
  have l := endUses_length x rs
  have l' := endUses_length x rs'
  refine ⟨l.trans hl, l'.trans hl', (yearDistribution x rs).1, (yearDistribution x rs).2, (yearDistribution x rs').1,
    (yearDistribution x rs').2, fun i => (rs[i]?.map (·.Qneed_ht)).getD 0.0, fun i => (rs[i]?.map (·.Qneed_cl)).getD 0.0,
    fun i hi hin => ?_⟩
  have h1 : i < rs.length := by omega
  have e2 : rs[i]? = some rs[i] := List.getElem?_eq_getElem _
  simp only [e2, Option.map_some, Option.getD_some]
  exact endUses_take x n rs rs' ht i hin h1 (by omega) (by omega) (by omega)

/-- C55: lighting, fan, pump and equipment energy of an hour depend only on the weather up to and including that hour; heating
and cooling energy depend on later weather only through the two efficiencies of the year. -/
theorem C55_causal (x : Sim α) (p : Pushed α) (n : Nat) (w w' : Weather α) (h : SameUntil n w w')
    {m m' : Model α} {out out' : List (EndUses α)}
    (e : simulate false ⟨x, w, p⟩ = some (m, out)) (e' : simulate false ⟨x, w', p⟩ = some (m', out')) :
    ∃ (_ : out.length = 8760) (_ : out'.length = 8760) (heatEff coolEff heatEff' coolEff' : α) (heat cool : Nat → α),
      ∀ (i : Nat) (hi : i < 8760), i < n →
      (∀ k : Fin 13, k ≠ fuelUse x → k ≠ coolingElectricity → out[i] k = out'[i] k) ∧
      out[i] (fuelUse x) = heat i / heatEff / x.heating.efficiency / 1000.0 ∧
      out'[i] (fuelUse x) = heat i / heatEff' / x.heating.efficiency / 1000.0 ∧
      out[i] coolingElectricity = cool i / coolEff / x.cooling.cop / 1000.0 ∧
      out'[i] coolingElectricity = cool i / coolEff' / x.cooling.cop / 1000.0 := by
  have k := congrArg (Option.map Prod.snd) e
  have k' := congrArg (Option.map Prod.snd) e'
  rw [simulate_results] at k k'
  cases hw : window x.pop with
  | none => simp only [hw, Option.bind_none] at k; cases k
  | some win =>
    simp only [hw, Option.bind_some, cond_false, Option.map_some, Option.some.injEq] at k k'
    exact causal_years x n 8760 _ _ (rawResults_take h x (pushAll x.bldg p).ratios win) (rawResults_length ..) (rawResults_length ..)
      out out' k k'

end

/-- a calm year at zero degrees, and the same year with ten degrees from hour 4000 on -/
example : ∃ (w w' : Weather Dbl) (m m' : Model Dbl) (out out' : List (EndUses Dbl)), SameUntil 4000 w w' ∧ w ≠ w' ∧
    simulate false ⟨smallOffice.map fin, w, .empty⟩ = some (m, out) ∧ simulate false ⟨smallOffice.map fin, w', .empty⟩ = some (m', out') := by
  obtain ⟨win, hw⟩ := window_ok (p := smallOffice.pop) (by norm_num [smallOffice]) (by norm_num [smallOffice])
    (by norm_num [smallOffice]) (by norm_num [smallOffice])
  refine ⟨⟨fin 40, fin (-80), -5, fun _ _ => fin 0⟩, ⟨fin 40, fin (-80), -5, fun _ i => if i.1 < 4000 then fin 0 else fin 10⟩, _, _, _, _,
    ⟨rfl, rfl, rfl, fun c i hi => (if_pos hi).symm⟩, ?_, simulate_of_window hw, simulate_of_window hw⟩
  intro h
  have h2 := congrArg (fun w => Weather.data w 0 ⟨5000, by omega⟩) h
  have h3 : fin 0 = if (5000 : Nat) < 4000 then fin 0 else fin 10 := h2
  rw [if_neg (by omega)] at h3
  have := fin_inj.mp h3
  norm_num at this

end ISO.Props
