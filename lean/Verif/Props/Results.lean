import Verif.Spec.Results
import Verif.Props.Aggregate

/-! Property C70: the objects that hold the results. -/

namespace ISO.Props
open ISO CNum Results Spec

/-- **C70** What is read from an object is what was last stored under that number, 0 if nothing was; for any sequence of stores with valid
numbers, in any arithmetic. -/
theorem C70_last {α : Type} [CNum α] (stores : List (Fin 20 × α)) :
    ∃ d, stores.foldlM (fun d s => addEndUse (s.1.1 : Int) s.2 d) newSlots = some d ∧ d.length = 20 ∧
      ∀ j : Fin 20, getEndUse (j.1 : Int) d = some (((stores.reverse.find? fun s => s.1 = j).map Prod.snd).getD 0.0) := by
  induction stores using List.reverseRecOn with
  | nil =>
    refine ⟨newSlots, rfl, by simp [newSlots], fun j => ?_⟩
    have : (newSlots : List α)[j.1]? = some 0.0 := List.getElem?_replicate_of_lt j.2
    simp [getEndUse, this]
  | append_singleton l s ih =>
    obtain ⟨d, h, hl, hd⟩ := ih
    refine ⟨d.set s.1.1 s.2, ?_, by simp [hl], fun j => ?_⟩
    · rw [List.foldlM_append, h, Option.bind_eq_bind, Option.bind_some]
      have : s.1.1 < d.length := by rw [hl]; exact s.1.2
      simp [addEndUse, this]
    · have hj := hd j
      simp only [getEndUse, Int.natCast_nonneg, if_true, Int.toNat_natCast] at hj ⊢
      rw [List.reverse_append, List.reverse_singleton, List.singleton_append, List.find?_cons]
      by_cases e : s.1 = j
      · subst e
        simp [hl]
      · have : s.1.1 ≠ j.1 := fun h => e (Fin.ext h)
        simp only [e, decide_false, List.getElem?_set_ne this, hj]

/-- **C70** A result has 20 numbers: the thirteen end uses, then zeros; reading another number is undefined. -/
theorem C70_slots {α : Type} [CNum α] (v : Hourly.EndUses α) :
    ∃ d, fill v = some d ∧ (∀ j : Fin 13, getEndUse (j.1 : Int) d = some (v j)) ∧
      (∀ j : Int, 13 ≤ j → j < 20 → getEndUse j d = some 0.0) ∧
      (∀ j : Int, j < 0 ∨ 20 ≤ j → getEndUse j d = none) := by
  refine ⟨[v 0, v 1, v 2, v 3, v 4, v 5, v 6, v 7, v 8, v 9, v 10, v 11, v 12, 0.0, 0.0, 0.0, 0.0, 0.0, 0.0, 0.0], rfl, ?_, ?_, ?_⟩
  · intro j; fin_cases j <;> rfl
  · intro j h1 h2
    obtain ⟨n, rfl⟩ : ∃ n : Nat, j = ((13 + n : Nat) : Int) := ⟨(j - 13).toNat, by omega⟩
    have hn : n < 7 := by omega
    rcases n with _ | _ | _ | _ | _ | _ | _ | n
    all_goals first | rfl | omega
  · intro j h
    unfold getEndUse
    split_ifs with h0
    · have : 20 ≤ j := by omega
      rw [List.getElem?_eq_none]
      simp only [List.length_cons, List.length_nil]
      omega
    · rfl

theorem label_eq (v : Hourly.EndUses Dbl) : label v =
    [(v 0, .Electricity, .Heating), (v 1, .Electricity, .Cooling), (v 2, .Electricity, .InteriorLights),
     (v 3, .Electricity, .ExteriorLights), (v 4, .Electricity, .Fans), (v 5, .Electricity, .Pumps),
     (v 6, .Electricity, .InteriorEquipment), (v 7, .Electricity, .ExteriorEquipment), (v 8, .Electricity, .WaterSystems),
     (v 9, .Gas, .Heating), (v 10, .Gas, .Cooling), (v 11, .Gas, .InteriorEquipment), (v 12, .Gas, .WaterSystems)] := rfl

theorem get_cons (a : Dbl) (p q : Fuel × Category) (r : Labelled Dbl) :
    Labelled.get q.1 q.2 ((a, p) :: r) = if p = q then a + Labelled.get q.1 q.2 r else Labelled.get q.1 q.2 r := by
  simp only [Labelled.get, csum_dbl, List.filter_cons, Prod.mk.eta, decide_eq_true_eq]
  split_ifs with h <;> simp [h]

theorem get_nil (f : Fuel) (c : Category) : Labelled.get f c ([] : Labelled Dbl) = 0 := zero_lit_dbl

/-- what is under each name -/
noncomputable def entry (v : Fin 13 → Dbl) : Fuel → Category → Dbl
  | .Electricity, .Heating => v 0
  | .Electricity, .Cooling => v 1
  | .Electricity, .InteriorLights => v 2
  | .Electricity, .ExteriorLights => v 3
  | .Electricity, .Fans => v 4
  | .Electricity, .Pumps => v 5
  | .Electricity, .InteriorEquipment => v 6
  | .Electricity, .ExteriorEquipment => v 7
  | .Electricity, .WaterSystems => v 8
  | .Gas, .Heating => v 9
  | .Gas, .Cooling => v 10
  | .Gas, .InteriorEquipment => v 11
  | .Gas, .WaterSystems => v 12
  | _, _ => 0

theorem get_label (v : Hourly.EndUses Dbl) (f : Fuel) (c : Category) : (label v).get f c = entry v f c := by
  have h : ∀ q : Fuel × Category, (label v).get q.1 q.2 = entry v q.1 q.2 := by
    intro q
    rw [label_eq]
    simp only [get_cons, get_nil]
    rcases q with ⟨_ | _ | n, _ | _ | _ | _ | _ | _ | _ | _ | _ | k⟩ <;> simp [entry]
  exact h (f, c)

/-- **C70** Under a fuel and a category OpenStudio finds the number the printed table shows in the column of that name, and zero where there is no such
column. -/
theorem C70_named (v : Hourly.EndUses Dbl) (f : Fuel) (c : Category) :
    (label v).get f c = valueUnder v (columnTitle f c) := by
  rw [get_label]
  unfold valueUnder
  rcases f with _ | _ | n <;> rcases c with _ | _ | _ | _ | _ | _ | _ | _ | _ | k
  all_goals rfl

theorem printed_slots {α : Type} [CNum α] (v : Hourly.EndUses α) : (fill v).bind printedSlots =
    some [v 0, v 1, v 2, v 3, v 4, v 5, v 6, v 7, v 8, v 9, v 10, v 11, v 12] := by
  obtain ⟨d, h1, h2, -⟩ := C70_slots v
  have e : ∀ l : List (Fin 13), (l.map Fin.val).mapM (fun j : Nat => getEndUse (j : Int) d) = some (l.map v) := by
    intro l
    induction l with
    | nil => rfl
    | cons a l ih => simp [h2, ih]
  rw [h1, Option.bind_some]
  exact e [0, 1, 2, 3, 4, 5, 6, 7, 8, 9, 10, 11, 12]

/-- **C70** So a line of a printed table has the same values with and without OpenStudio. -/
theorem C70_printed (v : Hourly.EndUses Dbl) : (fill v).bind printedSlots = some (printedLabelled (label v)) := by
  rw [printed_slots]
  simp only [printedLabelled, get_label, entry]

theorem foldl_add {ι : Type} (g : ι → Dbl) (l : List ι) (t : Dbl) : l.foldl (fun t i => t + g i) t = t + (l.map g).sum := by
  induction l generalizing t with
  | nil => simp
  | cons a l ih => rw [List.foldl_cons, ih, List.map_cons, List.sum_cons, add_assoc]

theorem sum_named {categories : List Category} (h : categories.Nodup)
    (h' : ∀ c ∈ [Category.Heating, .Cooling, .InteriorLights, .ExteriorLights, .Fans, .Pumps, .InteriorEquipment, .ExteriorEquipment,
      .WaterSystems], c ∈ categories) (v : Fin 13 → Dbl) (f : Fuel) : (categories.map (entry v f)).sum =
      entry v f .Heating + entry v f .Cooling + entry v f .InteriorLights + entry v f .ExteriorLights + entry v f .Fans +
      entry v f .Pumps + entry v f .InteriorEquipment + entry v f .ExteriorEquipment + entry v f .WaterSystems := by
  rw [← List.sum_toFinset _ h]
  rw [← Finset.sum_subset (s₁ := {Category.Heating, .Cooling, .InteriorLights, .ExteriorLights, .Fans, .Pumps, .InteriorEquipment,
    .ExteriorEquipment, .WaterSystems})]
  · repeat rw [Finset.sum_insert (by decide)]
    rw [Finset.sum_singleton]
    simp only [add_assoc]
  · intro c hc
    rw [List.mem_toFinset]
    apply h'
    simpa using hc
  · intro c _ hc
    rcases c with _ | _ | _ | _ | _ | _ | _ | _ | _ | k
    all_goals first
      | exact absurd (by decide) hc
      | (cases f <;> rfl)

theorem sum_fuels {fuels : List Fuel} (h : fuels.Nodup) (h1 : .Electricity ∈ fuels) (h2 : .Gas ∈ fuels) (g : Fuel → Dbl)
    (hg : ∀ n, g (.other n) = 0) : (fuels.map g).sum = g .Electricity + g .Gas := by
  rw [← List.sum_toFinset _ h, ← Finset.sum_subset (s₁ := {Fuel.Electricity, .Gas})]
  · rw [Finset.sum_insert (by decide), Finset.sum_singleton]
  · intro c hc
    rw [List.mem_toFinset]
    simp only [Finset.mem_insert, Finset.mem_singleton] at hc
    rcases hc with rfl | rfl <;> assumption
  · intro c _ hc
    rcases c with _ | _ | n
    · exact absurd (by decide) hc
    · exact absurd (by decide) hc
    · exact hg n

/-- **C70** The total energy use OpenStudio is given is all energy of all results: nothing is left out or counted twice. -/
theorem C70_total {fuels : List Fuel} {categories : List Category} (h : AllNames fuels categories) (rs : List (Hourly.EndUses Dbl)) :
    totalEnergyUse fuels categories (rs.map label) = allEnergy rs := by
  have e : ∀ (r : Hourly.EndUses Dbl) (t : Dbl), fuels.foldl (fun total f =>
      categories.foldl (fun total c => total + (label r).get f c) total) t = t + ∑ k, r k := by
    intro r t
    simp only [foldl_add, get_label]
    congr 1
    rw [sum_fuels h.fuelsOnce h.electricity h.gas]
    · rw [sum_named h.categoriesOnce h.named, sum_named h.categoriesOnce h.named]
      simp only [entry, add_zero, Fin.sum_univ_succ, Fin.sum_univ_zero]
      simp only [add_assoc]
      rfl
    · intro n
      rw [sum_named h.categoriesOnce h.named]
      simp [entry]
  unfold totalEnergyUse allEnergy
  rw [List.foldl_map]
  simp only [e]
  rw [foldl_add, zero_lit_dbl, zero_add]

/-- **C70** The total of an hourly simulation does not depend on whether its results are summed by month. -/
theorem C70_aggregated {fuels : List Fuel} {categories : List Category} (h : AllNames fuels categories) (m : Hourly.Model Dbl)
    {m₁ m₂ : Hourly.Model Dbl} {hourly monthly : List (Hourly.EndUses Dbl)} (h1 : Hourly.simulate false m = some (m₁, hourly))
    (h2 : Hourly.simulate true m = some (m₂, monthly)) :
    totalEnergyUse fuels categories (monthly.map label) = totalEnergyUse fuels categories (hourly.map label) := by
  rw [C70_total h, C70_total h]
  obtain ⟨hl, out, h3, ho, hk⟩ := C28_aggregated m h1
  rw [h2] at h3
  obtain ⟨-, rfl⟩ := Prod.mk.inj (Option.some.inj h3)
  have swap : ∀ l : List (Hourly.EndUses Dbl), allEnergy l = ∑ k, (l.map fun u => u k).sum := by
    intro l
    unfold allEnergy
    induction l with
    | nil => simp
    | cons a l ih => simp only [List.map_cons, List.sum_cons, ih, Finset.sum_add_distrib]
  rw [swap, swap]
  apply Finset.sum_congr rfl
  intro k _
  obtain ⟨o, e1, e2⟩ := C12_total (hourly.map fun u => u k) (by rw [List.length_map, hl])
  obtain ⟨o', e3, e4, e5⟩ := C12_month (hourly.map fun u => u k) (by rw [List.length_map, hl])
  rw [e1] at e3
  obtain rfl := Option.some.inj e3
  rw [← e2]
  congr 1
  apply List.ext_getElem
  · rw [List.length_map, ho, e4]
  · intro j hj hj'
    rw [List.getElem_map, hk j (by simpa using hj) k, e5 j hj']

/-- the names of OpenStudio, as far as the program writes them, and two others -/
example : AllNames [.Electricity, .Gas, .other 0] [.Heating, .Cooling, .InteriorLights, .ExteriorLights, .InteriorEquipment,
    .ExteriorEquipment, .Fans, .Pumps, .WaterSystems, .other 0] := by
  constructor <;> decide

/-- a result with two end uses -/
example : totalEnergyUse [.Electricity, .Gas, .other 0] [.Heating, .Cooling, .InteriorLights, .ExteriorLights, .InteriorEquipment,
    .ExteriorEquipment, .Fans, .Pumps, .WaterSystems, .other 0]
    ([![Dbl.fin 1, 0, 0, 0, 0, 0, 0, 0, 0, Dbl.fin 2, 0, 0, 0]].map label) = Dbl.fin 3 := by
  rw [C70_total (by constructor <;> decide)]
  simp only [allEnergy, Fin.sum_univ_succ, Dbl.zero_def, List.map_cons, List.map_nil, List.sum_cons, List.sum_nil, Fin.sum_univ_zero]
  simp [Dbl.fin_add]
  norm_num

end ISO.Props
