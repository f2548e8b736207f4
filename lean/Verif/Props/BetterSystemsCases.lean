import Verif.Props.BetterSystems
import Verif.Props.BetterSystemsMonthly
import Verif.Props.RoundingCases

/-!
# C65: a concrete case, the small office with new systems
-/

namespace ISO.Props
open ISO ISO.Spec ISO.Hourly CNum Mach

/-- the systems of the small office -/
noncomputable def officeEquipment (M : Machine) : Equipment (Mach M) where
  heatingEfficiency := stored M 2.135
  coolingEfficiency := stored M 3.21
  heatingLoss := stored M 0.25
  coolingLoss := stored M 0
  waste := stored M 0
  fanPower := stored M 0.893
  heatingPump := stored M 0.25
  heatingPumpControl := stored M 1
  coolingPump := stored M 0.25
  coolingPumpControl := stored M 1
  exteriorLights := stored M 303.66
  exteriorEquipment := stored M 0

/-- new systems: better heating, cooling, pipes, fans, pumps and lights -/
noncomputable def newEquipment (M : Machine) : Equipment (Mach M) where
  heatingEfficiency := stored M 3.5
  coolingEfficiency := stored M 4.1
  heatingLoss := stored M 0.1
  coolingLoss := stored M 0
  waste := stored M 0
  fanPower := stored M 0.5
  heatingPump := stored M 0.2
  heatingPumpControl := stored M 0.5
  coolingPump := stored M 0.25
  coolingPumpControl := stored M 0.5
  exteriorLights := stored M 100
  exteriorEquipment := stored M 0

theorem stored_positive {M : Machine} {r : ℝ} (h0 : 2⁻¹ ^ 4 ≤ r) (h1 : r ≤ 2 ^ 53) : clt (0.0 : Mach M) (stored M r) = true := by
  have p : (0 : ℝ) < r := lt_of_lt_of_le (by positivity) h0
  have hp : (0 : EReal) < Fl.key (stored M r) := by
    rw [(key_stored p.le h1).1, EReal.coe_pos, NNReal.coe_pos]
    have h2 : (2⁻¹ ^ 4 : NNReal) ≤ Real.toNNReal r := by
      rw [← NNReal.coe_le_coe, Real.coe_toNNReal _ p.le]; push_cast; exact h0
    have h3 := ENNReal.toNNReal_mono (key_stored (M := M) p.le h1).2 ((M.half 4 (by norm_num)) ▸ M.mono h2)
    rw [ENNReal.toNNReal_coe] at h3
    exact lt_of_lt_of_le (by positivity) h3
  rw [zero]
  show Fl.lt (Fl.num false 0) (stored M r) = true
  unfold Fl.lt
  rw [show Fl.isNan (stored M r) = false from M.toRounding.ofReal_not_nan _ _]
  have e : (Fl.num false 0).key = 0 := by simp [Fl.key]
  rw [e, decide_eq_true hp]
  rfl

theorem new_noWorse (M : Machine) : NoWorse (newEquipment M) (officeEquipment M) := by
  have mil : (1000000.0 : Mach M) = stored M 1000000 := by
    show M.toRounding.ofReal false _ = M.toRounding.ofReal false _
    norm_num
  constructor
  case heatingPositive => exact stored_positive (by norm_num) (by norm_num)
  case coolingPositive => exact stored_positive (by norm_num) (by norm_num)
  case fanPositive => exact stored_positive (by norm_num) (by norm_num)
  case heatingLossSize => rw [mil]; exact stored_mono (by norm_num) (by norm_num) (by norm_num)
  case coolingLossSize => rw [mil]; exact stored_mono (by norm_num) (by norm_num) (by norm_num)
  case wasteSize => rw [mil]; exact stored_mono (by norm_num) (by norm_num) (by norm_num)
  all_goals exact stored_mono (by norm_num) (by norm_num) (by norm_num)

theorem new_sensible (M : Machine) : SensibleUse (withEquipment (smallOffice.map (stored M)) (newEquipment M)) := by
  have h := office_sensible M
  exact { h with
    lightExterior := stored_plain (r := 100) (by norm_num) (by norm_num)
    equipment := stored_plain (r := 0) (by norm_num) (by norm_num)
    fanPower := stored_plain (r := 0.5) (by norm_num) (by norm_num)
    pumpHeating := stored_plain (r := 0.2) (by norm_num) (by norm_num)
    pumpHeating' := stored_plain (r := 0.5) (by norm_num) (by norm_num)
    pumpCooling := stored_plain (r := 0.25) (by norm_num) (by norm_num)
    pumpCooling' := stored_plain (r := 0.5) (by norm_num) (by norm_num)
    lossHeating := stored_plain (r := 0.1) (by norm_num) (by norm_num)
    lossCooling := stored_plain (r := 0) (by norm_num) (by norm_num)
    waste := stored_plain (r := 0) (by norm_num) (by norm_num)
    efficiency := stored_plain (r := 3.5) (by norm_num) (by norm_num)
    cop := stored_plain (r := 4.1) (by norm_num) (by norm_num) }

example (M : Machine) : ∃ (m m' : Model (Mach M)) (out out' : List (EndUses (Mach M))),
    withEquipment (smallOffice.map (stored M)) (officeEquipment M) = smallOffice.map (stored M) ∧
    simulate true ⟨smallOffice.map (stored M), someWeather.map (stored M), Pushed.empty⟩ = some (m, out) ∧ out.length = 12 ∧
    simulate true ⟨withEquipment (smallOffice.map (stored M)) (newEquipment M), someWeather.map (stored M), Pushed.empty⟩ = some (m', out') ∧
    ∀ i (_ : i < out'.length) (_ : i < out.length) k, NoMore (out'[i] k) (out[i] k) := by
  have hw := office_window M
  obtain ⟨-, out, h1, h2, -⟩ := C28_order _ (simulate_of_window
    (m := ⟨smallOffice.map (stored M), someWeather.map (stored M), Pushed.empty⟩) hw)
  obtain ⟨m', out', h3, -, h4⟩ := C65_hourly (smallOffice.map (stored M)) (someWeather.map (stored M)) Pushed.empty
    (s' := newEquipment M) (s := officeEquipment M) (new_sensible M) (office_sensible M) (new_noWorse M) true h1
  exact ⟨_, m', out, out', rfl, h1, h2, h3, h4⟩

/-- the product of two numbers that are not small is not zero -/
theorem stored_mul_ne {M : Machine} {a b : ℝ} (ha : 2⁻¹ ^ 4 ≤ a) (ha' : a ≤ 2 ^ 53) (hb : 2⁻¹ ^ 4 ≤ b) (hb' : b ≤ 2 ^ 53) :
    ceq (stored M a * stored M b) 0.0 = false := by
  have key : ∀ r : ℝ, 2⁻¹ ^ 4 ≤ r → r ≤ 2 ^ 53 → ∃ m : NNReal, stored M r = Fl.num false m ∧ 2⁻¹ ^ 4 ≤ m := by
    intro r h0 h1
    have p : (0 : ℝ) < r := lt_of_lt_of_le (by positivity) h0
    have n3 : Real.toNNReal r ≤ 2 ^ 53 := by rw [← NNReal.coe_le_coe, Real.coe_toNNReal _ p.le]; push_cast; exact h1
    have h2 : (2⁻¹ ^ 4 : NNReal) ≤ Real.toNNReal r := by
      rw [← NNReal.coe_le_coe, Real.coe_toNNReal _ p.le]; push_cast; exact h0
    refine ⟨(M.round (Real.toNNReal r)).toNNReal, ?_, ?_⟩
    · unfold stored Rounding.ofReal
      rw [if_neg p.ne', decide_eq_false (not_lt.mpr p.le), abs_of_pos p]
      exact M.toRounding.make_num false n3
    · have h3 := ENNReal.toNNReal_mono (M.toRounding.round_ne_top n3) ((M.half 4 (by norm_num)) ▸ M.mono h2)
      rwa [ENNReal.toNNReal_coe] at h3
  obtain ⟨m, em, hm⟩ := key a ha ha'
  obtain ⟨n, en, hn⟩ := key b hb hb'
  rw [em, en, zero]
  show Fl.eq (M.toRounding.make false (m * n)) (Fl.num false 0) = false
  have h2 : (2⁻¹ ^ 8 : NNReal) ≤ m * n := by
    have := mul_le_mul' hm hn
    rwa [← pow_add] at this
  have h3 := (M.half 8 (by norm_num)) ▸ M.mono h2
  unfold Rounding.make
  split
  case isTrue => simp [Fl.eq, Fl.key]
  case isFalse h =>
    have h4 := ENNReal.toNNReal_mono h h3
    rw [ENNReal.toNNReal_coe] at h4
    have h5 := pos_ne_zero (M := M) (a := Fl.num false (M.round (m * n)).toNNReal) ⟨_, lt_of_lt_of_le (by positivity) h4, rfl⟩
    rw [zero] at h5
    exact h5

example (M : Machine) : ∃ out out', withEfficiency (monthlyOffice.map (stored M)) (stored M 2.135) (stored M 3.21) = monthlyOffice.map (stored M) ∧
    Monthly.simulate (monthlyOffice.map (stored M)) = some out ∧ out.length = 12 ∧
    Monthly.simulate (withEfficiency (monthlyOffice.map (stored M)) (stored M 3.5) (stored M 4.1)) = some out' ∧
    ∀ i (_ : i < out'.length) (_ : i < out.length) k, NoFarther (out'[i] k) (out[i] k) := by
  have mil : (1000000.0 : Mach M) = stored M 1000000 := by
    show M.toRounding.ofReal false _ = M.toRounding.ofReal false _
    norm_num
  have eff : ∀ r : ℝ, 2⁻¹ ^ 4 ≤ r → r ≤ 1000000 → Efficiency (stored M r) := by
    intro r h1 h2
    have h0 : (0 : ℝ) ≤ r := le_trans (by positivity) h1
    have h3 : r ≤ 2 ^ 53 := h2.trans (by norm_num)
    exact ⟨stored_plain h0 h3, stored_positive h1 h3, by rw [mil]; exact stored_mono h0 h2 (by norm_num)⟩
  obtain ⟨out, -, -, h1, h2⟩ := office_monthly_runs M
  obtain ⟨out', h3, -, h4⟩ := C65_monthly (monthlyOffice.map (stored M)) (e := stored M 2.135) (e' := stored M 3.5) (c := stored M 3.21) (c' := stored M 4.1)
    (eff _ (by norm_num) (by norm_num)) (eff _ (by norm_num) (by norm_num)) (eff _ (by norm_num) (by norm_num)) (eff _ (by norm_num) (by norm_num))
    (stored_mono (by norm_num) (by norm_num) (by norm_num)) (stored_mono (by norm_num) (by norm_num) (by norm_num))
    (stored_plain (r := 1.048) (by norm_num) (by norm_num)) (by rw [mil]; exact stored_mono (a := 1.048) (by norm_num) (by norm_num) (by norm_num))
    (stored_mul_ne (a := 0.87) (b := 0.9) (by norm_num) (by norm_num) (by norm_num) (by norm_num))
    (stored_mul_ne (a := 5.5) (b := 0.9) (by norm_num) (by norm_num) (by norm_num) (by norm_num))
    (stored_plain (r := 511.16) (by norm_num) (by norm_num)) (stored_positive (r := 511.16) (by norm_num) (by norm_num)) h1
  exact ⟨out, out', rfl, h1, h2, h3, fun i a b k => (h4 i a b k).1⟩

end ISO.Props
