import Verif.Lemmas.MachineSum
import Verif.Props.Aggregate
import Verif.Props.RoundingCases

/-!
# C64: adding up the hours in binary64
-/

namespace ISO.Props
open ISO ISO.Spec ISO.Hourly CNum Mach
open scoped NNReal

theorem sum_hours (f : ℕ → ℝ) (a b : ℕ) : ∑ i ∈ Finset.Ico a b, f i = ((List.range' a (b - a)).map f).sum := rfl

/-- C64: on every machine with the rounding of binary64, each monthly figure of an end use differs from the exact sum of the hourly figures of
its month by at most one part in 10^13 of the sum of their absolute values (and 2^-1022). -/
theorem C64_sums {M : Machine} (hR : M.toRounding = Binary64.rounding) (m : Model (Mach M)) {m' : Model (Mach M)}
    {hourly : List (EndUses (Mach M))} (h : simulate false m = some (m', hourly)) :
    ∃ out, simulate true m = some (m', out) ∧ out.length = 12 ∧ ∀ j (hj : j < out.length) (k : Fin 13) (v : ℕ → ℝ),
      (∀ i ∈ hoursOfMonth (j + 1), ∀ u, hourly[i]? = some u → Represents (u k) (v i)) →
      ∑ i ∈ hoursOfMonth (j + 1), |v i| ≤ 2 ^ 1000 →
      ∃ r : ℝ, Represents (out[j] k) r ∧
        |r - ∑ i ∈ hoursOfMonth (j + 1), v i| ≤ (∑ i ∈ hoursOfMonth (j + 1), |v i| + 2⁻¹ ^ 1022) / 10 ^ 13 := by
  obtain ⟨hl, out, h1, h2, h3⟩ := C28_order m h
  refine ⟨out, h1, h2, ?_⟩
  intro j hj k v hv hb
  rw [h3 j hj k]
  have hj' : j < 12 := by omega
  have hd : 24 * daysBefore (j + 2) - 24 * daysBefore (j + 1) ≤ 744 ∧ 24 * daysBefore (j + 2) ≤ 8760 := by
    have : ∀ j < 12, 24 * daysBefore (j + 2) - 24 * daysBefore (j + 1) ≤ 744 ∧ 24 * daysBefore (j + 2) ≤ 8760 := by decide
    exact this j hj'
  unfold hoursOfMonth at hv hb ⊢
  rw [sum_hours] at hb
  rw [sum_hours, sum_hours]
  have hrep : List.Forall₂ Represents
      ((List.range' (24 * daysBefore (j + 1)) (24 * daysBefore (j + 2) - 24 * daysBefore (j + 1))).map
        fun i => (hourly.map fun u => u k).getD i 0.0)
      ((List.range' (24 * daysBefore (j + 1)) (24 * daysBefore (j + 2) - 24 * daysBefore (j + 1))).map v) := by
    rw [List.forall₂_map_left_iff, List.forall₂_map_right_iff, List.forall₂_same]
    intro i hi
    rw [List.mem_range'_1] at hi
    have hi' : i < hourly.length := by omega
    have := hv i (by rw [Finset.mem_Ico]; show _ ∧ i < 24 * daysBefore (j + 2); omega) hourly[i] (List.getElem?_eq_getElem hi')
    rw [List.getD_eq_getElem?_getD, List.getElem?_map, List.getElem?_eq_getElem hi']
    exact this
  have e0 : (|(0 : ℝ) - 0|) ≤ ((1 + 1 / 2 ^ 53) ^ 0 - 1) * (0 + 2⁻¹ ^ 1022) := by
    rw [pow_zero, sub_self, sub_self, zero_mul, abs_zero]
  obtain ⟨r, r1, r2⟩ := sum_error hR _ _ hrep 0 0.0 0 0 0 (by simpa using hd.1) ⟨false, 0, zero, by simp [Fl.value]⟩ (by rw [abs_zero])
    (by rw [zero_add, List.map_map]; exact hb) e0
  refine ⟨r, r1, ?_⟩
  rw [zero_add, zero_add, List.map_map] at r2
  exact r2

/-! ## A case: the appliances of the small office -/

theorem stored_between {M : Machine} {r : ℝ} {a b : ℕ} (h1 : (a : ℝ) ≤ r) (h2 : r ≤ b) (ha : 0 < a) (hb : b ≤ 2 ^ 53) :
    ∃ m : ℝ≥0, stored M r = Fl.num false m ∧ a ≤ m ∧ m ≤ b := by
  have h0 : (0 : ℝ) < r := lt_of_lt_of_le (by exact_mod_cast ha) h1
  have n1 : (a : ℝ≥0) ≤ Real.toNNReal r := by rw [← NNReal.coe_le_coe, Real.coe_toNNReal _ h0.le]; exact h1
  have n2 : Real.toNNReal r ≤ b := by rw [← NNReal.coe_le_coe, Real.coe_toNNReal _ h0.le]; exact h2
  have n3 : Real.toNNReal r ≤ 2 ^ 53 := n2.trans (by exact_mod_cast hb)
  refine ⟨(M.round (Real.toNNReal r)).toNNReal, ?_, ?_, ?_⟩
  · unfold stored Rounding.ofReal
    rw [if_neg h0.ne', decide_eq_false (not_lt.mpr h0.le), abs_of_pos h0]
    exact M.toRounding.make_num false n3
  · have ha' : a ≤ 2 ^ 53 := by
      have : (a : ℝ≥0) ≤ b := n1.trans n2
      exact le_trans (by exact_mod_cast this) hb
    have := ENNReal.toNNReal_mono (M.toRounding.round_ne_top n3) (M.toRounding.le_round n1 ha')
    simpa using this
  · have := ENNReal.toNNReal_mono (by simp) (M.toRounding.round_le n2 hb)
    simpa using this

theorem thousandth {M : Machine} {m : ℝ≥0} (h1 : 2 ≤ m) (h2 : m ≤ 5) :
    ∃ r : ℝ, Represents ((show Mach M from Fl.num false m) / 1000.0) r ∧ 2⁻¹ ^ 9 ≤ r ∧ r ≤ 1 := by
  have e : (1000.0 : Mach M) = Fl.num false ((1000 : ℕ) : ℝ≥0) := whole_lit 1000 (by norm_num) (by norm_num)
  have c1 : m / ((1000 : ℕ) : ℝ≥0) ≤ ((1 : ℕ) : ℝ≥0) := by
    rw [div_le_iff₀ (by norm_num)]; refine h2.trans ?_; norm_num
  have c2 : (2⁻¹ ^ 9 : ℝ≥0) ≤ m / ((1000 : ℕ) : ℝ≥0) := by
    rw [le_div_iff₀ (by norm_num)]; refine le_trans ?_ h1; rw [← NNReal.coe_le_coe]; push_cast; norm_num
  have c3 : m / ((1000 : ℕ) : ℝ≥0) ≤ 2 ^ 53 := c1.trans (by norm_num)
  refine ⟨(M.round (m / ((1000 : ℕ) : ℝ≥0))).toNNReal, ⟨false, (M.round (m / ((1000 : ℕ) : ℝ≥0))).toNNReal, ?_, rfl⟩, ?_, ?_⟩
  · rw [e]
    show M.toRounding.div (.num false m) (.num false ((1000 : ℕ) : ℝ≥0)) = _
    simp only [Rounding.div]
    rw [if_neg (by norm_num)]
    exact M.toRounding.make_num _ c3
  · have := ENNReal.toNNReal_mono (M.toRounding.round_ne_top c3) ((M.half 9 (by norm_num)) ▸ M.mono c2)
    rw [ENNReal.toNNReal_coe] at this
    exact_mod_cast this
  · have := ENNReal.toNNReal_mono (by simp) (M.toRounding.round_le c1 (by norm_num))
    exact_mod_cast this

example {M : Machine} (hR : M.toRounding = Binary64.rounding) : ∃ (m' : Model (Mach M)) (hourly out : List (EndUses (Mach M))) (v : ℕ → ℝ),
    simulate false ⟨smallOffice.map (stored M), someWeather.map (stored M), Pushed.empty⟩ = some (m', hourly) ∧
    (∀ i u, hourly[i]? = some u → Represents (u 6) (v i) ∧ 0 < v i) ∧
    simulate true ⟨smallOffice.map (stored M), someWeather.map (stored M), Pushed.empty⟩ = some (m', out) ∧
    ∃ u, out[0]? = some u ∧ ∃ r, Represents (u 6) r ∧ |r - ∑ i ∈ hoursOfMonth 1, v i| ≤ (∑ i ∈ hoursOfMonth 1, |v i| + 2⁻¹ ^ 1022) / 10 ^ 13 := by
  have hw := office_window M
  have h := simulate_of_window (m := ⟨smallOffice.map (stored M), someWeather.map (stored M), Pushed.empty⟩) hw
  obtain ⟨out, o1, o2, o3⟩ := C64_sums hR _ h
  have hlen := rawResults_length (smallOffice.map (stored M)) (pushAll (smallOffice.map (stored M)).bldg Pushed.empty).ratios
    ⟨1, 5, 8, 17⟩ (someWeather.map (stored M))
  have hget := rawResults_get (smallOffice.map (stored M)) (pushAll (smallOffice.map (stored M)).bldg Pushed.empty).ratios
    ⟨1, 5, 8, 17⟩ (someWeather.map (stored M)) rfl
  generalize rawResults (smallOffice.map (stored M)) (pushAll (smallOffice.map (stored M)).bldg Pushed.empty).ratios
    ⟨1, 5, 8, 17⟩ (someWeather.map (stored M)) = rs at h hlen hget o3
  have key : ∀ (i : ℕ) (u : EndUses (Mach M)), (endUses (smallOffice.map (stored M)) rs)[i]? = some u → ∃ r : ℝ, Represents (u 6) r ∧ 2⁻¹ ^ 9 ≤ r ∧ r ≤ 1 := by
    intro i u hu
    obtain ⟨hi, rfl⟩ := List.getElem?_eq_some_iff.mp hu
    have hi' : i < rs.length := by rw [endUses_length] at hi; exact hi
    obtain ⟨st, e⟩ := hget i hi' (by omega)
    rw [endUses_get _ rs i hi hi', e]
    have occ : ∀ sch : Schedule (Mach M), sch.interiorEquipment = stored M 4.831 ∨ sch.interiorEquipment = stored M 2.248 →
        ∀ c r w, ∃ q : ℝ, Represents (hourEndUses (smallOffice.map (stored M)) (yearDistribution (smallOffice.map (stored M)) rs)
          (calculateHour (smallOffice.map (stored M)) c r sch w st).2 6) q ∧ 2⁻¹ ^ 9 ≤ q ∧ q ≤ 1 := by
      intro sch hs c r w
      show ∃ q : ℝ, Represents (sch.interiorEquipment / 1000.0) q ∧ _
      rcases hs with hs | hs <;> rw [hs]
      · obtain ⟨m, e, m1, m2⟩ := stored_between (M := M) (r := 4.831) (a := 4) (b := 5) (by norm_num) (by norm_num) (by norm_num) (by norm_num)
        rw [e]; exact thousandth (le_trans (by norm_num) m1) m2
      · obtain ⟨m, e, m1, m2⟩ := stored_between (M := M) (r := 2.248) (a := 2) (b := 3) (by norm_num) (by norm_num) (by norm_num) (by norm_num)
        rw [e]; exact thousandth m1 (m2.trans (by norm_num))
    refine occ _ ?_ _ _ _
    have pick : ∀ b : Bool, (bif b then stored M 4.831 else stored M 2.248) = stored M 4.831 ∨
        (bif b then stored M 4.831 else stored M 2.248) = stored M 2.248 := by
      intro b
      cases b
      · exact .inr rfl
      · exact .inl rfl
    exact pick _
  have key' : ∀ i : ℕ, ∃ r : ℝ, 2⁻¹ ^ 9 ≤ r ∧ r ≤ 1 ∧ ∀ u : EndUses (Mach M),
      (endUses (smallOffice.map (stored M)) rs)[i]? = some u → Represents (u 6) r := by
    intro i
    cases hu : (endUses (smallOffice.map (stored M)) rs)[i]? with
    | none => exact ⟨1, by norm_num, le_rfl, fun u h => by cases h⟩
    | some u =>
      obtain ⟨r, r1, r2, r3⟩ := key i u hu
      exact ⟨r, r2, r3, fun u' h => by cases h; exact r1⟩
  choose v v1 v2 v3 using key'
  refine ⟨_, _, out, v, h, fun i u hu => ⟨v3 i u hu, lt_of_lt_of_le (by positivity) (v1 i)⟩, o1, out[0]'(by omega),
    List.getElem?_eq_getElem (by omega), o3 0 (by omega) 6 v (fun i _ u hu => v3 i u hu) ?_⟩
  have : ∑ i ∈ hoursOfMonth (0 + 1), |v i| ≤ ∑ i ∈ hoursOfMonth (0 + 1), (1 : ℝ) :=
    Finset.sum_le_sum fun i _ => abs_le.mpr ⟨by have := v1 i; have : (0 : ℝ) < 2⁻¹ ^ 9 := by positivity
                                                linarith [v1 i], v2 i⟩
  refine this.trans ?_
  rw [Finset.sum_const, nsmul_eq_mul, mul_one]
  have hc : (hoursOfMonth (0 + 1)).card = 744 := by rw [hoursOfMonth, Nat.card_Ico]; decide
  rw [hc]
  refine le_trans (b := (2 : ℝ) ^ 10) (by norm_num) (pow_le_pow_right₀ (by norm_num) (by norm_num))

end ISO.Props
