import Verif.Num.Binary64
import Verif.Props.Rounding
import Verif.Props.RoundingMonthly
import Verif.Props.MonthlyGains
import Mathlib.Analysis.SpecialFunctions.Pow.NNReal

/-!
# C63: signs in rounded arithmetic, concrete cases
-/

namespace ISO.Props
open ISO ISO.Spec CNum Mach
open scoped NNReal ENNReal

/-! ## Values of the rounding -/

theorem nearest_eq {y : ℝ} {n : ℤ} (h1 : (n : ℝ) - 1 / 2 < y) (h2 : y < n + 1 / 2) : Binary64.nearest y = n := by
  unfold Binary64.nearest
  rcases le_or_gt (n : ℝ) y with h | h
  · have hf : ⌊y⌋ = n := Int.floor_eq_iff.mpr ⟨h, by linarith⟩
    rw [hf, if_pos (by linarith)]
  · have hf : ⌊y⌋ = n - 1 := Int.floor_eq_iff.mpr ⟨by push_cast; linarith, by push_cast; linarith⟩
    rw [hf, if_neg (by push_cast; linarith), if_pos (by push_cast; linarith)]
    omega

/-- the rounded value of a number between `2^l` and `2^(l+1)`: the nearest multiple of `2^(l-52)` -/
theorem digits_eq {x : ℝ} (l n : ℤ) (hl : -1022 ≤ l) (h1 : (2 : ℝ) ^ l ≤ x) (h2 : x < 2 ^ (l + 1))
    (h3 : ((n : ℝ) - 1 / 2) * 2 ^ (l - 52) < x) (h4 : x < (n + 1 / 2) * 2 ^ (l - 52)) : Binary64.digits x = n * 2 ^ (l - 52) := by
  have hx : 0 < x := lt_of_lt_of_le (by positivity) h1
  have e1 : l ≤ Int.log 2 x := (Int.zpow_le_iff_le_log (by norm_num) hx).mp (by exact_mod_cast h1)
  have e2 : Int.log 2 x < l + 1 := (Int.lt_zpow_iff_log_lt (by norm_num) hx).mp (by exact_mod_cast h2)
  have e : Binary64.lastPlace x = l - 52 := by unfold Binary64.lastPlace; omega
  have p : (0 : ℝ) < 2 ^ (l - 52) := by positivity
  unfold Binary64.digits
  rw [e, nearest_eq (n := n) ((lt_div_iff₀ p).mpr h3) ((div_lt_iff₀ p).mpr h4)]

theorem make_eq (s : Bool) {x y : ℝ≥0} (h : Binary64.digits x = y) (hy : y ≤ 2 ^ 100) : Binary64.rounding.make s x = Fl.num s y := by
  have h2 : ¬ (2 : ℝ) ^ 1024 ≤ y := by
    rw [not_le]
    refine lt_of_le_of_lt (b := (2 : ℝ) ^ 100) (by exact_mod_cast hy) ?_
    exact pow_lt_pow_right₀ (by norm_num) (by norm_num)
  unfold Rounding.make
  have e : Binary64.rounding.round x = ENNReal.ofReal (y : ℝ) := by
    show (if (2 : ℝ) ^ 1024 ≤ Binary64.digits x then ⊤ else ENNReal.ofReal (Binary64.digits x)) = _
    rw [h, if_neg h2]
  rw [e, if_neg ENNReal.ofReal_ne_top]
  simp

/-! ## The heating need can be below zero -/

/-- the number with a sign and a magnitude -/
def signed {M : Machine} (s : Bool) (m : ℝ≥0) : Mach M := Fl.num s m

/-- one minus a larger number -/
theorem one_sub_signed {M : Machine} (hR : M.toRounding = Binary64.rounding) {a b c : ℝ≥0} (h : a = 1 + b) (hb : 0 < b)
    (hd : Binary64.digits b = c) (hc : c ≤ 2 ^ 100) : (1.0 - signed false a : Mach M) = signed true c := by
  rw [one]
  show M.toRounding.ofReal (false && true) ((1 : ℝ≥0) + -(a : ℝ)) = _
  have e : ((1 : ℝ≥0) : ℝ) + -(a : ℝ) = -(b : ℝ) := by rw [h]; push_cast; ring
  have pos : (0 : ℝ) < b := by exact_mod_cast hb
  rw [e, hR]
  unfold Rounding.ofReal
  rw [if_neg (by linarith), decide_eq_true (by linarith), abs_neg, abs_of_pos pos, Real.toNNReal_coe, make_eq _ hd hc]
  rfl

/-- `DBL_MIN` is far below the last place of one -/
theorem tiny_dblMin {M : Machine} : ∃ d : ℝ≥0, (dblMin : Mach M) = signed false d ∧ (d : ℝ) ≤ 1 / 2 ^ 60 := by
  have e : (dblMin : ℝ) = 22250738585072014 / 10 ^ 324 := by
    show (OfScientific.ofScientific 22250738585072014 true 324 : ℝ) = _
    rw [NNRatCast.ofScientific_eq_ite, if_pos rfl, NNRat.divNat_eq_div]
    push_cast; rfl
  have small : (dblMin : ℝ) ≤ 1 / 2 ^ 60 := by
    rw [e, div_le_iff₀ (by positivity)]
    have : (10:ℝ) ^ 324 = 10 ^ 100 * 10 ^ 224 := by rw [← pow_add]
    have h1 : (1:ℝ) ≤ 10 ^ 224 := one_le_pow₀ (by norm_num)
    have h2 : (22250738585072014 : ℝ) ≤ 1 / 2 ^ 60 * 10 ^ 100 := by norm_num
    rw [this]; nlinarith
  have pos : (0 : ℝ) < dblMin := dblMin_pos
  show ∃ d : ℝ≥0, M.toRounding.ofReal false (dblMin : ℝ) = signed (M := M) false d ∧ (d : ℝ) ≤ 1 / 2 ^ 60
  generalize (dblMin : ℝ) = x at small pos
  have h1 : Real.toNNReal x ≤ 2⁻¹ ^ 60 := by
    rw [Real.toNNReal_le_iff_le_coe]
    push_cast
    rw [inv_pow, ← one_div]
    exact small
  have h2 := M.mono h1
  rw [M.half 60 (by norm_num)] at h2
  have h3 : M.round (Real.toNNReal x) ≠ ⊤ := ne_top_of_le_ne_top ENNReal.coe_ne_top h2
  refine ⟨(M.round (Real.toNNReal x)).toNNReal, ?_, ?_⟩
  · unfold Rounding.ofReal Rounding.make
    rw [if_neg pos.ne', decide_eq_false (not_lt.mpr pos.le), abs_of_pos pos, if_neg h3]
    rfl
  · have h4 := ENNReal.toNNReal_mono ENNReal.coe_ne_top h2
    rw [ENNReal.toNNReal_coe, ← NNReal.coe_le_coe] at h4
    refine le_trans h4 (le_of_eq ?_)
    push_cast
    rw [inv_pow, ← one_div]

/-- C63, the exception: on a machine with the rounding of binary64 whose `pow` gives the nearest numbers to 27^12 and 27^13, the monthly heating
need for a loss of 1, a gain of 27 and the exponent 12 is below zero (it is -2^-52: the utilisation factor times the gain is rounded to a number
above the loss).  In exact arithmetic it is positive. -/
theorem C63_negative {M : Machine} (hR : M.toRounding = Binary64.rounding)
    (h12 : cpow (27.0 : Mach M) 12.0 = Binary64.rounding.make false (27 ^ 12))
    (h13 : cpow (27.0 : Mach M) 13.0 = Binary64.rounding.make false (27 ^ 13)) :
    clt (Monthly.heatingNeed (12.0 : Mach M) 27.0 1.0) 0.0 = true := by
  have lit27 : (27.0 : Mach M) = signed false 27 := by rw [lit_nat 27 (by norm_num) (by norm_num)]; rfl
  have lit12 : (12.0 : Mach M) = whole 12 := by rw [whole_lit 12 (by norm_num) (by norm_num)]
  have lit13 : (13.0 : Mach M) = whole 13 := by rw [whole_lit 13 (by norm_num) (by norm_num)]
  have lit1 : (1.0 : Mach M) = whole 1 := by rw [whole_lit 1 (by norm_num) (by norm_num)]
  -- the loss is not changed by the addition of DBL_MIN
  have e1 : (1.0 + dblMin : Mach M) = signed false 1 := by
    obtain ⟨d, hd, hd'⟩ : ∃ d : ℝ≥0, (dblMin : Mach M) = signed false d ∧ (d : ℝ) ≤ 1 / 2 ^ 60 := tiny_dblMin
    rw [hd, one]
    show M.toRounding.ofReal (false && false) ((1 : ℝ≥0) + (d : ℝ)) = _
    have h0 : (0 : ℝ) ≤ d := d.2
    have e : ((1 : ℝ≥0) : ℝ) + (d : ℝ) = ((1 + d : ℝ≥0) : ℝ) := by push_cast; rfl
    rw [hR, e]
    unfold Rounding.ofReal
    have pos : (0 : ℝ) < ((1 + d : ℝ≥0) : ℝ) := by push_cast; linarith
    rw [if_neg pos.ne', decide_eq_false (not_lt.mpr pos.le), abs_of_pos pos, Real.toNNReal_coe,
      make_eq (y := 1) _ (by rw [digits_eq 0 4503599627370496 (by norm_num)] <;> push_cast <;> norm_num <;> linarith) (by norm_num)]
    rfl
  have e2 : Monthly.vdiv (27.0 : Mach M) (1.0 + dblMin) = signed false 27 := by
    rw [e1, lit27]
    unfold Monthly.vdiv
    have e0 : ceq (signed false 1 : Mach M) 0.0 = false := by
      rw [zero]
      show Fl.eq _ _ = false
      simp [Fl.eq, signed, Fl.key, Fl.isNan]
    rw [e0]
    show M.toRounding.div (Fl.num false 27) (Fl.num false 1) = _
    simp only [Rounding.div]
    rw [if_neg one_ne_zero, div_one]
    exact M.toRounding.make_int false (n := 27) (by norm_num)
  have e3 : (12.0 + 1.0 : Mach M) = 13.0 := by rw [lit12, lit1, lit13, whole_add (by norm_num)]
  have p12 : Binary64.rounding.make false (27 ^ 12) = Fl.num false (4690457353031223 * 32) :=
    make_eq _ (by
      rw [digits_eq 57 4690457353031223 (by norm_num)] <;> norm_num) (by norm_num)
  have p13 : Binary64.rounding.make false (27 ^ 13) = Fl.num false (7915146783240188 * 512) :=
    make_eq _ (by
      rw [digits_eq 61 7915146783240188 (by norm_num)] <;> norm_num) (by norm_num)
  have s12 : (1.0 - signed false (4690457353031223 * 32) : Mach M) = signed true (4690457353031223 * 32) :=
    one_sub_signed hR (b := 4690457353031223 * 32 - 1) (by rw [add_tsub_cancel_of_le (by norm_num)]) (by norm_num)
      (by
        rw [NNReal.coe_sub (by norm_num), digits_eq 57 4690457353031223 (by norm_num)] <;> norm_num) (by norm_num)
  have s13 : (1.0 - signed false (7915146783240188 * 512) : Mach M) = signed true (7915146783240188 * 512) :=
    one_sub_signed hR (b := 7915146783240188 * 512 - 1) (by rw [add_tsub_cancel_of_le (by norm_num)]) (by norm_num)
      (by
        rw [NNReal.coe_sub (by norm_num), digits_eq 61 7915146783240188 (by norm_num)] <;> norm_num) (by norm_num)
  have q : (signed true (4690457353031223 * 32) : Mach M) / signed true (7915146783240188 * 512) = signed false (5337599558365033 / 2 ^ 57) := by
    show M.toRounding.div (Fl.num true _) (Fl.num true _) = _
    simp only [Rounding.div]
    rw [if_neg (by norm_num), hR]
    exact make_eq _ (by rw [digits_eq (-5) 5337599558365033 (by norm_num)] <;> push_cast <;> norm_num) (by
      refine le_trans (b := 1) ?_ (by norm_num)
      rw [div_le_one (by norm_num)]; norm_num)
  have r : (signed false (5337599558365033 / 2 ^ 57) : Mach M) * signed false 27 = signed false (4503599627370497 / 2 ^ 52) := by
    show M.toRounding.make (false ^^ false) _ = _
    rw [hR]
    exact make_eq _ (by rw [digits_eq 0 4503599627370497 (by norm_num)] <;> push_cast <;> norm_num) (by
      refine le_trans (b := 2) ?_ (by norm_num)
      rw [div_le_iff₀ (by norm_num)]; norm_num)
  have t : (1.0 - signed false (4503599627370497 / 2 ^ 52) : Mach M) = signed true (1 / 2 ^ 52) :=
    one_sub_signed hR (b := 1 / 2 ^ 52) (by norm_num) (by norm_num)
      (by rw [digits_eq (-52) 4503599627370496 (by norm_num)] <;> push_cast <;> norm_num) (by
        refine le_trans (b := 1) ?_ (by norm_num)
        rw [div_le_one (by norm_num)]; norm_num)
  have g : clt (0.0 : Mach M) (signed false 27) = true := by
    rw [zero]
    show Fl.lt _ _ = true
    simp [Fl.lt, signed, Fl.key, Fl.isNan]
  have eta : Monthly.etaHeating (12.0 : Mach M) (signed false 27) = signed false (5337599558365033 / 2 ^ 57) := by
    unfold Monthly.etaHeating
    rw [g, e3, ← lit27, h12, h13, p12, p13]
    show (1.0 - signed false _ : Mach M) / (1.0 - signed false _) = _
    rw [s12, s13, q]
  unfold Monthly.heatingNeed
  rw [e2, eta, lit27, r, t, zero]
  show Fl.lt _ _ = true
  simp [Fl.lt, signed, Fl.key, Fl.isNan]

/-! ## Concrete cases -/

/-- a machine with the rounding of binary64, an exactly rounded `pow`, and no other mathematical functions -/
noncomputable def desktop : Machine where
  toRounding := Binary64.rounding
  pow a b := match a, b with
    | .num false m, .num false n => Binary64.rounding.make false (m ^ (n : ℝ))
    | _, _ => .nan
  exp _ := .nan
  sin _ := .nan
  cos _ := .nan
  asin _ := .nan
  acos _ := .nan
  atan2 _ _ := .nan

example : clt (Monthly.heatingNeed (12.0 : Mach desktop) 27.0 1.0) 0.0 = true := by
  have l (m n : ℕ) (h : (OfScientific.ofScientific m true 1 : ℝ) = n) (hn : n ≤ 2 ^ 53) :
      (OfScientific.ofScientific m true 1 : Mach desktop) = Fl.num false n := lit_nat n h hn
  refine C63_negative rfl ?_ ?_
  · rw [l 270 27 (by norm_num) (by norm_num), l 120 12 (by norm_num) (by norm_num)]
    show Binary64.rounding.make false ((27 : ℕ) ^ (((12 : ℕ) : ℝ≥0) : ℝ)) = _
    rw [NNReal.coe_natCast, NNReal.rpow_natCast]
    norm_num
  · rw [l 270 27 (by norm_num) (by norm_num), l 130 13 (by norm_num) (by norm_num)]
    show Binary64.rounding.make false ((27 : ℕ) ^ (((13 : ℕ) : ℝ≥0) : ℝ)) = _
    rw [NNReal.coe_natCast, NNReal.rpow_natCast]
    norm_num

/-- a real number as a machine has it -/
noncomputable def stored (M : Machine) (r : ℝ) : Mach M := M.toRounding.ofReal false r

theorem stored_plain {M : Machine} {r : ℝ} (h0 : 0 ≤ r) (h1 : r ≤ 2 ^ 53) : PlainNumber (stored M r) := by
  unfold stored Rounding.ofReal
  split
  · exact ⟨0, rfl⟩
  · rw [decide_eq_false (not_lt.mpr h0), M.toRounding.make_num]
    · exact ⟨_, rfl⟩
    · rw [abs_of_nonneg h0, Real.toNNReal_le_iff_le_coe]
      exact_mod_cast h1

theorem stored_whole {M : Machine} {r : ℝ} (n : ℕ) (h : r = n) (hn : n ≤ 2 ^ 53) : stored M r = whole n := by
  subst h; exact M.toRounding.ofReal_nat n hn

theorem key_stored {M : Machine} {r : ℝ} (h0 : 0 ≤ r) (h1 : r ≤ 2 ^ 53) :
    Fl.key (stored M r) = (((M.round (Real.toNNReal r)).toNNReal : ℝ) : EReal) ∧ M.round (Real.toNNReal r) ≠ ⊤ := by
  have ht : M.round (Real.toNNReal r) ≠ ⊤ := M.toRounding.round_ne_top (by rw [Real.toNNReal_le_iff_le_coe]; exact_mod_cast h1)
  refine ⟨?_, ht⟩
  unfold stored Rounding.ofReal
  split
  case isTrue h => subst h; simp [M.toRounding.round_zero, Fl.key]
  case isFalse h =>
    rw [decide_eq_false (not_lt.mpr h0), abs_of_nonneg h0]
    unfold Rounding.make
    rw [if_neg ht]
    rfl

theorem stored_mono {M : Machine} {a b : ℝ} (h0 : 0 ≤ a) (h : a ≤ b) (h1 : b ≤ 2 ^ 53) : AtMost (stored M a) (stored M b) := by
  by_contra hc
  have hk := (Fl.lt_true (Bool.eq_true_of_not_eq_false hc)).2.2
  rw [(key_stored (h0.trans h) h1).1, (key_stored h0 (h.trans h1)).1, EReal.coe_lt_coe_iff, NNReal.coe_lt_coe] at hk
  exact absurd hk (not_lt.mpr (ENNReal.toNNReal_mono (key_stored (h0.trans h) h1).2 (M.mono (Real.toNNReal_le_toNNReal h))))

theorem office_sensible (M : Machine) : SensibleUse (smallOffice.map (stored M)) := by
  constructor
  case floor =>
    have hp : (0 : EReal) < Fl.key (stored M 511.16) := by
      rw [(key_stored (by norm_num) (by norm_num)).1, EReal.coe_pos, NNReal.coe_pos]
      have h1 : ((1 : ℕ) : ℝ≥0∞) ≤ M.round (Real.toNNReal 511.16) :=
        M.toRounding.le_round (by rw [Nat.cast_one, Real.one_le_toNNReal]; norm_num) (by norm_num)
      have h2 := ENNReal.toNNReal_mono (key_stored (M := M) (r := 511.16) (by norm_num) (by norm_num)).2 h1
      refine lt_of_lt_of_le ?_ h2
      norm_num
    rw [zero]
    show Fl.lt (Fl.num false 0) (stored M 511.16) = true
    unfold Fl.lt
    rw [show Fl.isNan (stored M 511.16) = false from M.toRounding.ofReal_not_nan _ _]
    rw [show (Fl.num false 0).key = 0 by simp [Fl.key], decide_eq_true hp]
    rfl
  case daylight => exact stored_mono le_rfl (by norm_num [smallOffice]) (by norm_num [smallOffice])
  case daylight' => exact stored_mono (a := 0.0001) (by norm_num) (by norm_num [smallOffice]) (by norm_num [smallOffice])
  all_goals exact stored_plain (by norm_num [smallOffice]) (by norm_num [smallOffice])

theorem int_whole {M : Machine} (n : ℕ) (h : n ≤ 2147483647) : cint (whole n : Mach M) = some (n : ℤ) := by
  show cintR (n : ℝ≥0) = _
  have e : truncR ((n : ℝ≥0) : ℝ) = n := by
    unfold truncR
    rw [if_pos (NNReal.coe_nonneg _), NNReal.coe_natCast, Int.floor_natCast]
  unfold cintR
  rw [e, if_pos ⟨by omega, by omega⟩]

theorem office_window (M : Machine) : Hourly.window (smallOffice.map (stored M)).pop = some ⟨1, 5, 8, 17⟩ := by
  unfold Hourly.window
  show (do
    let ds ← cint (stored M 1)
    let de ← cint (stored M 5)
    let hs ← cint (stored M 8)
    let he ← cint (stored M 17)
    pure (⟨ds, de, hs, he⟩ : Hourly.Window)) = _
  rw [stored_whole (r := 1) 1 (by norm_num) (by norm_num), stored_whole (r := 5) 5 (by norm_num) (by norm_num),
    stored_whole (r := 8) 8 (by norm_num) (by norm_num), stored_whole (r := 17) 17 (by norm_num) (by norm_num),
    int_whole _ (by norm_num), int_whole _ (by norm_num), int_whole _ (by norm_num), int_whole _ (by norm_num)]
  rfl

example (M : Machine) : ∃ (m' : Hourly.Model (Mach M)) (out : List (Hourly.EndUses (Mach M))),
    SensibleUse (smallOffice.map (stored M)) ∧
    Hourly.simulate true ⟨smallOffice.map (stored M), someWeather.map (stored M), Hourly.Pushed.empty⟩ = some (m', out) ∧ out.length = 12 := by
  have hw := office_window M
  obtain ⟨-, out, h1, h2, -⟩ := C28_order _ (Hourly.simulate_of_window
    (m := ⟨smallOffice.map (stored M), someWeather.map (stored M), Hourly.Pushed.empty⟩) hw)
  exact ⟨_, out, office_sensible M, h1, h2⟩

theorem office_timetable (M : Machine) : Timetable (monthlyOffice.map (stored M)) 8 17 1 5 7 18 50 := by
  constructor
  case hours => norm_num
  case days => norm_num
  case light => norm_num
  case meet => norm_num
  case year => norm_num
  all_goals exact stored_whole _ (by norm_num [monthlyOffice, smallOffice]) (by norm_num)

theorem office_monthly (M : Machine) : SensibleMonthly (monthlyOffice.map (stored M)) := by
  constructor <;> exact stored_plain (by norm_num [monthlyOffice, smallOffice]) (by norm_num [monthlyOffice, smallOffice])

theorem office_monthly_runs (M : Machine) : ∃ out, Timetable (monthlyOffice.map (stored M)) 8 17 1 5 7 18 50 ∧ SensibleMonthly (monthlyOffice.map (stored M)) ∧
    Monthly.simulate (monthlyOffice.map (stored M)) = some out ∧ out.length = 12 := by
  have one : ∀ r : ℝ, r = 1 → cint (stored M r) = some 1 := by
    intro r hr
    rw [stored_whole (r := r) 1 (by rw [hr]; norm_num) (by norm_num), int_whole 1 (by norm_num)]
    rfl
  have sun : ∀ m, (Monthly.hoursSunDown ((monthlyOffice.map (stored M)).weather.mhEgh m) m).isSome := by
    intro m
    have noon : (!ceq ((monthlyOffice.map (stored M)).weather.mhEgh m 12) 0.0) = true := by
      show (!ceq (stored M (if 6 ≤ (12 : Fin 24).1 ∧ (12 : Fin 24).1 ≤ 18 then 200 else 0)) 0.0) = true
      rw [if_pos (by decide), stored_whole (r := 200) 200 (by norm_num) (by norm_num), zero]
      show (!Fl.eq _ _) = true
      simp [Fl.eq, whole, Fl.key, Fl.isNan]
    generalize (monthlyOffice.map (stored M)).weather.mhEgh m = row at noon
    unfold Monthly.hoursSunDown
    have h1 : (Monthly.sunUp row).isSome := List.find?_isSome.mpr ⟨12, List.mem_finRange _, noon⟩
    have h2 : (Monthly.sunDown row).isSome := List.find?_isSome.mpr ⟨12, by simp, noon⟩
    obtain ⟨u, hu⟩ := Option.isSome_iff_exists.mp h1
    obtain ⟨d, hd⟩ := Option.isSome_iff_exists.mp h2
    rw [hu, hd]
    rfl
  have facade : ∀ i, (Monthly.shadingFactor ((monthlyOffice.map (stored M)).bldg.windowShadingDevice i)).isSome := by
    intro i
    unfold Monthly.shadingFactor
    rw [show (monthlyOffice.map (stored M)).bldg.windowShadingDevice i = stored M 1 from rfl, one 1 rfl]
    rfl
  have e : ∃ out, Monthly.simulate (monthlyOffice.map (stored M)) = some out ∧ out.length = 12 := by
    generalize hx : monthlyOffice.map (stored M) = x at sun facade
    have hm : x.building.buildingEnergyManagement = stored M 1 := by rw [← hx]; rfl
    unfold Monthly.simulate Monthly.stages Monthly.solarRadiationBreakdown Monthly.windowSolarGain Monthly.allMonths Monthly.allFacades
      Monthly.managementShift
    rw [dif_pos sun, dif_pos facade, hm, one 1 rfl]
    exact ⟨_, rfl, by simp [Monthly.outputGeneration]⟩
  obtain ⟨out, h1, h2⟩ := e
  exact ⟨out, office_timetable M, office_monthly M, h1, h2⟩

end ISO.Props
