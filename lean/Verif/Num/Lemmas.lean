import Verif.Num.Dbl
import Mathlib.Algebra.BigOperators.Group.List.Basic
import Mathlib.Tactic.Ring
import Mathlib.Tactic.FieldSimp

/-! Helper lemmas: finite arithmetic of `Dbl` is real arithmetic; the interface at `ℝ` is `ℝ`. -/

namespace ISO
open CNum

namespace Dbl

theorem fin_inj {a b : ℝ} : fin a = fin b ↔ a = b := by simp

@[dblfin] theorem fin_add (a b : ℝ) : fin a + fin b = fin (a + b) := rfl
@[dblfin] theorem fin_sub (a b : ℝ) : fin a - fin b = fin (a - b) := rfl
@[dblfin] theorem fin_mul (a b : ℝ) : fin a * fin b = fin (a * b) := rfl
@[dblfin] theorem fin_neg (a : ℝ) : - fin a = fin (-a) := rfl
theorem fin_div' (a b : ℝ) : fin a / fin b = if b = 0 then infOfSign a else fin (a / b) := by
  show Dbl.div (fin a) (fin b) = _
  simp only [Dbl.div]
@[dblfin] theorem fin_div (a : ℝ) {b : ℝ} (h : b ≠ 0) : fin a / fin b = fin (a / b) := by
  rw [fin_div', if_neg h]
theorem zero_div_zero : fin 0 / fin 0 = nan := by
  rw [fin_div', if_pos rfl]; simp [infOfSign]
@[dblfin] theorem fin_lit (m : ℕ) (s : Bool) (e : ℕ) :
    (OfScientific.ofScientific m s e : Dbl) = fin (OfScientific.ofScientific m s e) := rfl
@[dblfin] theorem fin_clt (a b : ℝ) : clt (fin a) (fin b) = clt a b := rfl
@[dblfin] theorem fin_ceq (a b : ℝ) : ceq (fin a) (fin b) = ceq a b := rfl
@[dblfin] theorem fin_cabs (a : ℝ) : cabs (fin a) = fin (cabs a) := rfl
@[dblfin] theorem fin_cexp (a : ℝ) : cexp (fin a) = fin (cexp a) := rfl
@[dblfin] theorem fin_csin (a : ℝ) : csin (fin a) = fin (csin a) := rfl
@[dblfin] theorem fin_ccos (a : ℝ) : ccos (fin a) = fin (ccos a) := rfl
@[dblfin] theorem fin_catan2 (a b : ℝ) : catan2 (fin a) (fin b) = fin (catan2 a b) := rfl
@[dblfin] theorem fin_cint (a : ℝ) : cint (fin a) = cint a := rfl
@[dblfin] theorem fin_ofInt (n : Int) : (OfInt.ofInt n : Dbl) = fin (OfInt.ofInt n) := rfl
theorem fin_casin {a : ℝ} (h : -1 ≤ a) (h' : a ≤ 1) : casin (fin a) = fin (casin a) := by
  show Dbl.asin _ = _
  simp [Dbl.asin, h, h', casin]
theorem fin_cacos {a : ℝ} (h : -1 ≤ a) (h' : a ≤ 1) : cacos (fin a) = fin (cacos a) := by
  show Dbl.acos _ = _
  simp [Dbl.acos, h, h', cacos]
theorem fin_cpow {a : ℝ} (b : ℝ) (h : 0 < a) : cpow (fin a) (fin b) = fin (cpow a b) := by
  show Dbl.pow _ _ = _
  simp [Dbl.pow, h.ne', not_lt.mpr h.le, cpow]
theorem fin_cpow_nonneg {a b : ℝ} (h : 0 ≤ a) (hb : 0 ≤ b) :
    cpow (fin a) (fin b) = fin (cpow a b) := by
  show Dbl.pow _ _ = _
  simp [Dbl.pow, not_lt.mpr h, not_lt.mpr hb, cpow]
@[dblfin] theorem fin_cond (p : Bool) (a b : ℝ) :
    (bif p then fin a else fin b) = fin (bif p then a else b) := by cases p <;> rfl
@[dblfin] theorem fin_cmax (a b : ℝ) : cmax (fin a) (fin b) = fin (cmax a b) := by
  simp only [cmax, fin_clt, fin_cond]
@[dblfin] theorem fin_cmin (a b : ℝ) : cmin (fin a) (fin b) = fin (cmin a b) := by
  simp only [cmin, fin_clt, fin_cond]
@[dblfin] theorem fin_dblMin : (dblMin : Dbl) = fin dblMin := rfl
@[dblfin] theorem fin_dblMax : (dblMax : Dbl) = fin dblMax := rfl

theorem foldl_fin (l : List ℝ) (a : ℝ) :
    (l.map fin).foldl (· + ·) (fin a) = fin (l.foldl (· + ·) a) := by
  induction l generalizing a with
  | nil => rfl
  | cons x l ih => simp only [List.map_cons, List.foldl_cons, fin_add, ih]
theorem fin_csum (l : List ℝ) : csum (l.map fin) = fin (csum l) := by
  simp only [csum, fin_lit, foldl_fin]

/-- Finite result with a property. -/
def IsFin (x : Dbl) (P : ℝ → Prop) : Prop := ∃ r : ℝ, x = fin r ∧ P r

@[simp] theorem nan_add (x : Dbl) : nan + x = nan := by cases x <;> rfl
@[simp] theorem add_nan (x : Dbl) : x + nan = nan := by cases x <;> rfl
@[simp] theorem nan_mul (x : Dbl) : nan * x = nan := by cases x <;> rfl
@[simp] theorem mul_nan (x : Dbl) : x * nan = nan := by cases x <;> rfl
@[simp] theorem nan_div (x : Dbl) : nan / x = nan := by cases x <;> rfl
@[simp] theorem div_nan (x : Dbl) : x / nan = nan := by cases x <;> rfl
@[simp] theorem nan_sub (x : Dbl) : nan - x = nan := by cases x <;> rfl
@[simp] theorem sub_nan (x : Dbl) : x - nan = nan := by cases x <;> rfl
@[simp] theorem neg_nan : -nan = nan := rfl
@[simp] theorem clt_nan (x : Dbl) : clt x nan = false := by cases x <;> rfl
@[simp] theorem nan_clt (x : Dbl) : clt nan x = false := by cases x <;> rfl

end Dbl

section real
@[realnum] theorem clt_real (a b : ℝ) : (clt a b = true) ↔ a < b := by simp [clt]
theorem clt_real_false (a b : ℝ) : (clt a b = false) ↔ b ≤ a := by simp [clt]
@[realnum] theorem ceq_real (a b : ℝ) : (ceq a b = true) ↔ a = b := by simp [ceq]
@[realnum] theorem cond_clt {β : Type} (a b : ℝ) (x y : β) :
    (bif clt a b then x else y) = if a < b then x else y := by
  split_ifs with h
  · rw [← clt_real] at h; rw [h]; rfl
  · rw [← clt_real, Bool.not_eq_true] at h; rw [h]; rfl
@[realnum] theorem cond_ceq {β : Type} (a b : ℝ) (x y : β) :
    (bif ceq a b then x else y) = if a = b then x else y := by
  split_ifs with h
  · rw [← ceq_real] at h; rw [h]; rfl
  · rw [← ceq_real, Bool.not_eq_true] at h; rw [h]; rfl
@[realnum] theorem cabs_real (a : ℝ) : cabs a = |a| := rfl
@[realnum] theorem cpow_real (a b : ℝ) : cpow a b = a ^ b := rfl
@[realnum] theorem cexp_real (a : ℝ) : cexp a = Real.exp a := rfl
@[realnum] theorem csin_real (a : ℝ) : csin a = Real.sin a := rfl
@[realnum] theorem ccos_real (a : ℝ) : ccos a = Real.cos a := rfl
@[realnum] theorem casin_real (a : ℝ) : casin a = Real.arcsin a := rfl
@[realnum] theorem cacos_real (a : ℝ) : cacos a = Real.arccos a := rfl
@[realnum] theorem catan2_real (a b : ℝ) : catan2 a b = Complex.arg ⟨b, a⟩ := rfl
@[realnum] theorem ofInt_real (n : Int) : (OfInt.ofInt n : ℝ) = (n : ℝ) := rfl
@[realnum] theorem cmax_real (a b : ℝ) : cmax a b = max a b := by
  rw [cmax, cond_clt]; split_ifs with h
  · exact (max_eq_right h.le).symm
  · exact (max_eq_left (not_lt.mp h)).symm
@[realnum] theorem cmin_real (a b : ℝ) : cmin a b = min a b := by
  rw [cmin, cond_clt]; split_ifs with h
  · exact (min_eq_right h.le).symm
  · exact (min_eq_left (not_lt.mp h)).symm
theorem foldl_add_real (l : List ℝ) (a : ℝ) : l.foldl (· + ·) a = a + l.sum := by
  induction l generalizing a with
  | nil => simp
  | cons x l ih => simp only [List.foldl_cons, List.sum_cons, ih]; ring
@[realnum] theorem csum_real (l : List ℝ) : csum l = l.sum := by
  unfold csum
  have h0 : (0.0 : ℝ) = 0 := by norm_num
  refine (foldl_add_real l _).trans ?_
  rw [show (OfScientific.ofScientific 0 true 1 : ℝ) = 0 from h0, zero_add]
theorem lit_pos (m : ℕ) (s : Bool) (e : ℕ) (hm : 0 < m) :
    (0:ℝ) < OfScientific.ofScientific m s e := by
  rw [NNRatCast.ofScientific_eq_ite]
  split_ifs
  · have h : (0 : ℚ≥0) < NNRat.divNat m (10 ^ e) := by rw [NNRat.divNat_eq_div]; positivity
    exact_mod_cast h
  · have h : 0 < m * 10 ^ e := by positivity
    exact_mod_cast h
theorem dblMin_pos : (0:ℝ) < dblMin := lit_pos _ _ _ (by norm_num)
theorem dblMin_lt : (dblMin : ℝ) < 0.0000000001 := by
  have e : (dblMin : ℝ) = 22250738585072014 / 10 ^ 324 := by
    show (OfScientific.ofScientific 22250738585072014 true 324 : ℝ) = _
    rw [NNRatCast.ofScientific_eq_ite, if_pos rfl, NNRat.divNat_eq_div]
    push_cast; rfl
  rw [e, div_lt_iff₀ (by positivity)]
  have : (10:ℝ) ^ 324 = 10 ^ 100 * 10 ^ 224 := by rw [← pow_add]
  have h1 : (1:ℝ) ≤ 10 ^ 224 := one_le_pow₀ (by norm_num)
  have h2 : (22250738585072014 : ℝ) < 0.0000000001 * 10 ^ 100 := by norm_num
  rw [this]; nlinarith
theorem dblMax_pos : (0:ℝ) < dblMax := lit_pos _ _ _ (by norm_num)
end real

end ISO
