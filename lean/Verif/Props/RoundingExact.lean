import Verif.Lemmas.Machine
import Verif.Num.Lemmas

/-!
# C63: machine arithmetic without rounding is the arithmetic of the other theorems
-/

namespace ISO.Props
open ISO ISO.Spec CNum Mach
open scoped NNReal ENNReal

/-- no rounding and no overflow -/
noncomputable def exactRounding : Rounding where
  round x := x
  mono := fun x y h => show (x : ℝ≥0∞) ≤ y by exact_mod_cast h
  idem := fun _ _ _ => rfl
  int := fun _ _ => by simp
  half := fun _ _ => rfl

/-- a floating point number without the sign of zero -/
noncomputable def unsigned : Fl → Dbl
  | .num false m => .fin m
  | .num true m => .fin (-m)
  | .inf false => .pinf
  | .inf true => .ninf
  | .nan => .nan

/-- a machine number without the sign of zero -/
noncomputable def forget {M : Machine} (x : Mach M) : Dbl := unsigned x

theorem exact_make (s : Bool) (m : ℝ≥0) : exactRounding.make s m = .num s m := by
  unfold Rounding.make
  have e : exactRounding.round m = m := rfl
  rw [e, if_neg ENNReal.coe_ne_top]
  simp

theorem forget_num {M : Machine} (s : Bool) (m : ℝ≥0) : forget (M := M) (Fl.num s m) = .fin (Fl.num s m).value := by
  cases s <;> rfl

theorem forget_ofReal {M : Machine} (s : Bool) (x : ℝ) : forget (M := M) (exactRounding.ofReal s x) = .fin x := by
  unfold Rounding.ofReal
  split
  case isTrue h => subst h; cases s <;> simp [forget, unsigned]
  case isFalse h =>
    rw [exact_make, forget_num]
    by_cases hx : x < 0
    · rw [decide_eq_true hx, abs_of_neg hx]
      show Dbl.fin (-(Real.toNNReal (-x) : ℝ)) = _
      rw [Real.coe_toNNReal _ (by linarith), neg_neg]
    · rw [decide_eq_false hx, abs_of_nonneg (not_lt.mp hx)]
      show Dbl.fin (Real.toNNReal x : ℝ) = _
      rw [Real.coe_toNNReal _ (not_lt.mp hx)]

theorem infOfSign_pos {r : ℝ} (h : 0 < r) : Dbl.infOfSign r = .pinf := if_pos h
theorem infOfSign_neg {r : ℝ} (h : r < 0) : Dbl.infOfSign r = .ninf := by
  unfold Dbl.infOfSign; rw [if_neg (by linarith), if_pos h]
theorem infOfSign_zero : Dbl.infOfSign 0 = .nan := by
  unfold Dbl.infOfSign; rw [if_neg (by linarith), if_neg (by linarith)]

/-- C63, the link to the theorems without rounding: if the machine does not round, its addition, subtraction, multiplication, division (by anything
but -0), comparisons and literals are those of `Dbl`. -/
theorem C63_exact {M : Machine} (hM : M.toRounding = exactRounding) (a b : Mach M) :
    forget (a + b) = forget a + forget b ∧ forget (a - b) = forget a - forget b ∧ forget (a * b) = forget a * forget b ∧
    (b ≠ Fl.num true 0 → forget (a / b) = forget a / forget b) ∧ clt a b = clt (forget a) (forget b) ∧
    ceq a b = ceq (forget a) (forget b) ∧
    ∀ m s e, forget (OfScientific.ofScientific m s e : Mach M) = OfScientific.ofScientific m s e := by
  have add : ∀ a b : Mach M, forget (a + b) = forget a + forget b := by
    intro a b
    show forget (M := M) (M.toRounding.add a b) = _
    rw [hM]
    rcases a with ⟨_ | _, m⟩ | ⟨_ | _⟩ | _ <;> rcases b with ⟨_ | _, n⟩ | ⟨_ | _⟩ | _ <;> try rfl
    all_goals exact forget_ofReal _ _
  have neg : ∀ b : Mach M, forget (M := M) (Fl.neg b) = Dbl.neg (forget b) := by
    intro b
    rcases b with ⟨_ | _, n⟩ | ⟨_ | _⟩ | _ <;> try rfl
    show Dbl.fin _ = Dbl.fin _
    rw [neg_neg]
  refine ⟨add a b, ?_, ?_, ?_, ?_, ?_, ?_⟩
  · show forget (M := M) (M.toRounding.add a (Fl.neg b)) = _
    refine (add a (show Mach M from Fl.neg b)).trans ?_
    rw [show forget (M := M) (show Mach M from Fl.neg b) = Dbl.neg (forget b) from neg b]
    generalize forget a = x
    generalize forget b = y
    cases x <;> cases y <;> try rfl
  · show forget (M := M) (M.toRounding.mul a b) = _
    rw [hM]
    have inf (s : Bool) (n : ℝ≥0) : unsigned (if n = 0 then Fl.nan else Fl.inf s) =
        bif s then Dbl.neg (Dbl.infOfSign n) else Dbl.infOfSign n := by
      rcases eq_or_ne n 0 with h | h
      · subst h
        rw [if_pos rfl]
        cases s <;> simp [infOfSign_zero, unsigned, Dbl.neg]
      · have : (0 : ℝ) < n := by exact_mod_cast pos_iff_ne_zero.mpr h
        rw [if_neg h, infOfSign_pos this]
        cases s <;> rfl
    have flip (n : ℝ≥0) : Dbl.infOfSign (-(n : ℝ)) = Dbl.neg (Dbl.infOfSign n) := by
      rcases eq_or_ne n 0 with h | h
      · subst h; simp [infOfSign_zero, Dbl.neg]
      · have : (0 : ℝ) < n := by exact_mod_cast pos_iff_ne_zero.mpr h
        rw [infOfSign_pos this, infOfSign_neg (by linarith)]
        rfl
    have two (x : Dbl) : Dbl.neg (Dbl.neg x) = x := by cases x <;> simp [Dbl.neg]
    rcases a with ⟨s, m⟩ | ⟨s⟩ | _ <;> rcases b with ⟨t, n⟩ | ⟨t⟩ | _
    · show forget (M := M) (exactRounding.make (s ^^ t) (m * n)) = _
      rw [exact_make, forget_num, forget_num, forget_num]
      show Dbl.fin _ = Dbl.fin _
      congr 1
      cases s <;> cases t <;> simp [Fl.value]
    · refine (inf (s ^^ t) m).trans ?_
      cases s <;> cases t
      · rfl
      · rfl
      · exact (flip m).symm
      · exact ((congrArg Dbl.neg (flip m)).trans (two _)).symm
    · cases s <;> rfl
    · refine (inf (s ^^ t) n).trans ?_
      cases s <;> cases t
      · rfl
      · exact (flip n).symm
      · rfl
      · exact ((congrArg Dbl.neg (flip n)).trans (two _)).symm
    · cases s <;> cases t <;> rfl
    · cases s <;> rfl
    · cases t <;> rfl
    · cases t <;> rfl
    · rfl
  · intro hb
    show forget (M := M) (M.toRounding.div a b) = _
    rw [hM]
    have quot (s t : Bool) (m n : ℝ≥0) (h : ¬ (t = true ∧ n = 0)) :
        forget (M := M) (exactRounding.div (.num s m) (.num t n)) = Dbl.div (.fin (Fl.num s m).value) (.fin (Fl.num t n).value) := by
      rcases eq_or_ne n 0 with hn | hn
      · have ht : t = false := by cases t <;> simp_all
        subst hn ht
        simp only [Rounding.div, if_pos]
        show _ = if ((0 : ℝ≥0) : ℝ) = 0 then Dbl.infOfSign (Fl.num s m).value else _
        rw [if_pos NNReal.coe_zero]
        rcases eq_or_ne m 0 with hm | hm
        · subst hm
          cases s <;> simp [infOfSign_zero, forget, unsigned, Fl.value]
        · have : (0 : ℝ) < m := by exact_mod_cast pos_iff_ne_zero.mpr hm
          rw [if_neg hm]
          cases s
          · show Dbl.pinf = _; exact (infOfSign_pos this).symm
          · show Dbl.ninf = _; exact (infOfSign_neg (show -(m : ℝ) < 0 by linarith)).symm
      · have hv : (Fl.num t n).value ≠ 0 := by
          have : (n : ℝ) ≠ 0 := by exact_mod_cast hn
          cases t
          · exact this
          · exact neg_ne_zero.mpr this
        simp only [Rounding.div]
        rw [if_neg hn, exact_make, forget_num]
        show _ = if (Fl.num t n).value = 0 then _ else Dbl.fin _
        rw [if_neg hv]
        congr 1
        cases s <;> cases t <;> simp [Fl.value, neg_div, div_neg]
    rcases a with ⟨s, m⟩ | ⟨s⟩ | _ <;> rcases b with ⟨t, n⟩ | ⟨t⟩ | _
    · rw [forget_num, forget_num]
      exact quot s t m n (by rintro ⟨rfl, rfl⟩; exact hb rfl)
    · cases s <;> cases t <;> show Dbl.fin _ = Dbl.fin _ <;> simp
    · cases s <;> rfl
    · have hp : (0 : ℝ) ≤ n := n.2
      cases s <;> cases t
      · show Dbl.pinf = if (0 : ℝ) ≤ n then Dbl.pinf else Dbl.ninf
        rw [if_pos hp]
      · have hn : ¬ (0 : ℝ) ≤ -n := by
          intro h
          have : n = 0 := NNReal.coe_eq_zero.mp (by linarith)
          subst this; exact hb rfl
        show Dbl.ninf = if (0 : ℝ) ≤ -n then Dbl.pinf else Dbl.ninf
        rw [if_neg hn]
      · show Dbl.ninf = if (0 : ℝ) ≤ n then Dbl.ninf else Dbl.pinf
        rw [if_pos hp]
      · have hn : ¬ (0 : ℝ) ≤ -n := by
          intro h
          have : n = 0 := NNReal.coe_eq_zero.mp (by linarith)
          subst this; exact hb rfl
        show Dbl.pinf = if (0 : ℝ) ≤ -n then Dbl.ninf else Dbl.pinf
        rw [if_neg hn]
    · cases s <;> cases t <;> rfl
    · cases s <;> rfl
    · cases t <;> rfl
    · cases t <;> rfl
    · rfl
  · show Fl.lt a b = Dbl.lt (unsigned a) (unsigned b)
    have k (s m) : Fl.key (.num s m) = ((Fl.num s m).value : EReal) := by cases s <;> rfl
    have u (s m) : unsigned (.num s m) = .fin (Fl.num s m).value := by cases s <;> rfl
    rcases a with ⟨s, m⟩ | ⟨_ | _⟩ | _ <;> rcases b with ⟨t, n⟩ | ⟨_ | _⟩ | _ <;>
      simp only [Fl.lt, Fl.isNan, k, u] <;> simp [Fl.key, unsigned, Dbl.lt]
  · show Fl.eq a b = Dbl.eq (unsigned a) (unsigned b)
    have k (s m) : Fl.key (.num s m) = ((Fl.num s m).value : EReal) := by cases s <;> rfl
    have u (s m) : unsigned (.num s m) = .fin (Fl.num s m).value := by cases s <;> rfl
    rcases a with ⟨s, m⟩ | ⟨_ | _⟩ | _ <;> rcases b with ⟨t, n⟩ | ⟨_ | _⟩ | _ <;>
      simp only [Fl.eq, Fl.isNan, k, u] <;> simp [Fl.key, unsigned, Dbl.eq]
  · intro m s e
    show forget (M := M) (M.toRounding.ofReal false _) = _
    rw [hM, forget_ofReal]
    rfl

/-- a machine that does not round -/
noncomputable def exactMachine : Machine :=
  { exactRounding with
    pow := fun _ _ => .nan, exp := fun _ => .nan, sin := fun _ => .nan, cos := fun _ => .nan, asin := fun _ => .nan, acos := fun _ => .nan,
    atan2 := fun _ _ => .nan }

example : forget ((1.5 : Mach exactMachine) - 0.25 * 2.0) = (1.5 : Dbl) - 0.25 * 2.0 := by
  obtain ⟨-, sub, -⟩ := C63_exact (M := exactMachine) rfl 1.5 (0.25 * 2.0)
  obtain ⟨-, -, mul, -, -, -, lit⟩ := C63_exact (M := exactMachine) rfl 0.25 2.0
  rw [sub, mul, lit, lit, lit]

end ISO.Props
