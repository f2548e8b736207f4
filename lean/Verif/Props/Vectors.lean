import Verif.Spec.Vectors
import Verif.Lemmas.Vectors
import Verif.Model.Monthly

/-!
# C58: the vector functions of the monthly model
-/

namespace ISO.Props
open ISO ISO.Spec ISO.Vectors CNum

private theorem get_lt {α : Type} {v : List α} {i : Nat} (h : i < v.length) : v[i]? = some v[i] := List.getElem?_eq_getElem h
private theorem get_ge {α : Type} {v : List α} {i : Nat} (h : v.length ≤ i) : v[i]? = none := List.getElem?_eq_none h

section any
variable {α : Type} [CNum α] (junk : Nat → α)

/-- **C58.** The functions of two vectors work entry by entry over the first vector, whatever the memory of the new vector held; they are
undefined exactly if the second vector is shorter.  For every arithmetic. -/
theorem C58_pairs (v w : List α) :
    mult junk v w = (if v.length ≤ w.length then some (List.zipWith (· * ·) v w) else none) ∧
    multArray junk v w = (if v.length ≤ w.length then some (List.zipWith (· * ·) v w) else none) ∧
    Vectors.sum junk v w = (if v.length ≤ w.length then some (List.zipWith (· + ·) v w) else none) ∧
    dif junk v w = (if v.length ≤ w.length then some (List.zipWith (· - ·) v w) else none) ∧
    maximum junk v w = (if v.length ≤ w.length then some (List.zipWith (fun a b => bif clt a b then b else a) v w) else none) := by
  refine ⟨?_, ?_, ?_, ?_, ?_⟩ <;>
    exact loop_two v w _ _ junk (fun i vec h h' => by simp only [get_lt h, get_lt h']; rfl)
      (fun i vec h h' => by simp only [get_lt h, get_ge h']; rfl)

/-- **C58.** The functions of a vector and a number work entry by entry.  For every arithmetic. -/
theorem C58_scalar (v : List α) (s : α) :
    multScalar junk v s = some (v.map (· * s)) ∧ sumScalar junk v s = some (v.map (· + s)) ∧
    difScalar junk v s = some (v.map (· - s)) ∧ scalarDif junk s v = some (v.map (s - ·)) ∧
    maximumScalar junk v s = some (v.map fun a => bif clt a s then s else a) ∧
    minimumScalar junk v s = some (v.map fun a => bif clt s a then s else a) ∧
    absAll junk v = some (v.map cabs) ∧ powAll junk v s = some (v.map fun a => cpow a s) := by
  refine ⟨?_, ?_, ?_, ?_, ?_, ?_, ?_, ?_⟩ <;>
    exact loop_one v _ _ junk (fun i vec h => by simp only [get_lt h]; rfl)

/-- **C58.** A C array of at least `size` numbers times a number. -/
theorem C58_array (v rest : List α) (s : α) : multArrayScalar junk (v ++ rest) s v.length = some (v.map (· * s)) :=
  loop_one v _ _ junk (fun i vec h => by simp only [get_lt (show i < (v ++ rest).length by simp; omega), List.getElem_append_left h]; rfl)

/-- **C58.** The sum of a vector is taken from the first entry to the last.  For every arithmetic. -/
theorem C58_total (v : List α) : sumAll v = some (v.foldl (· + ·) 0.0) :=
  loop_fold v _ _ _ (fun i t h => by simp only [get_lt h]; rfl)

/-- **C58.** `vectorInit`, `zero` and `one` set every entry. -/
theorem C58_init (v : List α) (x : α) :
    vectorInit v x = some (List.replicate v.length x) ∧ zero v = some (List.replicate v.length 0.0) ∧ one v = some (List.replicate v.length 1.0) := by
  have key : ∀ x, vectorInit v x = some (List.replicate v.length x) := by
    intro x
    have h := loop_store (fun _ => some x) v v.length le_rfl
    rw [mapM_eq _ _ (fun _ => x) (fun _ _ => rfl), List.drop_length] at h
    unfold vectorInit
    rw [show (fun i (vec : List α) => store vec i x) = fun i vec => (some x).bind (store vec i) from rfl, h]
    simp
  exact ⟨key x, key _, key _⟩

/-- **C58.** The product of a matrix and a vector: every row times the vector, summed from the first column to the last.  For every
arithmetic. -/
theorem C58_prod (m : List (List α)) (v : List α) (h : ∀ row ∈ m, row.length = v.length) :
    prod m v = some (m.map fun row => (List.zipWith (· * ·) row v).foldl (· + ·) 0.0) := by
  refine mapM_eq m _ _ fun row hr => ?_
  have hl := h row hr
  rw [if_pos hl]
  have hz : (List.zipWith (· * ·) row v).length = v.length := by simp [hl]
  rw [← hz]
  refine loop_fold (List.zipWith (· * ·) row v) (· + ·) _ _ fun j t hj => ?_
  have h1 : j < row.length := by rw [hl, ← hz]; exact hj
  have h2 : j < v.length := by rw [← hz]; exact hj
  simp only [get_lt h1, get_lt h2, List.getElem_zipWith]; rfl

/-- **C58.** A matrix and a vector that do not fit: undefined. -/
theorem C58_prod_undefined (m : List (List α)) (v : List α) (row : List α) (hr : row ∈ m) (h : row.length ≠ v.length) : prod m v = none :=
  mapM_none m _ row hr (by rw [if_neg h])

end any

theorem quotient_eq (a b : Dbl) : quotient a b = bif ceq b 0.0 then dblMax else a / b := by
  have h0 : (0.0 : Dbl) = .fin 0 := by rw [Dbl.fin_lit 0 true 1]; norm_num
  have hm : (dblMax : Dbl) = .fin 1.7976931348623157e308 := rfl
  unfold quotient
  rw [h0, hm]
  cases b with
  | fin b =>
    by_cases hb : b = 0
    · subst hb; simp [ceq, Dbl.eq]
    · rw [if_neg (by simpa using hb)]
      simp [ceq, Dbl.eq, hb]
  | _ => rw [if_neg (by simp)]; rfl

/-- **C58.** Division of and by vectors: the quotients, with the largest double where the divisor is zero (so `0/0` and `1/0` give the same,
and no infinity). -/
theorem C58_div (junk : Nat → Dbl) (v w : List Dbl) (s : Dbl) :
    Vectors.div junk v w = (if v.length ≤ w.length then some (List.zipWith quotient v w) else none) ∧
    divScalar junk v s = some (v.map (quotient · s)) ∧ scalarDiv junk s v = some (v.map (quotient s)) := by
  refine ⟨?_, ?_, ?_⟩
  · refine loop_two v w _ _ junk (fun i vec h h' => ?_) (fun i vec h h' => by simp only [get_ge h']; rfl)
    simp only [get_lt h, get_lt h', quotient_eq, Option.bind_eq_bind, Option.bind_some]
    cases ceq w[i] 0.0 <;> rfl
  · refine loop_one v _ _ junk (fun i vec h => ?_)
    simp only [get_lt h, quotient_eq, Option.bind_eq_bind, Option.bind_some]
    cases ceq s 0.0 <;> rfl
  · refine loop_one v _ _ junk (fun i vec h => ?_)
    simp only [get_lt h, quotient_eq, Option.bind_eq_bind, Option.bind_some]
    cases ceq v[i] 0.0 <;> rfl

theorem atLeast_refl {a : Dbl} (h : a ≠ .nan) : AtLeast a a := by
  cases a with
  | fin a => exact le_refl a
  | nan => exact absurd rfl h
  | _ => trivial

theorem atLeast_trans {a b c : Dbl} (h1 : AtLeast a b) (h2 : AtLeast b c) : AtLeast a c := by
  cases a <;> cases b <;> cases c <;> simp only [AtLeast] at h1 h2 ⊢
  exact le_trans h2 h1

theorem atLeast_of_lt {a b : Dbl} (h : clt b a = true) : AtLeast a b := by
  cases a <;> cases b <;> simp [clt, Dbl.lt, AtLeast] at h ⊢
  exact h.le

theorem atLeast_of_not_lt {a b : Dbl} (ha : a ≠ .nan) (hb : b ≠ .nan) (h : clt a b = false) : AtLeast a b := by
  cases a <;> cases b <;> simp [clt, Dbl.lt, AtLeast] at h ha hb ⊢
  exact h

theorem neg_dblMax : (-(dblMax : Dbl)) = .fin (-1.7976931348623157e308) := rfl

/-- **C58.** The largest entry: at least every entry that is a number (NaN is skipped), never below minus the largest double, and one of
the entries unless it is that. -/
theorem C58_largest (v : List Dbl) : ∃ r, maximumAll v = some r ∧ (∀ x ∈ v, x ≠ .nan → AtLeast r x) ∧
    AtLeast r (.fin (-1.7976931348623157e308)) ∧ (r ∈ v ∨ r = .fin (-1.7976931348623157e308)) := by
  refine ⟨_, loop_fold v (fun t x => bif clt t x then x else t) _ _ (fun i t h => ?_), ?_⟩
  · simp only [get_lt h, Option.bind_eq_bind, Option.bind_some]
    cases clt t v[i] <;> rfl
  · rw [neg_dblMax]
    induction v using List.reverseRecOn with
    | nil => exact ⟨by simp, atLeast_refl (by simp), .inr rfl⟩
    | append_singleton v a ih =>
      rw [List.foldl_append, List.foldl_cons, List.foldl_nil]
      obtain ⟨h1, h2, h3⟩ := ih
      revert h1 h2 h3
      generalize v.foldl (fun t x => bif clt t x then x else t) (.fin (-1.7976931348623157e308)) = t
      intro h1 h2 h3
      cases hc : clt t a with
      | true =>
        refine ⟨fun x hx hn => ?_, atLeast_trans (atLeast_of_lt hc) h2, .inl (by simp)⟩
        rcases List.mem_append.1 hx with hx | hx
        · exact atLeast_trans (atLeast_of_lt hc) (h1 x hx hn)
        · rw [List.mem_singleton.1 hx] at hn ⊢; exact atLeast_refl hn
      | false =>
        refine ⟨fun x hx hn => ?_, h2, h3.imp (fun h => by simp only [cond_false]; exact List.mem_append_left _ h) id⟩
        rcases List.mem_append.1 hx with hx | hx
        · exact h1 x hx hn
        · rw [List.mem_singleton.1 hx] at hn ⊢
          refine atLeast_of_not_lt (fun e => ?_) hn hc
          rw [cond_false] at e; rw [e] at h2; exact h2

/-- **C58.** The smallest entry: at most every entry that is a number, never above the largest double, and one of the entries unless it is
that. -/
theorem C58_smallest (v : List Dbl) : ∃ r, minimumAll v = some r ∧ (∀ x ∈ v, x ≠ .nan → AtLeast x r) ∧
    AtLeast (.fin 1.7976931348623157e308) r ∧ (r ∈ v ∨ r = .fin 1.7976931348623157e308) := by
  refine ⟨_, loop_fold v (fun t x => bif clt x t then x else t) _ _ (fun i t h => ?_), ?_⟩
  · simp only [get_lt h, Option.bind_eq_bind, Option.bind_some]
    cases clt v[i] t <;> rfl
  · rw [show (dblMax : Dbl) = .fin 1.7976931348623157e308 from rfl]
    induction v using List.reverseRecOn with
    | nil => exact ⟨by simp, atLeast_refl (by simp), .inr rfl⟩
    | append_singleton v a ih =>
      rw [List.foldl_append, List.foldl_cons, List.foldl_nil]
      obtain ⟨h1, h2, h3⟩ := ih
      revert h1 h2 h3
      generalize v.foldl (fun t x => bif clt x t then x else t) (.fin 1.7976931348623157e308) = t
      intro h1 h2 h3
      cases hc : clt a t with
      | true =>
        refine ⟨fun x hx hn => ?_, atLeast_trans h2 (atLeast_of_lt hc), .inl (by simp)⟩
        rcases List.mem_append.1 hx with hx | hx
        · exact atLeast_trans (h1 x hx hn) (atLeast_of_lt hc)
        · rw [List.mem_singleton.1 hx] at hn ⊢; exact atLeast_refl hn
      | false =>
        refine ⟨fun x hx hn => ?_, h2, h3.imp (fun h => by simp only [cond_false]; exact List.mem_append_left _ h) id⟩
        rcases List.mem_append.1 hx with hx | hx
        · exact h1 x hx hn
        · rw [List.mem_singleton.1 hx] at hn ⊢
          refine atLeast_of_not_lt hn (fun e => ?_) hc
          rw [cond_false] at e; rw [e] at h2; exact h2

/-- **C58.** The element-by-element notation of the model of `MonthlyModel.cpp` is what the loops compute. -/
theorem C58_model (junk : Nat → Dbl) {n : Nat} (f g : Fin n → Dbl) :
    Vectors.div junk (List.ofFn f) (List.ofFn g) = some (List.ofFn fun i => Monthly.vdiv (f i) (g i)) ∧
    sumAll (List.ofFn f) = some (Monthly.vsum f) := by
  refine ⟨?_, by rw [C58_total]; rfl⟩
  rw [(C58_div junk _ _ (.fin 0)).1, if_pos (by simp)]
  congr 1
  apply List.ext_getElem
  · simp
  · intro i h1 h2
    simp [quotient_eq, Monthly.vdiv]

/-- with numbers -/
example (junk : Nat → Dbl) : Vectors.div junk [.fin 1, .fin 0] [.fin 0, .fin 2] = some [.fin 1.7976931348623157e308, .fin 0] := by
  rw [(C58_div junk _ _ (.fin 0)).1]
  simp only [List.length_cons, List.length_nil, le_refl, if_true, List.zipWith_cons_cons, List.zipWith_nil_left, quotient]
  rw [if_neg (by simp)]
  have : (Dbl.fin 0 / Dbl.fin 2 : Dbl) = .fin (0 / 2) := Dbl.fin_div _ (by norm_num)
  rw [this]; norm_num

/-- the largest entry of an empty vector is minus the largest double, the smallest of a vector of infinities the largest double -/
example : maximumAll ([] : List Dbl) = some (.fin (-1.7976931348623157e308)) ∧
    minimumAll [Dbl.pinf] = some (.fin 1.7976931348623157e308) := ⟨rfl, rfl⟩

end ISO.Props
