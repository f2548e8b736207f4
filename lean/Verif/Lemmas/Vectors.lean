import Verif.Model.Vectors

/-! # Loops that fill a vector -/

namespace ISO.Vectors
open ISO CNum
variable {α : Type}

theorem loop_succ {σ : Type} (n : Nat) (body : Nat → σ → Option σ) (s : σ) :
    loop (n + 1) body s = (loop n body s).bind (body n) := by
  unfold loop
  rw [List.range_succ, List.foldlM_append]
  cases (List.range n).foldlM (fun s i => body i s) s with
  | none => rfl
  | some t => show ([n].foldlM (fun s i => body i s) t) = body n t; simp

theorem loop_congr {σ : Type} (n : Nat) (body body' : Nat → σ → Option σ) (s : σ) (h : ∀ i < n, ∀ t, body i t = body' i t) :
    loop n body s = loop n body' s := by
  induction n with
  | zero => rfl
  | succ n ih =>
    rw [loop_succ, loop_succ, ih (fun i hi t => h i (by omega) t)]
    cases loop n body' s with
    | none => rfl
    | some t => exact h n (by omega) t

/-- a loop that stores `value i` at place `i` -/
theorem loop_store (value : Nat → Option α) (start : List α) (k : Nat) (hk : k ≤ start.length) :
    loop k (fun i vec => (value i).bind (store vec i)) start = ((List.range k).mapM value).map (· ++ start.drop k) := by
  induction k with
  | zero => rfl
  | succ k ih =>
    rw [loop_succ, ih (by omega), List.range_succ, List.mapM_append]
    cases h : (List.range k).mapM value with
    | none => rfl
    | some l =>
      have hl : l.length = k := by
        have : ∀ (ks : List Nat) (l : List α), ks.mapM value = some l → l.length = ks.length := by
          intro ks
          induction ks with
          | nil => intro l h; cases h; rfl
          | cons a ks ih =>
            intro l h
            rw [List.mapM_cons] at h
            cases ha : value a with
            | none => rw [ha] at h; cases h
            | some x =>
              cases hr : ks.mapM value with
              | none => rw [ha, hr] at h; cases h
              | some r => rw [ha, hr] at h; cases h; simp [ih r hr]
        simpa using this _ _ h
      cases hv : value k with
      | none => simp [hv]
      | some x =>
        simp only [Option.map_some, Option.bind_some, List.mapM_cons, hv, List.mapM_nil, store]
        have hlt : k < (l ++ start.drop k).length := by simp; omega
        rw [if_pos hlt]
        have e : (l ++ start.drop k).set k x = l ++ [x] ++ start.drop (k + 1) := by
          rw [List.set_append_right _ _ (by omega), hl, Nat.sub_self, List.drop_eq_getElem_cons (by omega : k < start.length),
            List.set_cons_zero, List.append_assoc, List.singleton_append]
        rw [e]; rfl

/-- it gives the list of the values -/
theorem loop_fill (value : Nat → Option α) (junk : Nat → α) (n : Nat) :
    loop n (fun i vec => (value i).bind (store vec i)) (newVector junk n) = (List.range n).mapM value := by
  have hl : (newVector junk n).length = n := by simp [newVector]
  rw [loop_store value _ n (by omega), List.drop_of_length_le (by omega)]
  cases (List.range n).mapM value <;> simp

theorem mapM_eq {β γ : Type} (l : List γ) (value : γ → Option β) (g : γ → β) (h : ∀ i ∈ l, value i = some (g i)) :
    l.mapM value = some (l.map g) := by
  induction l with
  | nil => rfl
  | cons a l ih => rw [List.mapM_cons, h a (by simp), ih (fun i hi => h i (by simp [hi]))]; rfl

theorem mapM_none {β γ : Type} (l : List γ) (value : γ → Option β) (i : γ) (hi : i ∈ l) (h : value i = none) : l.mapM value = none := by
  induction l with
  | nil => cases hi
  | cons a l ih =>
    rw [List.mapM_cons]
    rcases List.mem_cons.1 hi with rfl | hi
    · rw [h]; rfl
    · rw [ih hi]; cases value a <;> rfl

/-- a loop over the entries of one vector -/
theorem loop_one {β : Type} (v : List α) (f : α → β) (body : Nat → List β → Option (List β)) (junk : Nat → β)
    (hb : ∀ i vec (h : i < v.length), body i vec = store vec i (f v[i])) :
    loop v.length body (newVector junk v.length) = some (v.map f) := by
  have e : loop v.length body (newVector junk v.length) =
      loop v.length (fun i vec => (v[i]?.map f).bind (store vec i)) (newVector junk v.length) := by
    apply loop_congr
    intro i h vec
    rw [hb i vec h, List.getElem?_eq_getElem h]; rfl
  rw [e, loop_fill]
  rw [mapM_eq _ _ (fun i => if h : i < v.length then f v[i] else junk 0) (fun i hi => by
    have h := List.mem_range.1 hi
    rw [List.getElem?_eq_getElem h, dif_pos h]; rfl)]
  congr 1
  apply List.ext_getElem
  · simp
  · intro i h1 h2
    simp only [List.length_map, List.length_range] at h1
    simp [h1]

/-- a loop over the entries of two vectors, undefined if the second is shorter -/
theorem loop_two {β : Type} (v w : List α) (f : α → α → β) (body : Nat → List β → Option (List β)) (junk : Nat → β)
    (hb : ∀ i vec (h : i < v.length) (h' : i < w.length), body i vec = store vec i (f v[i] w[i]))
    (hu : ∀ i vec, i < v.length → w.length ≤ i → body i vec = none) :
    loop v.length body (newVector junk v.length) = if v.length ≤ w.length then some (List.zipWith f v w) else none := by
  have e : loop v.length body (newVector junk v.length) =
      loop v.length (fun i vec => (v[i]?.bind fun a => w[i]?.map (f a)).bind (store vec i)) (newVector junk v.length) := by
    apply loop_congr
    intro i h vec
    by_cases h' : i < w.length
    · rw [hb i vec h h', List.getElem?_eq_getElem h, List.getElem?_eq_getElem h']; rfl
    · rw [hu i vec h (by omega), List.getElem?_eq_getElem h, List.getElem?_eq_none (by omega)]; rfl
  rw [e, loop_fill]
  split_ifs with hl
  · rw [mapM_eq _ _ (fun i => if h : i < v.length ∧ i < w.length then f v[i] w[i] else junk 0) (fun i hi => by
      have h := List.mem_range.1 hi
      have h' : i < w.length := by omega
      rw [List.getElem?_eq_getElem h, List.getElem?_eq_getElem h', dif_pos ⟨h, h'⟩]; rfl)]
    congr 1
    apply List.ext_getElem
    · simp; omega
    · intro i h1 h2
      simp only [List.length_map, List.length_range] at h1
      have h3 : i < w.length := by omega
      simp [h1, h3]
  · refine mapM_none _ _ w.length (List.mem_range.2 (by omega)) ?_
    rw [List.getElem?_eq_getElem (by omega : w.length < v.length), List.getElem?_eq_none le_rfl]; rfl

/-- a loop that carries a value along a vector -/
theorem loop_fold {σ : Type} (v : List α) (g : σ → α → σ) (body : Nat → σ → Option σ) (s : σ)
    (hb : ∀ i t (h : i < v.length), body i t = some (g t v[i])) : loop v.length body s = some (v.foldl g s) := by
  have key : ∀ k ≤ v.length, loop k body s = some ((v.take k).foldl g s) := by
    intro k
    induction k with
    | zero => intro _; rfl
    | succ k ih =>
      intro hk
      rw [loop_succ, ih (by omega), Option.bind_some, hb k _ (by omega), List.take_succ_eq_append_getElem (by omega), List.foldl_append]
      rfl
  rw [key _ le_rfl, List.take_length]

end ISO.Vectors
