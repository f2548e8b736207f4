import Verif.Num.Dbl

/-!
# The vector functions of MonthlyModel.cpp

A `boost::numeric::ublas::vector<double>` is a list; a read or write outside of it is undefined behaviour (`none`).  A new vector holds
whatever was in memory (`junk`).  `Model/Monthly` writes these functions entry by entry; `Props/Vectors` proves that this is what the loops do.
-/

namespace ISO.Vectors
open ISO CNum
variable {α : Type}

/-- `vec[i] = val` -/
def store (vec : List α) (i : Nat) (val : α) : Option (List α) := if i < vec.length then some (vec.set i val) else none

/-- `for (i = 0; i < n; i++) { body(i) }` -/
def loop {σ : Type} (n : Nat) (body : Nat → σ → Option σ) (s : σ) : Option σ := (List.range n).foldlM (fun s i => body i s) s

/-- `Vector(n)`: the entries are not initialised -/
def newVector (junk : Nat → α) (n : Nat) : List α := (List.range n).map junk

section init
variable [CNum α]

/-- MonthlyModel.cpp:60-65 -/
def vectorInit (vec : List α) (val : α) : Option (List α) := loop vec.length (fun i vec => store vec i val) vec

/-- MonthlyModel.cpp:69-72 -/
def zero (vec : List α) : Option (List α) := vectorInit vec 0.0

/-- MonthlyModel.cpp:76-79 -/
def one (vec : List α) : Option (List α) := vectorInit vec 1.0

end init

variable [CNum α] (junk : Nat → α)

/-- MonthlyModel.cpp:93-100, array and scalar -/
def multArrayScalar (v1 : List α) (s1 : α) (size : Nat) : Option (List α) :=
  loop size (fun i vp => do store vp i ((← v1[i]?) * s1)) (newVector junk size)

/-- MonthlyModel.cpp:102-109, vector and scalar -/
def multScalar (v1 : List α) (s1 : α) : Option (List α) :=
  loop v1.length (fun i vp => do store vp i ((← v1[i]?) * s1)) (newVector junk v1.length)

/-- MonthlyModel.cpp:111-118, vector and array -/
def multArray (v1 v2 : List α) : Option (List α) :=
  loop v1.length (fun i vp => do store vp i ((← v1[i]?) * (← v2[i]?))) (newVector junk v1.length)

/-- MonthlyModel.cpp:120-127 -/
def mult (v1 v2 : List α) : Option (List α) :=
  loop v1.length (fun i vp => do store vp i ((← v1[i]?) * (← v2[i]?))) (newVector junk v1.length)

/-- MonthlyModel.cpp:129-139, vector by scalar -/
def divScalar (v1 : List α) (s1 : α) : Option (List α) :=
  loop v1.length (fun i vp => if ceq s1 0.0 then store vp i dblMax else do store vp i ((← v1[i]?) / s1)) (newVector junk v1.length)

/-- MonthlyModel.cpp:140-150, scalar by vector -/
def scalarDiv (s1 : α) (v1 : List α) : Option (List α) :=
  loop v1.length (fun i vp => do
    if ceq (← v1[i]?) 0.0 then store vp i dblMax else store vp i (s1 / (← v1[i]?))) (newVector junk v1.length)

/-- MonthlyModel.cpp:152-162 -/
def div (v1 v2 : List α) : Option (List α) :=
  loop v1.length (fun i vp => do
    if ceq (← v2[i]?) 0.0 then store vp i dblMax else store vp i ((← v1[i]?) / (← v2[i]?))) (newVector junk v1.length)

/-- MonthlyModel.cpp:163-170 -/
def sum (v1 v2 : List α) : Option (List α) :=
  loop v1.length (fun i vs => do store vs i ((← v1[i]?) + (← v2[i]?))) (newVector junk v1.length)

/-- MonthlyModel.cpp:171-178 -/
def sumAll (v1 : List α) : Option α := loop v1.length (fun i s => do pure (s + (← v1[i]?))) 0.0

/-- MonthlyModel.cpp:179-186 -/
def sumScalar (v1 : List α) (v2 : α) : Option (List α) :=
  loop v1.length (fun i vs => do store vs i ((← v1[i]?) + v2)) (newVector junk v1.length)

/-- MonthlyModel.cpp:187-194 -/
def dif (v1 v2 : List α) : Option (List α) :=
  loop v1.length (fun i vd => do store vd i ((← v1[i]?) - (← v2[i]?))) (newVector junk v1.length)

/-- MonthlyModel.cpp:195-202 -/
def difScalar (v1 : List α) (v2 : α) : Option (List α) :=
  loop v1.length (fun i vd => do store vd i ((← v1[i]?) - v2)) (newVector junk v1.length)

/-- MonthlyModel.cpp:203-210 -/
def scalarDif (v1 : α) (v2 : List α) : Option (List α) :=
  loop v2.length (fun i vd => do store vd i (v1 - (← v2[i]?))) (newVector junk v2.length)

/-- MonthlyModel.cpp:211-219 -/
def maximumAll (v1 : List α) : Option α :=
  loop v1.length (fun i max => do if clt max (← v1[i]?) then v1[i]? else pure max) (-dblMax)

/-- MonthlyModel.cpp:220-227 -/
def maximum (v1 v2 : List α) : Option (List α) :=
  loop v1.length (fun i vx => do store vx i (cmax (← v1[i]?) (← v2[i]?))) (newVector junk v1.length)

/-- MonthlyModel.cpp:228-235 -/
def maximumScalar (v1 : List α) (val : α) : Option (List α) :=
  loop v1.length (fun i vx => do store vx i (cmax (← v1[i]?) val)) (newVector junk v1.length)

/-- MonthlyModel.cpp:236-244 -/
def minimumAll (v1 : List α) : Option α :=
  loop v1.length (fun i min => do if clt (← v1[i]?) min then v1[i]? else pure min) dblMax

/-- MonthlyModel.cpp:245-252 -/
def minimumScalar (v1 : List α) (val : α) : Option (List α) :=
  loop v1.length (fun i vn => do store vn i (cmin (← v1[i]?) val)) (newVector junk v1.length)

/-- MonthlyModel.cpp:253-260 -/
def absAll (v1 : List α) : Option (List α) :=
  loop v1.length (fun i va => do store va i (cabs (← v1[i]?))) (newVector junk v1.length)

/-- MonthlyModel.cpp:261-268 -/
def powAll (v1 : List α) (xp : α) : Option (List α) :=
  loop v1.length (fun i va => do store va i (cpow (← v1[i]?) xp)) (newVector junk v1.length)

/-- `boost::numeric::ublas::prod` of a matrix given by its rows and a vector (MonthlyModel.cpp:82-90; of the four uses at 361-373 the
vector is always the right operand): every row times the vector, summed from the first column to the last; undefined if the sizes differ. -/
def prod (m : List (List α)) (v : List α) : Option (List α) :=
  m.mapM fun row => if row.length = v.length then
    loop v.length (fun j t => do pure (t + (← row[j]?) * (← v[j]?))) (0.0 : α) else none

end ISO.Vectors
