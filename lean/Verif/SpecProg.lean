import Verif.Model.Prog
import Verif.Spec

/-!
# What programs over matrix variables mean

Variables stand for mathematical matrices (number of rows, number of columns, elements), a statement replaces the value
of its target by a function of the values its operands have at that moment.  No memory, no temporaries, no aliasing.
`none` is a statement outside the language's rules: use of a variable that is not alive or was moved from, an index out
of range, operands whose dimensions do not fit.
-/
namespace BB.SpecProg

open BB.Prog

variable {R : Type}

/-- The value of a variable: a matrix, or moved from (it must be assigned before it is used again). -/
inductive Val (R : Type) where
  | mat (r c : Nat) (f : Nat → Nat → R)
  | hollow (r c : Nat)

structure Env (R : Type) where
  vars : Nat → Option (Val R)
  lazy : Nat → Option (Nat × Nat)

def Env.init : Env R := ⟨fun _ => none, fun _ => none⟩

def Env.put (E : Env R) (x : Nat) (v : Option (Val R)) : Env R := { E with vars := fun z => if z = x then v else E.vars z }

/-- The matrix of a variable. -/
def Env.mat (E : Env R) (x : Nat) : Option (Nat × Nat × (Nat → Nat → R)) :=
  match E.vars x with
  | some (.mat r c f) => some (r, c, f)
  | _ => none

/-- A new variable. -/
def Env.new (E : Env R) (x r c : Nat) (f : Nat → Nat → R) : Option (Env R) :=
  if (E.vars x).isSome then none else some (E.put x (some (.mat r c f)))

/-- Assignment to a variable that is alive. -/
def Env.assign (E : Env R) (x r c : Nat) (f : Nat → Nat → R) : Option (Env R) :=
  if (E.vars x).isSome then some (E.put x (some (.mat r c f))) else none

variable [Zero R] [Add R] [Mul R]

/-- The product (row-by-column sums, accumulated from left to right). -/
def Env.mul (E : Env R) (x y z : Nat) : Option (Env R) :=
  match E.mat y, E.mat z with
  | some (r, k, f), some (k', c, g) => if k = k' then E.assign x r c (fun i j => dotSeq f g k i j) else none
  | _, _ => none

def step (E : Env R) : Stmt R → Option (Env R)
  | .decl x => E.new x 0 0 (fun _ _ => 0)
  | .new x r c v => E.new x r c (fun _ _ => v)
  | .copyNew x y =>
    match E.mat y with
    | some (r, c, f) => E.new x r c f
    | none => none
  | .moveNew x y =>
    match E.mat y with
    | some (r, c, f) => (E.new x r c f).map (·.put y (some (.hollow r c)))
    | none => none
  | .assign x y =>
    match E.mat y with
    | some (r, c, f) => E.assign x r c f
    | none => none
  | .move x y =>
    match E.mat y with
    | some (r, c, f) => if x = y then none else (E.assign x r c f).map (·.put y (some (.hollow r c)))
    | none => none
  | .set x i j v =>
    match E.mat x with
    | some (r, c, f) =>
      if i < r ∧ j < c then E.assign x r c (fun k l => if k = i ∧ l = j then v else f k l) else none
    | none => none
  | .fill x v =>
    match E.mat x with
    | some (r, c, _) => E.assign x r c (fun _ _ => v)
    | none => none
  | .resize x r c v =>
    match E.mat x with
    | some _ => E.assign x r c (fun _ _ => v)
    | none => none
  | .bin op x y z =>
    match E.mat y, E.mat z with
    | some (r, c, f), some (r', c', g) =>
      if r = r' ∧ c = c' then E.assign x r c (fun i j => op (f i j) (g i j)) else none
    | _, _ => none
  | .inplace op x y =>
    match E.mat x, E.mat y with
    | some (r, c, f), some (r', c', g) =>
      if r = r' ∧ c = c' then E.assign x r c (fun i j => op (f i j) (g i j)) else none
    | _, _ => none
  | .mul x y z => E.mul x y z
  | .trans x y =>
    match E.mat y with
    | some (r, c, f) => E.assign x c r (fun j i => f i j)
    | none => none
  | .swap x y =>
    match E.vars x, E.vars y with
    | some v, some u => some ((E.put x (some u)).put y (some v))
    | _, _ => none
  | .lazy p y z => some { E with lazy := fun q => if q = p then some (y, z) else E.lazy q }
  | .eval x p =>
    match E.lazy p with
    | some (y, z) => E.mul x y z
    | none => none
  | .destroy x => if (E.vars x).isSome then some (E.put x none) else none

def run : List (Stmt R) → Env R → Option (Env R)
  | [], E => some E
  | t :: ts, E => (step E t).bind (run ts)

end BB.SpecProg
