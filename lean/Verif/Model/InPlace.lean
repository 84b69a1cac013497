import Verif.Model.Layout
import Mathlib.Logic.Function.Basic

/-!
# Storages that hold their elements in place

The storage for arrays on the stack (Storage.h:16-117) and the fixed-size sparse storage (SparseStorage.h:8-80).  Both have
an array member `data_[Size]`; an object is created, copied and assigned as a whole.  Neither declares move operations, and
both declare copy operations, so moving copies.

The state maps a variable to its array (`none`: no such object).  Cells are `some v` after construction; the type of cells
is kept so that reads and writes are those of `Base.lean`.
-/

namespace BB.InPlace

variable {R : Type}

/-- Which of the two class templates. -/
inductive Class | stack | sparse
deriving DecidableEq, Repr

/-- Objects alive and their arrays. -/
abbrev World (R : Type) := Nat → Option (Buf R)

/-- Statements of a program over such storages. -/
inductive Op (R : Type) where
  /-- `Storage x;` (Storage.h:27-31; SparseStorage.h:22-24). -/
  | dflt (x : Nat)
  /-- `Storage x {…};` (Storage.h:51-59); the sparse storage has no such constructor. -/
  | ofList (x : Nat) (vs : List R)
  /-- `Storage x(y);` or `Storage x(std::move(y));` (Storage.h:33-39; SparseStorage.h:26-32). -/
  | copy (x y : Nat)
  /-- `x = y;` or `x = std::move(y);` (Storage.h:41-48; SparseStorage.h:36-44). -/
  | assign (x y : Nat)
  /-- `*(x.begin() + i) = v;` (Storage.h:82-88, SparseStorage.h:51-57). -/
  | write (x i : Nat) (v : R)
  /-- End of the scope. -/
  | dtor (x : Nat)

/-- `data_()` with `data_[Size]`: every element is value-initialised, that is 0 (Storage.h:28; SparseStorage.h:23). -/
def zeros [Zero R] (N : Nat) : Buf R := List.replicate N (some 0)

/-- `std::copy_n(from.begin(), from.size(), to.begin())` (Storage.h:38, 45; SparseStorage.h:31, 40). -/
def copyN (N : Nat) (from' to : Buf R) : Res (Buf R) :=
  loopN N (fun i b => do
    let v ← from'.read i
    b.write i v) to

/-- `size_t i(0); for (auto val : values) data_[i++] = val;` (Storage.h:56-57): nothing compares the number of values with
the size. -/
def fillList : Nat → List R → Buf R → Res (Buf R)
  | _, [], b => .ok b
  | i, v :: vs, b => do
    let b ← b.write i v
    fillList (i + 1) vs b

/-- An object that must be alive. -/
def get (w : World R) (x : Nat) : Res (Buf R) :=
  match w x with
  | some b => .ok b
  | none => .error .ub

/-- A new object under a name not in use. -/
def put (w : World R) (x : Nat) (b : Buf R) : Res (World R) :=
  match w x with
  | some _ => .error .ub
  | none => .ok (Function.update w x (some b))

/-- Execution of one statement for class `K` and size `N`. -/
def step [Zero R] (K : Class) (N : Nat) (w : World R) : Op R → Res (World R)
  | .dflt x => put w x (zeros N)
  | .ofList x vs => do
    let b ← fillList 0 vs (zeros N)
    put w x b
  | .copy x y => do
    let b ← get w y
    let c ← copyN N b (zeros N)
    put w x c
  | .assign x y => do
    let a ← get w x
    let b ← get w y
    match K with
    | .stack =>
      -- `if (this != &rhs)` (Storage.h:44)
      if x = y then return w
      let c ← copyN N b a
      return Function.update w x (some c)
    | .sparse =>
      -- `if (&rhs == this)` (SparseStorage.h:39)
      if x = y then
        let c ← copyN N b a
        return Function.update w x (some c)
      return w
  | .write x i v => do
    let a ← get w x
    let c ← a.write i v
    return Function.update w x (some c)
  | .dtor x => do
    let _ ← get w x
    return Function.update w x none

/-- Execution of a program. -/
def run [Zero R] (K : Class) (N : Nat) : List (Op R) → World R → Res (World R)
  | [], w => .ok w
  | o :: os, w => do
    let w ← step K N w o
    run K N os w

/-- `x == y` (Storage.h:62-64; SparseStorage.h:46-49): `data_ == rhs.data_` compares the addresses of the arrays, the sizes
are equal constants. -/
def opEq (x y : Nat) : Bool := x = y

/-- `x.equal(y)` (Storage.h:66-74) for storages of sizes `N` and `N'`; `close` is `equalWithinNumericalAccuracy`. -/
def equalLoop (close : R → R → Bool) : Nat → Buf R → Buf R → Nat → Res Bool
  | 0, _, _, _ => .ok true
  | n + 1, a, b, i => do
    let u ← a.read i
    let v ← b.read i
    if close u v then equalLoop close n a b (i + 1) else return false

def equal (close : R → R → Bool) (N N' : Nat) (a b : Buf R) : Res Bool :=
  if N ≠ N' then .ok false else equalLoop close N a b 0

/-- The storage of `Matrix<Dense,T,Parameter<…,VariableSize,…,OnStack>>`: `P::dimension::size` is 0 for matrices whose
dimensions are determined at run time (DenseMatrix.h:42, Dimension.h:46), whatever number of elements is passed to the
constructor (Storage.h:27). -/
def stackMatrix [Zero R] (_elements : Nat) : Buf R := zeros 0

end BB.InPlace
