import Verif.Model.Cache
import Verif.Model.Mat

/-!
# Remembered norms and occupations of computed matrices

What `C = A + B`, `A - B` and `A * B` of statically typed matrices do to the caches of the result
(include/BlasBooster/Core/BinaryFunctors.h:142-322, 457-484, MatrixMultExp.h:28-52).  The result object is default constructed;
where a functor begins with `C = A` (or `C = B`), the defaulted copy assignment copies the caches of the operand too, unless
the element types differ: then `C = A` converts to a temporary, and the move assignment does not touch caches.
-/

namespace BB.Cache

variable {R V : Type}

/-- A program that also computes.  `keep`: the element types of the result and of the copied operand are the same and the
returned object is not moved (named return value optimisation); the move constructor would drop the caches. -/
inductive AOp (R : Type) where
  | op (o : Op (SMat R) R)
  | add (keep : Bool) (x y z : Nat)     -- Matrix x = y + z
  | sub (keep : Bool) (x y z : Nat)     -- Matrix x = y - z
  | mul (x y z : Nat)                   -- Matrix x = y * z

/-- The object a functor makes from operands `a`, `b` when the contents of the result are `m`. -/
def computed (keep : Bool) (a b : Obj (SMat R) R V) (m : SMat R) : Obj (SMat R) R V :=
  if keep then
    match a.mat, b.mat with
    -- BinaryFunctors.h:142-171, 173-250: C.resize(...), then all elements are written
    | .dense _, .dense _ => .fresh m
    | .sparse _, .sparse _ => .fresh m
    -- BinaryFunctors.h:253-281: C = A, then elements are changed through iterators
    | .dense _, .sparse _ => { a with mat := m }
    -- BinaryFunctors.h:283-292: the same with exchanged operands
    | .sparse _, .dense _ => { b with mat := m }
    -- BinaryFunctors.h:294-302: C = A
    | _, .zero _ => { a with mat := m }
    -- BinaryFunctors.h:304-312: C = B
    | .zero _, _ => { b with mat := m }
  else .fresh m

variable [LinearOrder R] [Ring R]

/-- One operation or computation. -/
def astep (K : Ops (SMat R) R V) (p : Pool (SMat R) R V) : AOp R → Res (Pool (SMat R) R V × Ans V)
  | .op o => step K p o
  | .add keep x y z => do
    let a ← p.get y
    let b ← p.get z
    let m ← SMat.binop (· + ·) id a.mat b.mat
    return (p.set x (computed keep a b m), .unit)
  | .sub keep x y z => do
    let a ← p.get y
    let b ← p.get z
    let m ← SMat.binop (· - ·) (- ·) a.mat b.mat
    return (p.set x (computed keep a b m), .unit)
  | .mul x y z => do
    let a ← p.get y
    let b ← p.get z
    let m ← SMat.mul a.mat b.mat
    return (p.set x (.fresh m), .unit)

/-- A program run from the pool `p`. -/
def arun (K : Ops (SMat R) R V) : List (AOp R) → Pool (SMat R) R V → Res (Pool (SMat R) R V)
  | [], p => .ok p
  | o :: os, p => do
    let (p, _) ← astep K p o
    arun K os p

end BB.Cache
