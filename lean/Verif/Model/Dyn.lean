import Verif.Model.Mat
import Verif.Model.Alias

/-!
# Programs over dynamic matrices

`DynamicMatrix` is `std::shared_ptr<MatrixBase>` (DynamicMatrix.h:11): variables are pointers, `x = y` makes `x` point to
the matrix of `y`, `+`, `-` and executed products make a new matrix, `+=` and `-=` change the matrix in place.  A stored
product `auto p = y * z;` holds references to the two pointer *variables* (MatrixMultExp.h:163-183).

Simplifications: element types are not distinguished (see `Typed.lean`); the call has arrived at the operator for the
runtime types (the dispatch is `Dispatch.lean`); matrices nobody points to stay in the list (the program frees them, which
nobody can observe); the two parts of a two-part matrix belong to no other matrix.
-/

namespace BB.Dyn

variable {R : Type}

/-- The matrices in memory, the pointer variables (`none`: null) and the stored products. -/
structure State (R : Type) where
  heap : List (Mat R)
  vars : Nat → Option Nat
  lazy : Nat → Option (Nat × Nat)

def State.init : State R := ⟨[], fun _ => none, fun _ => none⟩

inductive Stmt (R : Type) where
  | make (x : Nat) (M : Mat R)     -- DynamicMatrix x(new T(…)); or x.reset(new T(…));
  | share (x y : Nat)              -- x = y;
  | reset (x : Nat)                -- x.reset();
  | add (x y z : Nat)              -- x = y + z;
  | sub (x y z : Nat)              -- x = y - z;
  | mul (x y z : Nat)              -- x = (y * z).execute<Native>();
  | addAssign (x y : Nat)          -- x += y;
  | subAssign (x y : Nat)          -- x -= y;
  | lazy (p y z : Nat)             -- auto p = y * z;
  | eval (x p : Nat)               -- x = p.execute<Native>();

/-- `*x`; reading the type index through a null pointer is undefined (exec_dyn_2dim, Utilities/exec_dyn_2dim.h). -/
def State.deref (s : State R) (x : Nat) : Res (Nat × Mat R) :=
  match s.vars x with
  | none => .error .ub
  | some l =>
    match s.heap[l]? with
    | none => .error .ub
    | some M => .ok (l, M)

/-- `x = DynamicMatrix(new ResultType(…))` (BinaryFunctors.h:601-604, MatrixMultExp.h:157-160). -/
def State.new (s : State R) (x : Nat) (M : Mat R) : State R :=
  { s with heap := s.heap ++ [M], vars := Function.update s.vars x (some s.heap.length) }

/-- `*p op= *p` (BinaryFunctors.h:460-486, 512-590 with `&A == &B`): a dense matrix is updated element by element in
place, the parts of a two-part matrix one after the other. -/
def assignSelf (op : R → R → R) : Mat R → Res (Mat R)
  | .one (.dense A) => do return .one (.dense (← Alias.assignSelf op A))
  | .one A => do return .one (← SMat.binassign op A A)
  | .two A1 A2 => do
    let A1 ← SMat.binassign op A1 A1
    let A2 ← SMat.binassign op A2 A1
    let A1 ← SMat.binassign op A1 A2
    let A2 ← SMat.binassign op A2 A2
    return .two A1 A2

/-- `*ptrA op= *ptrB`, where the pointers may be equal. -/
def assignVal (op : R → R → R) (opM : Mat R → Mat R → Res (Mat R)) (same : Bool) (A B : Mat R) : Res (Mat R) :=
  if same then assignSelf op A else opM A B

/-- `x op= y` (BinaryFunctors.h:632-668). -/
def State.assign (s : State R) (op : R → R → R) (opM : Mat R → Mat R → Res (Mat R)) (x y : Nat) : Res (State R) := do
  let (l, A) ← s.deref x
  let (k, B) ← s.deref y
  let M ← assignVal op opM (l = k) A B
  return { s with heap := s.heap.set l M }

variable [Zero R] [Add R] [Mul R] [Sub R] [Neg R] [DecidableEq R]

/-- `x = (y * z).execute<Native>()` (MatrixMultExp.h:150-183). -/
def State.mul (s : State R) (x y z : Nat) : Res (State R) := do
  let (_, A) ← s.deref y
  let (_, B) ← s.deref z
  let C ← Mat.mul A B
  return s.new x (.one C)

/-- One statement. -/
def step (s : State R) : Stmt R → Res (State R)
  | .make x M => .ok (s.new x M)
  | .share x y => .ok { s with vars := Function.update s.vars x (s.vars y) }
  | .reset x => .ok { s with vars := Function.update s.vars x none }
  -- BinaryFunctors.h:592-613
  | .add x y z => do
    let (_, A) ← s.deref y
    let (_, B) ← s.deref z
    let C ← Mat.add (· + ·) A B
    return s.new x (.one C)
  -- BinaryFunctors.h:615-635
  | .sub x y z => do
    let (_, A) ← s.deref y
    let (_, B) ← s.deref z
    let C ← Mat.sub A B
    return s.new x (.one C)
  | .mul x y z => s.mul x y z
  | .addAssign x y => s.assign (· + ·) Mat.addAssign x y
  | .subAssign x y => s.assign (· - ·) Mat.subAssign x y
  -- MatrixMultExp.h:163-165, 181-182: the expression refers to the variables
  | .lazy p y z => .ok { s with lazy := Function.update s.lazy p (some (y, z)) }
  -- MatrixMultExp.h:167-172
  | .eval x p =>
    match s.lazy p with
    | none => .error .ub
    | some (y, z) => s.mul x y z

/-- A program. -/
def exec (s : State R) : List (Stmt R) → Res (State R)
  | [] => .ok s
  | o :: os => do exec (← step s o) os

end BB.Dyn
