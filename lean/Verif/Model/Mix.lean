import Verif.Model.Alias
import Verif.SpecMix

/-!
# Programs over matrices of all kinds: execution

Every statement calls the overload of the library that the types of its operands select.  Variables own their arrays (that copies
and moves keep them apart is the subject of C05, C73, C89); a variable that is declared again stands for a new one.
-/

namespace BB.Mix

variable {R : Type} [Zero R] [Add R] [Sub R] [Neg R] [Mul R] [DecidableEq R]

/-- The variables. -/
abbrev State (R : Type) := Nat → Option (SMat R)

/-- A variable that does not exist cannot be named; here: `ub`. -/
def State.get (s : State R) (x : Nat) : Res (SMat R) :=
  match s x with
  | some M => .ok M
  | none => .error .ub

def State.put (s : State R) (x : Nat) (M : SMat R) : State R := fun y => if y = x then some M else s y

/-- `x op= y` (BinaryFunctors.h:325-418, 461-486); if both are the same dense matrix, both iterators run over one array. -/
def inPlaceStep (op : R → R → R) (s : State R) (x y : Nat) : Res (State R) := do
  let A ← s.get x
  let B ← s.get y
  match A with
  | .dense A =>
    if x = y then do
      let D ← Alias.assignSelf op A
      return s.put x (.dense D)
    else do
      let M ← SMat.binassign op (.dense A) B
      return s.put x M
  | A => do
    let M ← SMat.binassign op A B
    return s.put x M

/-- One statement. -/
def step (s : State R) : Stmt R → Res (State R)
  -- DenseMatrix.h:341-349, MatrixFiller.h:14-31
  | .new x r c v => do
    let D ← (Dense.new .col r c).fillAll v
    return s.put x (.dense D)
  -- ZeroMatrix.h:34, 85-89
  | .zero x r c => .ok (s.put x (.zero (Dim.mk' r c)))
  -- DenseMatrix.h:712-716; the other types have no such operator
  | .set x i j v => do
    match ← s.get x with
    | .dense A => do
      let D ← A.set i j v
      return s.put x (.dense D)
    | _ => .error .ub
  -- SparseMatrix.h:184-218
  | .sparse x y chk => do
    match ← s.get y with
    | .dense A => do
      let S ← Sparse.ofDense chk id .col A
      return s.put x (.sparse S)
    | _ => .error .ub
  -- DenseMatrix.h:198, 591-650
  | .dense x y => do
    let D ← Mat.denseOf (← s.get y)
    return s.put x (.dense D)
  -- ZeroMatrix.h:91-96
  | .toZero x y => do
    let M ← s.get y
    return s.put x (.zero (Dim.mk' M.rows M.cols))
  -- DenseMatrix.h:198, SparseMatrix.h:81, ZeroMatrix.h:37
  | .copy x y => do return s.put x (← s.get y)
  -- BinaryFunctors.h:450-486
  | .add x y z => do return s.put x (← SMat.binop (· + ·) id (← s.get y) (← s.get z))
  | .sub x y z => do return s.put x (← SMat.binop (· - ·) (- ·) (← s.get y) (← s.get z))
  | .addTo x y => inPlaceStep (· + ·) s x y
  | .subFrom x y => inPlaceStep (· - ·) s x y
  -- MatrixMultExp.h:28-52
  | .mul x y z => do return s.put x (← SMat.mul (← s.get y) (← s.get z))
  -- Transposition.h:8-92
  | .trans x y => do
    match ← s.get y with
    | .dense A => do return s.put x (.dense (← A.transpose))
    | .sparse A => do return s.put x (.sparse (← A.transpose))
    | .zero _ => .error .ub
  | .drop x => do
    let _ ← s.get x
    return fun y => if y = x then none else s y

/-- A program. -/
def run : List (Stmt R) → State R → Res (State R)
  | [], s => .ok s
  | t :: ts, s => do run ts (← step s t)

/-- The type of a matrix. -/
def kindOf : SMat R → Kind
  | .dense _ => .dense
  | .sparse _ => .sparse
  | .zero _ => .zero

end BB.Mix
