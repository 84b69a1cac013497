import Verif.Model.Prog
import Verif.Model.SparseProg
import Verif.SpecMixProg

/-!
# Programs over dense and sparse matrix variables: execution

The machines of `Verif.Model.Prog` and `Verif.Model.SparseProg` side by side, with the statements that have operands of both kinds.

Simplifications: those of the two machines; arrays of dense and of sparse matrices are kept in two heaps (no operation makes them
share memory, DenseMatrix.h, SparseMatrix.h).
-/
namespace BB.MProg

open Own

variable {R : Type}

/-- Dense variables, sparse variables, stored product expressions (two references each, MatrixMultExp.h:47-48). -/
structure State (R : Type) where
  d : Prog.State R
  s : SProg.State R
  lazy : Nat → Option (Opd × Opd)

def State.init : State R := ⟨.init, .init, fun _ => none⟩

variable [Zero R] [Add R] [Mul R] [DecidableEq R]

/-- `A * B` for operands of different kinds (Multiplication_Native.h:207-280). -/
def State.product (m : State R) (d : Prog.State R) : Opd → Opd → Res (Dense R)
  | .d y, .s z => do
    let A ← d.deref (Prog.var y)
    let B ← m.s.deref (SProg.var z)
    Sparse.mulDS A B (Dense.empty .col)
  | .s y, .d z => do
    let A ← m.s.deref (SProg.var y)
    let B ← d.deref (Prog.var z)
    Sparse.mulSD A B (Dense.empty .col)
  | _, _ => .error .ub

/-- `x = a * b` with a dense `x` and operands of different kinds: the expression is converted to a temporary matrix
(DenseMatrix.h:663-668), which is move-assigned from the result of `execute` (MatrixMultExp.h:37-43); then `x` is move-assigned from
the temporary. -/
def State.mulMixed (m : State R) (x : Nat) (a b : Opd) : Res (State R) := do
  let d ← m.d.store (.dflt Prog.tmp0) Prog.tmp0 (Dim.mk' 0 0)
  let d ← d.store (.dflt Prog.tmp1) Prog.tmp1 (Dim.mk' 0 0)
  let C ← m.product d a b
  let d ← d.fillIn Prog.tmp1 C
  let d ← d.moveAssign Prog.tmp0 Prog.tmp1
  let d ← d.data (.dtor Prog.tmp1)
  let d ← d.moveAssign (Prog.var x) Prog.tmp0
  let d ← d.data (.dtor Prog.tmp0)
  return { m with d := d }

/-- `x = a * b`, by the types of the operands. -/
def State.mul (m : State R) (x : Nat) : Opd → Opd → Res (State R)
  | .d y, .d z => do
    let d ← m.d.mul (Prog.var x) (Prog.var y) (Prog.var z)
    return { m with d := d }
  | .s y, .s z => do
    let s ← SProg.step m.s (.mul x y z)
    return { m with s := s }
  | a, b => m.mulMixed x a b

/-- `x = y ± z` with a dense `y` and a sparse `z` (BinaryFunctors.h:450-459, 468-477, 253-281): the result `C` is default constructed,
copy-assigned from `y`, changed in place, and moved to `x`. -/
def State.bin (m : State R) (op : R → R → R) (x y z : Nat) : Res (State R) := do
  let d ← m.d.store (.dflt Prog.tmp0) Prog.tmp0 (Dim.mk' 0 0)
  let A ← d.deref (Prog.var y)
  let B ← m.s.deref (SProg.var z)
  let C ← Sparse.binopDS op A B
  let d ← d.store (.assign Prog.tmp0 (Prog.var y)) Prog.tmp0 (d.dim (Prog.var y))
  let d ← d.writeAll Prog.tmp0 C.data
  let d ← d.moveAssign (Prog.var x) Prog.tmp0
  let d ← d.data (.dtor Prog.tmp0)
  return { m with d := d }

/-- One statement. -/
def step (m : State R) : Stmt R → Res (State R)
  | .dense t => do
    let d ← Prog.step m.d t
    return { m with d := d }
  | .sparse t => do
    let s ← SProg.step m.s t
    return { m with s := s }
  -- DenseMatrix.h:591-615
  | .denseOf x y => do
    let S ← m.s.deref (SProg.var y)
    let D ← S.toDense id .col
    let d ← m.d.store (.size (Prog.var x) D.data.length) (Prog.var x) D.dim
    let d ← d.writeAll (Prog.var x) D.data
    return { m with d := d }
  -- SparseMatrix.h:184-225
  | .sparseOf x y chk => do
    let A ← m.d.deref (Prog.var y)
    let C ← Sparse.ofDense chk id .col A
    let s ← m.s.construct (SProg.var x) C
    return { m with s := s }
  | .bin op x y z => m.bin op x y z
  -- BinaryFunctors.h:283-292: forwarded with the operands exchanged
  | .add x y z => m.bin (· + ·) x z y
  -- BinaryFunctors.h:461-467, 480-486, 356-377
  | .inplace op x y => do
    let A ← m.d.deref (Prog.var x)
    let B ← m.s.deref (SProg.var y)
    let D ← Sparse.binassignDS op A B
    let d ← m.d.writeAll (Prog.var x) D.data
    return { m with d := d }
  | .mul x a b => m.mul x a b
  -- MatrixMultExp.h:33-35, 191-194
  | .lazy p a b => .ok { m with lazy := upd m.lazy p (some (a, b)) }
  | .eval x p =>
    match m.lazy p with
    | none => .error .ub
    | some (a, b) => m.mul x a b

/-- A program. -/
def run : List (Stmt R) → State R → Res (State R)
  | [], m => .ok m
  | t :: ts, m => do run ts (← step m t)

end BB.MProg
