import Verif.Model.Blocked
import Verif.Model.Storage
import Verif.SpecBlockProg

/-!
# Programs over blocked matrix variables: execution

`BlockedDenseMatrix` objects have the base classes `dimension`, `unblockedDimension` and `storage` (DenseMatrix.h:36-60,
BlockedMatrix.h:8-17).  Simplifications: those of `Verif.Model.Blocked` (blocks are values, as no statement here changes a block in
place); the array of a moved-from storage is empty (Storage.h:349-362, C08).
-/
namespace BB.BProg

open Own (upd)

variable {R : Type}

/-- The variables; `none`: not constructed. -/
abbrev State (R : Type) := Nat → Option (Blocked R)

/-- The object of a variable. -/
def State.obj (s : State R) (x : Nat) : Res (Blocked R) :=
  match s x with
  | some B => .ok B
  | none => .error .ub

/-- Begin the lifetime of a variable. -/
def State.construct (s : State R) (x : Nat) (B : Blocked R) : Res (State R) :=
  match s x with
  | none => .ok (upd s x (some B))
  | some _ => .error .ub

/-- What is left after moving: the storage is empty, dimension and unblocked dimension are numbers and stay (DenseMatrix.h:200-221,
Dimension.h:57-61, 163-167). -/
def husk (B : Blocked R) : Blocked R := { B with grid := { B.grid with data := [] } }

/-- Defaulted copy constructor and copy assignment (DenseMatrix.h:197-198, 210-211): all base classes. -/
def copied (B : Blocked R) : Blocked R := ⟨B.grid, B.ubRows, B.ubCols⟩

/-- Move constructor (DenseMatrix.h:200-206): dimension and storage; the unblocked dimension is not mentioned and so is default
constructed, with zeros (Dimension.h:153-155). -/
def movedInto (B : Blocked R) : Blocked R := ⟨B.grid, 0, 0⟩

/-- Move assignment (DenseMatrix.h:213-221): all base classes. -/
def moveAssigned (B : Blocked R) : Blocked R := ⟨B.grid, B.ubRows, B.ubCols⟩

/-- `swap(A, B)` (DenseMatrix.h:287-295), the new `A`: data, size, ownership, rows and columns are exchanged; the cached product of rows
and columns and the unblocked dimension are not. -/
def swapped (A B : Blocked R) : Blocked R :=
  ⟨⟨B.grid.ori, ⟨B.grid.dim.rows, B.grid.dim.cols, A.grid.dim.fullSize⟩, B.grid.data⟩, A.ubRows, A.ubCols⟩

/-- One statement.  `elide`: does the compiler construct a returned local variable in place, without the move constructor? (C++ allows
it, but does not demand it.) -/
def State.step [Zero R] [Add R] [Mul R] [DecidableEq R] (elide : Bool) (s : State R) : Op → Res (State R)
  | .copyOf x y => do s.construct x (copied (← s.obj y))
  | .moveOf x y => do
    let B ← s.obj y
    let s ← s.construct x (movedInto B)
    return upd s y (some (husk B))
  | .assign x y => do
    let _ ← s.obj x
    let B ← s.obj y
    return upd s x (some (copied B))
  | .moveAssign x y => do
    let _ ← s.obj x
    let B ← s.obj y
    return upd (upd s x (some (moveAssigned B))) y (some (husk B))
  | .swap x y => do
    let A ← s.obj x
    let B ← s.obj y
    return upd (upd s x (some (swapped A B))) y (some (swapped B A))
  | .mul x y z => do
    -- `execute` returns the local variable `C` (MatrixMultExp.h:63-69); a temporary matrix is default constructed and move-assigned
    -- from the result (DenseMatrix.h:663-668), then `x` is move-assigned from the temporary (DenseMatrix.h:213-221)
    let _ ← s.obj x
    let A ← s.obj y
    let B ← s.obj z
    let C ← A.mul B
    let ret := if elide then C else movedInto C
    return upd s x (some (moveAssigned (moveAssigned ret)))

/-- A program. -/
def State.run [Zero R] [Add R] [Mul R] [DecidableEq R] (elide : Bool) : List Op → State R → Res (State R)
  | [], s => .ok s
  | op :: ops, s => do
    let s ← s.step elide op
    State.run elide ops s

/-- `Matrix<Dense,T>(x)` (DenseMatrix.h:524-561). -/
def State.toDense [Zero R] [Add R] (s : State R) (x : Nat) : Res (Dense R) := do
  (← s.obj x).toDense

/-- `getUnblockedRows()`, `getUnblockedColumns()` (Dimension.h:169-170). -/
def State.unblocked (s : State R) (x : Nat) : Res (Nat × Nat) := do
  let B ← s.obj x
  return (B.ubRows, B.ubCols)

end BB.BProg
