import Verif.Model.Storage
import Verif.Model.Layout

/-!
# `operator ==` and `operator !=` of storages and matrices

The comparison with `==` looks at the members of the storage – the address of the array, its size, who owns it – not at the
elements (the comparison of the elements is `equal`, Model/Compare.lean).
-/

namespace BB.Own

variable {R : Type}

/-- `data_ == rhs.data_ and size_ == rhs.size_ and ownMemory_ == rhs.ownMemory_` (Storage.h:414-419). -/
def Obj.same (o p : Obj) : Bool := o.data == p.data && o.size == p.size && o.own == p.own

/-- `x == y` of two live storages; using a dead one is undefined. -/
def World.same (w : World R) (x y : Nat) : Res Bool := do
  let o ← w.get x
  let p ← w.get y
  return o.same p

/-- A dense matrix: its storage and its dimension (DenseMatrix.h:36-60). -/
structure DenseM where
  st : Nat
  dim : Dim

/-- `storage::operator==(rhs) and dimension::operator==(rhs)` (DenseMatrix.h:239-241, Dimension.h:71-74). -/
def World.sameDense (w : World R) (A B : DenseM) : Res Bool := do
  return (← w.same A.st B.st) && (A.dim.rows == B.dim.rows && A.dim.cols == B.dim.cols)

/-- `!operator==(rhs)` (DenseMatrix.h:243-245). -/
def World.diffDense (w : World R) (A B : DenseM) : Res Bool := do
  return !(← w.sameDense A B)

/-- A sparse matrix: the storages of the offsets, the keys and the values, and its dimension (SparseStorage.h:140-160,
SparseMatrix.h:28-60).  Simplification: the three storages live in one heap of one element type. -/
structure SparseM where
  offset : Nat
  key : Nat
  value : Nat
  dim : Dim

/-- `offset_ == rhs.offset_ and key_ == rhs.key_ and value_ == rhs.value_` (SparseStorage.h:121-123; `and` does not evaluate
its right side when the left side is false), then the dimension (SparseMatrix.h:118-120). -/
def World.sameSparse (w : World R) (A B : SparseM) : Res Bool := do
  if !(← w.same A.offset B.offset) then return false
  if !(← w.same A.key B.key) then return false
  if !(← w.same A.value B.value) then return false
  return A.dim.rows == B.dim.rows && A.dim.cols == B.dim.cols

end BB.Own
