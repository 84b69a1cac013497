import Verif.Model.Blocked

/-!
# Construction of a blocked matrix from nested lists of blocks
-/

namespace BB.Blocked

variable {R : Type}

/-- Body of the inner loop (DenseMatrix.h:409-415): `*columnCur = *val2`, the height check against the first block of the
row, the running width.  The state is (`val2` index, `ubColumnsTmp`, storage). -/
def listCell (row : List (Mat R)) (h : Nat) (p : Nat) (u : Nat × Nat × Buf (Mat R)) : Res (Nat × Nat × Buf (Mat R)) := do
  let M ← vecRead row u.1
  let d ← u.2.2.write p M
  if h ≠ M.rows then .error (.throw "wrong sub-dimension") else return (u.1 + 1, u.2.1 + M.cols, d)

/-- Body of the outer loop (DenseMatrix.h:403-417).  The state is (`ubRows_`, `ubColumns_`, storage): `ubColumns_` is
overwritten in each row. -/
def listRow (G : Dense (Mat R)) (values : List (List (Mat R))) (i : Nat) (s : Nat × Nat × Buf (Mat R)) : Res (Nat × Nat × Buf (Mat R)) := do
  let row ← vecRead values i
  let M0 ← vecRead row 0
  let x ← ptrLoop (G.view.rowBegin i) (G.view.rowEnd i) G.view.rowStride (listCell row M0.rows) (0, 0, s.2.2)
  return (s.1 + M0.rows, x.2.1, x.2.2)

/-- Constructor of a blocked matrix from nested initializer lists of blocks (DenseMatrix.h:391-418); the unblocked
dimensions start at 0 (Dimension.h:153).  Iterators past the end of a list and an empty list of rows are undefined.
The blocks are non-null pointers. -/
def ofLists (values : List (List (Mat R))) : Res (Blocked R) :=
  match values with
  | [] => .error .ub
  | first :: _ => do
    let G : Dense (Mat R) := Dense.new .col values.length first.length
    let x ← ptrLoop 0 values.length 1 (listRow G values) (0, 0, G.data)
    return ⟨{ G with data := x.2.2 }, x.1, x.2.1⟩

end BB.Blocked
