import Verif.Model.Layout

/-!
# Dense matrices: construction, filling, conversion, transposition, sums and products

The model of `Matrix<Dense,T,P>` (include/BlasBooster/Core/DenseMatrix.h) for variable-size,
heap-stored, numeric matrices that own their memory (ownership itself is modelled in
`Verif.Model.Storage`).  The element type is one abstract type `R`; conversions between element types
are the abstract function `cvt`.  `Norm`/`Occupation` caches are modelled in `Verif.Model.Cache`.
-/

namespace BB

variable {R : Type}

/-- `Matrix<Dense,T,P>` that is no submatrix: orientation (type parameter), dimension base class,
storage base class (DenseMatrix.h:36-45). -/
structure Dense (R : Type) where
  ori : Ori
  dim : Dim
  data : Buf R
  deriving Repr

namespace Dense

def rows (A : Dense R) : Nat := A.dim.rows
def cols (A : Dense R) : Nat := A.dim.cols

/-- Addressing of a dense matrix (DenseMatrix.h:263-281, 724-763). -/
def view (A : Dense R) : View := View.plain A.ori A.dim.rows A.dim.cols

/-- `operator()(i,j)` const, DenseMatrix.h:718-722. -/
def get (A : Dense R) (i j : Nat) : Res R := A.view.get A.data i j

/-- `operator()(i,j) = x`, DenseMatrix.h:712-716. -/
def set (A : Dense R) (i j : Nat) (x : R) : Res (Dense R) := do
  let d ← A.view.set A.data i j x
  return { A with data := d }

/-- Default constructor, DenseMatrix.h:336-339. -/
def empty (o : Ori) : Dense R := ⟨o, Dim.mk' 0 0, []⟩

/-- Parameter constructor with `NoFiller`, DenseMatrix.h:341-349. -/
def new (o : Ori) (r c : Nat) : Dense R := ⟨o, Dim.mk' r c, Buf.alloc (r * c)⟩

/-- A loop that stores `x` through every iterator of `[begin(), end())`: `AllFiller`
(MatrixFiller.h:14-31), `operator=(T)` (DenseMatrix.h:679-687), `Storage::fill`. -/
def fillBuf (b : Buf R) (x : R) : Res (Buf R) :=
  ptrLoop 0 b.length 1 (fun p b => b.write p x) b

/-- `AllFiller(x)(A)` / `A = x`. -/
def fillAll (A : Dense R) (x : R) : Res (Dense R) := do
  let d ← fillBuf A.data x
  return { A with data := d }

/-- `Storage::resize` for owning storage (Storage.h:365-372): nothing happens if the size is the same,
otherwise a new uninitialised array replaces the old one. -/
def resizeBuf (b : Buf R) (n : Nat) : Buf R := if b.length = n then b else Buf.alloc n

/-- `resize(r,c)` with `NoFiller`, DenseMatrix.h:689-697. -/
def resize (A : Dense R) (r c : Nat) : Dense R :=
  { A with dim := Dim.mk' r c, data := resizeBuf A.data (r * c) }

/-- `resize(r,c,AllFiller(x))`, DenseMatrix.h:689-697. -/
def resizeFill (A : Dense R) (r c : Nat) (x : R) : Res (Dense R) := (A.resize r c).fillAll x

/-- `transpose(Matrix<Dense,T,P>)`, Transposition.h:8-32. -/
def transpose (M : Dense R) : Res (Dense R) := do
  let T : Dense R := Dense.new M.ori M.dim.cols M.dim.rows
  let (_, d) ← ptrLoop 0 M.dim.rows 1 (fun i (s : Nat × Buf R) => do
    -- s.1: transColumnCur, s.2: storage of the transposed matrix
    let (_, d) ← ptrLoop (M.view.rowBegin i) (M.view.rowEnd i) M.view.rowStride
      (fun p (t : Nat × Buf R) => do
        let x ← M.data.read p
        let d ← t.2.write t.1 x
        return (t.1 + T.view.colStride, d))
      (T.view.colBegin s.1, s.2)
    return (s.1 + 1, d)) (0, T.data)
  return { T with data := d }

/-- Element-wise converting copy of a storage (`Storage(Storage<T2> const&)`, Storage.h:349-355,
`std::copy` into fresh memory). -/
def convertBuf {S : Type} (cvt : R → S) (b : Buf R) : Res (Buf S) := do
  let (_, d) ← ptrLoop 0 b.length 1 (fun p (s : Nat × Buf S) => do
    let x ← b.read p
    let d ← s.2.write s.1 (cvt x)
    return (s.1 + 1, d)) (0, Buf.alloc b.length)
  return d

/-- Conversion from a dense matrix of the same orientation (DenseMatrix.h:455-465; the value checker is
ignored there) or of the other one (DenseMatrix.h:467-477: the storage is that of `transpose(other)`,
the dimensions are those of `other`). -/
def convert {S : Type} (cvt : R → S) (o : Ori) (A : Dense R) : Res (Dense S) :=
  if A.ori = o then do
    let d ← convertBuf cvt A.data
    return ⟨o, Dim.mk' A.dim.rows A.dim.cols, d⟩
  else do
    let t ← A.transpose
    let d ← convertBuf cvt t.data
    return ⟨o, Dim.mk' A.dim.rows A.dim.cols, d⟩

/-- Constructor from nested initializer lists (DenseMatrix.h:368-389): the dimensions come from the
outer list and the first inner list; every row reads as many values as the first row has. Reading past
the end of a shorter row is UB. An empty outer list dereferences `values.begin()`: UB. -/
def ofLists (o : Ori) (values : List (List R)) : Res (Dense R) :=
  match values with
  | [] => .error .ub
  | first :: _ => do
    let A : Dense R := Dense.new o values.length first.length
    let d ← ptrLoop 0 A.dim.rows 1 (fun i (d : Buf R) => do
      let (_, d) ← ptrLoop (A.view.rowBegin i) (A.view.rowEnd i) A.view.rowStride
        (fun p (t : Nat × Buf R) =>
          match (values[i]?).bind (fun row => row[t.1]?) with
          | none => .error .ub
          | some x => do
            let d ← t.2.write p x
            return (t.1 + 1, d)) (0, d)
      return d) A.data
    return { A with data := d }

/-- `C = A op B` for dense operands (BinaryFunctors.h:141-171): the loop runs over the storage of `A`
from `begin()` to `end()`. `C` is the (arbitrary) object passed as result. -/
def binop (op : R → R → R) (A B C : Dense R) : Res (Dense R) := do
  assertThat (A.dim.rows == B.dim.rows)
  assertThat (A.dim.cols == B.dim.cols)
  let C := C.resize A.dim.rows A.dim.cols
  let (_, _, d) ← ptrLoop 0 A.data.length 1 (fun p (s : Nat × Nat × Buf R) => do
    let a ← A.data.read p
    let b ← B.data.read s.1
    let d ← s.2.2.write s.2.1 (op a b)
    return (s.1 + 1, s.2.1 + 1, d)) (0, 0, C.data)
  return { C with data := d }

/-- `A op= B` for dense operands (BinaryFunctors.h:325-344; no dimension check). -/
def binassign (op : R → R → R) (A B : Dense R) : Res (Dense R) := do
  let (_, d) ← ptrLoop 0 A.data.length 1 (fun p (s : Nat × Buf R) => do
    let a ← s.2.read p
    let b ← B.data.read s.1
    let d ← s.2.write p (op a b)
    return (s.1 + 1, d)) (0, A.data)
  return { A with data := d }

/-- `GeneralDenseMultiplicationFunctor` (Multiplication_Native.h:19-53): raw iteration over the three
storages; loop variables j, k, i; running iterators `iterA`, `iterB`, `iterC`. -/
def mulGeneral [Zero R] [Add R] [Mul R] (A B C : Dense R) : Res (Dense R) := do
  assertThat (A.dim.cols == B.dim.rows)
  let C ← C.resizeFill A.dim.rows B.dim.cols 0
  let (_, d) ← loopN B.dim.cols (fun j (s : Nat × Buf R) => do
    let (_, iterB, d) ← loopN B.dim.rows (fun _k (t : Nat × Nat × Buf R) => do
      -- t = (iterA, iterB, storage of C)
      let (iterA, _, d) ← loopN A.dim.rows (fun _i (u : Nat × Nat × Buf R) => do
        -- u = (iterA, iterC, storage of C)
        let c ← u.2.2.read u.2.1
        let a ← A.data.read u.1
        let b ← B.data.read t.2.1
        let d ← u.2.2.write u.2.1 (c + a * b)
        return (u.1 + 1, u.2.1 + 1, d)) (t.1, j * C.dim.rows, t.2.2)
      return (iterA, t.2.1 + 1, d)) (0, s.1, s.2)
    return (iterB, d)) (0, C.data)
  return { C with data := d }

/-- `GeneralDenseMultiplicationFunctorUsingCursor` (Multiplication_Native.h:55-97) for operands given as
views `va` of array `da` and `vb` of array `db` (so that submatrix operands are covered), `C` a plain
matrix object of any orientation.  No dimension check. -/
def mulCursor [Zero R] [Add R] [Mul R] (va : View) (da : Buf R) (vb : View) (db : Buf R) (C : Dense R) :
    Res (Dense R) := do
  let C := C.resize va.rows vb.cols
  let (_, d) ← ptrLoop 0 va.rows 1 (fun i (s : Nat × Buf R) => do
    -- s = (curRowC, storage of C)
    let (_, d) ← ptrLoop 0 vb.cols 1 (fun j (t : Nat × Buf R) => do
      -- t = (curColumnC, storage of C)
      let d ← t.2.write t.1 0
      let (_, d) ← ptrLoop (va.rowBegin i) (va.rowEnd i) va.rowStride (fun p (u : Nat × Buf R) => do
        -- u = (curRowB, storage of C)
        let c ← u.2.read t.1
        let a ← da.read p
        let b ← db.read u.1
        let d ← u.2.write t.1 (c + a * b)
        return (u.1 + vb.colStride, d)) (vb.colBegin j, d)
      return (t.1 + C.view.rowStride, d)) (C.view.rowBegin s.1, s.2)
    return (s.1 + 1, d)) (0, C.data)
  return { C with data := d }

/-- `ContinuousNumberFiller` for dense matrices (MatrixFiller.h:33-44). -/
def fillContinuous [One R] [Add R] (A : Dense R) : Res (Dense R) := do
  let (_, d) ← ptrLoop 0 A.data.length 1 (fun p (s : R × Buf R) => do
    let d ← s.2.write p s.1
    return (s.1 + 1, d)) (1, A.data)
  return { A with data := d }

/-- `HilbertFiller` (MatrixFiller.h:74-94). -/
def fillHilbert [One R] [Add R] [Sub R] [Div R] (A : Dense R) : Res (Dense R) := do
  let (_, d) ← ptrLoop 0 A.dim.rows 1 (fun i (s : R × Buf R) => do
    let (_, d) ← ptrLoop (A.view.rowBegin i) (A.view.rowEnd i) A.view.rowStride
      (fun p (t : R × Buf R) => do
        let d ← t.2.write p (1 / (s.1 + t.1 - 1))
        return (t.1 + 1, d)) (1, s.2)
    return (s.1 + 1, d)) (1, A.data)
  return { A with data := d }

/-- `DiagonalFiller` (MatrixFiller.h:96-123). -/
def fillDiagonal [Zero R] (A : Dense R) (x : R) : Res (Dense R) :=
  if A.dim.rows ≠ A.dim.cols then .error (.throw "DiagonalFiller: Matrix is not quadratic.")
  else do
    let A ← A.fillAll 0
    loopN A.dim.rows (fun i A => A.set i i x) A

end Dense
end BB
