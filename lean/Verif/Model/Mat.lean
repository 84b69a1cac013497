import Verif.Model.Sparse

/-!
# Zero matrices, two-part matrices and the operators on all matrix kinds

`Matrix<Zero,NullType,P>` (include/BlasBooster/Core/ZeroMatrix.h), `MultipleMatrix<T1,T2>`
(MultipleMatrix.h) and the operator overloads of BinaryFunctors.h, MatrixMultExp.h and
Multiplication_Native.h.  The C++ overload resolution on the static types becomes a match on the kind.
Element types (`float`, `double`) are not distinguished: `R` stands for both and arithmetic is that of
`R`.  Matrices that occur as operands here are column-major (the default parameter of `Matrix`).
-/

namespace BB

variable {R : Type}

/-- A dense, sparse or zero matrix.  A zero matrix consists of its dimension only
(ZeroMatrix.h:11-18). -/
inductive SMat (R : Type) where
  | dense (A : Dense R)
  | sparse (A : Sparse R)
  | zero (d : Dim)
  deriving Repr

/-- A matrix of one of the kinds of `DynamicMatrixTypeList` (DynamicMatrixTypeList.h:27-35). -/
inductive Mat (R : Type) where
  | one (A : SMat R)
  | two (X1 X2 : SMat R)
  deriving Repr

namespace SMat

/-- `getNbRows()`. -/
def rows : SMat R → Nat
  | .dense A => A.dim.rows
  | .sparse A => A.dim.rows
  | .zero d => d.rows

/-- `getNbColumns()`. -/
def cols : SMat R → Nat
  | .dense A => A.dim.cols
  | .sparse A => A.dim.cols
  | .zero d => d.cols

/-- `getSize()` (Dimension.h:75-77). -/
def size : SMat R → Nat
  | .dense A => A.dim.fullSize
  | .sparse A => A.dim.fullSize
  | .zero d => d.fullSize

/-- `Matrix<Zero>::resize` (ZeroMatrix.h:97-104) does not update the size. -/
def zeroResize (d : Dim) (r c : Nat) : Dim := { d with rows := r, cols := c }

/-- `operator +` and `operator -` of two matrices (BinaryFunctors.h:457-484 with the functors
142-323).  The result object is default constructed; `C = A` copies. -/
def binop (op : R → R → R) (un : R → R) : SMat R → SMat R → Res (SMat R)
  | .dense A, .dense B => do return .dense (← Dense.binop op A B (Dense.empty .col))
  | .sparse A, .sparse B => do return .sparse (← Sparse.binop op un A B (Sparse.empty .col))
  | .dense A, .sparse B => do return .dense (← Sparse.binopDS op A B)
  | .sparse A, .dense B => do return .dense (← Sparse.binopSD op A B)
  -- BinaryFunctors.h:294-302
  | .dense A, .zero _ => .ok (.dense A)
  | .sparse A, .zero _ => .ok (.sparse A)
  -- BinaryFunctors.h:304-312
  | .zero _, .dense B => .ok (.dense B)
  | .zero _, .sparse B => .ok (.sparse B)
  -- BinaryFunctors.h:314-322
  | .zero d, .zero _ => .ok (.zero d)

/-- `operator +=` and `operator -=` of two matrices (BinaryFunctors.h:464-470, 482-488 with the functors
324-418); returns the new value of the left operand. -/
def binassign (op : R → R → R) : SMat R → SMat R → Res (SMat R)
  | .dense A, .dense B => do return .dense (← Dense.binassign op A B)
  | .dense A, .sparse B => do return .dense (← Sparse.binassignDS op A B)
  | .sparse A, .sparse B => do return .sparse (← Sparse.binassignSS A B)
  | .sparse A, .dense B => do return .sparse (← Sparse.binassignSD A B)
  -- BinaryFunctors.h:388-397
  | .dense A, .zero d => do
    assertThat (A.dim.rows == d.rows); assertThat (A.dim.cols == d.cols); return .dense A
  | .sparse A, .zero d => do
    assertThat (A.dim.rows == d.rows); assertThat (A.dim.cols == d.cols); return .sparse A
  -- BinaryFunctors.h:399-407
  | .zero _, .dense _ => .error (.throw "ZeroMatrix can't call binary assignment operator.")
  | .zero _, .sparse _ => .error (.throw "ZeroMatrix can't call binary assignment operator.")
  -- BinaryFunctors.h:409-418
  | .zero d, .zero e => do
    assertThat (d.rows == e.rows); assertThat (d.cols == e.cols); return .zero d

/-- The dimension of a product with a zero matrix (Multiplication_Native.h:281-318): default constructed
and resized. -/
def mulZero (r k k' c : Nat) : Res (SMat R) := do
  assertThat (k == k')
  return .zero (zeroResize (Dim.mk' 0 0) r c)

/-- `A * B` with the native interface (MatrixMultExp.h:28-52, Multiplication_Native.h). -/
def mul [Zero R] [Add R] [Mul R] [DecidableEq R] : SMat R → SMat R → Res (SMat R)
  | .dense A, .dense B => do return .dense (← Dense.mulGeneral A B (Dense.empty .col))
  | .sparse A, .sparse B => do return .sparse (← Sparse.mulSS A B (Sparse.empty .col))
  | .sparse A, .dense B => do return .dense (← Sparse.mulSD A B (Dense.empty .col))
  | .dense A, .sparse B => do return .dense (← Sparse.mulDS A B (Dense.empty .col))
  | .dense A, .zero d => mulZero A.dim.rows A.dim.cols d.rows d.cols
  | .sparse A, .zero d => mulZero A.dim.rows A.dim.cols d.rows d.cols
  | .zero d, .dense B => mulZero d.rows d.cols B.dim.rows B.dim.cols
  | .zero d, .sparse B => mulZero d.rows d.cols B.dim.rows B.dim.cols
  | .zero d, .zero e => mulZero d.rows d.cols e.rows e.cols

end SMat

namespace Mat

/-- The `MultipleMatrix` constructor (MultipleMatrix.h:28-38) for two non-null parts. -/
def mkTwo (X1 X2 : SMat R) : Res (Mat R) := do
  assertThat (X1.rows == X2.rows)
  assertThat (X1.cols == X2.cols)
  return .two X1 X2

/-- `getNbRows()` (MultipleMatrix.h:63): of the first part. -/
def rows : Mat R → Nat
  | .one A => A.rows
  | .two X _ => X.rows

/-- `getNbColumns()` (MultipleMatrix.h:64). -/
def cols : Mat R → Nat
  | .one A => A.cols
  | .two X _ => X.cols

/-- `operator +` on all kinds (BinaryFunctors.h:490-514). -/
def add (add : R → R → R) : Mat R → Mat R → Res (SMat R)
  | .one A, .one B => SMat.binop add id A B
  | .one A, .two B1 B2 => do SMat.binop add id (← SMat.binop add id A B1) B2
  | .two A1 A2, .one B => do SMat.binop add id (← SMat.binop add id A1 A2) B
  | .two A1 A2, .two B1 B2 => do
    SMat.binop add id (← SMat.binop add id (← SMat.binop add id A1 A2) B1) B2

/-- `operator -` on all kinds (BinaryFunctors.h:541-565).  Mind the last case: the second part of `B` is
*added*. -/
def sub [Add R] [Sub R] [Neg R] : Mat R → Mat R → Res (SMat R)
  | .one A, .one B => SMat.binop (· - ·) (- ·) A B
  | .one A, .two B1 B2 => do SMat.binop (· - ·) (- ·) (← SMat.binop (· - ·) (- ·) A B1) B2
  | .two A1 A2, .one B => do SMat.binop (· - ·) (- ·) (← SMat.binop (· + ·) id A1 A2) B
  | .two A1 A2, .two B1 B2 => do
    SMat.binop (· + ·) id (← SMat.binop (· - ·) (- ·) (← SMat.binop (· + ·) id A1 A2) B1) B2

/-- `operator +=` on all kinds (BinaryFunctors.h:516-539). -/
def addAssign [Add R] : Mat R → Mat R → Res (Mat R)
  | .one A, .one B => do return .one (← SMat.binassign (· + ·) A B)
  | .one A, .two B1 B2 => do
    return .one (← SMat.binassign (· + ·) A (← SMat.binop (· + ·) id B1 B2))
  | .two A1 A2, .one B => do
    let A1 ← SMat.binassign (· + ·) A1 B
    let A2 ← SMat.binassign (· + ·) A2 B
    return .two A1 A2
  | .two A1 A2, .two B1 B2 => do
    let A1 ← SMat.binassign (· + ·) A1 B1
    let A2 ← SMat.binassign (· + ·) A2 B1
    let A1 ← SMat.binassign (· + ·) A1 B2
    let A2 ← SMat.binassign (· + ·) A2 B2
    return .two A1 A2

/-- `operator -=` on all kinds (BinaryFunctors.h:567-590). -/
def subAssign [Sub R] : Mat R → Mat R → Res (Mat R)
  | .one A, .one B => do return .one (← SMat.binassign (· - ·) A B)
  | .one A, .two B1 B2 => do
    return .one (← SMat.binassign (· - ·) (← SMat.binassign (· - ·) A B1) B2)
  | .two A1 A2, .one B => do
    let A1 ← SMat.binassign (· - ·) A1 B
    let A2 ← SMat.binassign (· - ·) A2 B
    return .two A1 A2
  | .two A1 A2, .two B1 B2 => do
    let A1 ← SMat.binassign (· - ·) A1 B1
    let A2 ← SMat.binassign (· - ·) A2 B1
    let A1 ← SMat.binassign (· - ·) A1 B2
    let A2 ← SMat.binassign (· - ·) A2 B2
    return .two A1 A2

/-- `(A * B).execute<Native>()` on all kinds (MatrixMultExp.h:28-148). -/
def mul [Zero R] [Add R] [Mul R] [DecidableEq R] : Mat R → Mat R → Res (SMat R)
  | .one A, .one B => SMat.mul A B
  | .one A, .two B1 B2 => do
    SMat.binop (· + ·) id (← SMat.mul A B1) (← SMat.mul A B2)
  | .two A1 A2, .one B => do
    SMat.binop (· + ·) id (← SMat.mul A1 B) (← SMat.mul A2 B)
  | .two A1 A2, .two B1 B2 => do
    SMat.binop (· + ·) id
      (← SMat.binop (· + ·) id
        (← SMat.binop (· + ·) id (← SMat.mul A1 B1) (← SMat.mul A1 B2))
        (← SMat.mul A2 B1))
      (← SMat.mul A2 B2)

/-- Conversion to a dense matrix: Dense (copy), Sparse (DenseMatrix.h:591-641), Zero
(DenseMatrix.h:643-650), Multiple (DenseMatrix.h:652-659: `*this = m1; *this += m2`). -/
def denseOf [Zero R] : SMat R → Res (Dense R)
  | .dense A => A.convert id .col
  | .sparse S => S.toDense id .col
  | .zero d => (Dense.new .col d.rows d.cols).fillAll 0

/-- See `denseOf`. -/
def toDense [Zero R] [Add R] : Mat R → Res (Dense R)
  | .one A => denseOf A
  | .two X1 X2 => do
    let D ← denseOf X1
    match ← SMat.binassign (· + ·) (.dense D) X2 with
    | .dense D => return D
    | _ => .error .ub

end Mat

/-! ### The life of a two-part matrix object -/

/-- How `BLASBOOSTER_CORE_FAILURE` is compiled (CoreException.h:12-16): with assertions (`debug`), with
`BLASBOOSTER_CORE_FAILURE_TO_EXCEPTION` (`exception`), or with `NDEBUG` and without exceptions
(`release`). -/
inductive Build where | debug | exception | release
  deriving DecidableEq, Repr

/-- A `MultipleMatrix` object: two shared pointers (MultipleMatrix.h:105-106). -/
structure Multi (R : Type) where
  p1 : Option (SMat R)
  p2 : Option (SMat R)

namespace Multi

/-- `BLASBOOSTER_CORE_FAILURE("wrong dimension")`. -/
def failure : Build → Res Unit
  | .debug => .error .assertFail
  | .exception => .error (.throw "wrong dimension")
  | .release => .ok ()

/-- The dimension check of the constructor (MultipleMatrix.h:31-35) and of `reset`
(MultipleMatrix.h:52-56). -/
def check (b : Build) (m : Multi R) : Res Unit :=
  match m.p1, m.p2 with
  | some X1, some X2 => do
    if X1.rows ≠ X2.rows then failure b
    if X1.cols ≠ X2.cols then failure b
  | _, _ => .ok ()

/-- The constructor (MultipleMatrix.h:26-36); if it fails there is no object. -/
def new (b : Build) (p1 p2 : Option (SMat R)) : Res (Multi R) := do
  check b ⟨p1, p2⟩
  return ⟨p1, p2⟩

/-- What a user can do with an existing object: `reset(p1, p2)`; change a part through the reference
returned by `getMatrix1()` / `getMatrix2()` (MultipleMatrix.h:63-64). -/
inductive Op (R : Type) where
  | reset (p1 p2 : Option (SMat R))
  | edit1 (f : SMat R → SMat R)
  | edit2 (f : SMat R → SMat R)

/-- One operation: the new object and the failure, if any.  `reset` assigns before it checks
(MultipleMatrix.h:49-56). -/
def step (b : Build) (m : Multi R) : Op R → Multi R × Option Fault
  | .reset p1 p2 =>
    (⟨p1, p2⟩, match check b ⟨p1, p2⟩ with | .ok _ => none | .error e => some e)
  | .edit1 f => (⟨m.p1.map f, m.p2⟩, none)
  | .edit2 f => (⟨m.p1, m.p2.map f⟩, none)

/-- A program run: it ends when an assertion fails (abort); exceptions are caught and the run goes on. -/
def run (b : Build) (m : Multi R) : List (Op R) → Option (Multi R)
  | [] => some m
  | o :: os =>
    match step b m o with
    | (m, some .assertFail) => let _ := m; none
    | (m, _) => run b m os

/-- `getNbRows()` (MultipleMatrix.h:59) dereferences the first pointer. -/
def rows (m : Multi R) : Res Nat :=
  match m.p1 with
  | some X => .ok X.rows
  | none => .error .ub

end Multi
end BB
