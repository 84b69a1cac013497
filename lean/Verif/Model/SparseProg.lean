import Verif.Model.Storage
import Verif.Model.Sparse
import Verif.SpecSparseProg

/-!
# Programs over sparse matrix variables: execution

Variables of type `Matrix<Sparse,T>` (column-major, variable size).  Each owns three storages (SparseStorage.h:170-174): values,
keys and offsets.  The interpreter works on the heaps of `Verif.Model.Storage` — one for arrays of values, one for arrays of
indices —, object by object, including the temporaries.

Simplifications: as in `Verif.Model.Prog` the inner loops of an operation read their operands' arrays when the operation starts,
and its result is stored into the target arrays, which are new, afterwards; norm and occupation caches are not part of the state;
the dense matrix a sparse one is constructed from is a literal.
-/
namespace BB.SProg

open Own

variable {R : Type}

/-- The two heaps with their storages and the dimension members of each matrix object. -/
structure State (R : Type) where
  wv : World R
  wi : World Nat
  dim : Nat → Dim

def State.init : State R := ⟨World.init, World.init, fun _ => Dim.mk' 0 0⟩

/-- Matrix objects: two temporaries and the program variables. -/
def tmp0 : Nat := 0
def tmp1 : Nat := 1
def var (x : Nat) : Nat := x + 2

/-- The storages `key_` and `offset_` of matrix object `o` (SparseStorage.h:172-173); `value_` has the name of the object. -/
def keyOf (o : Nat) : Nat := 2 * o
def offOf (o : Nat) : Nat := 2 * o + 1

/-- One operation on each of the three storages, in the order of their declaration. -/
def State.all (s : State R) (v : Op R) (k o : Op Nat) : Res (State R) := do
  let wv ← Own.step s.wv v
  let wi ← Own.step s.wi k
  let wi ← Own.step wi o
  return { s with wv := wv, wi := wi }

/-- New dimension members of object `x`. -/
def State.setDim (s : State R) (x : Nat) (d : Dim) : State R := { s with dim := upd s.dim x d }

/-- `SparseStorage(n, m)` (SparseStorage.h:99-104). -/
def State.mk3 (s : State R) (x n m : Nat) : Res (State R) := s.all (.size x n) (.size (keyOf x) n) (.size (offOf x) m)

/-- `resize(n, m)` (SparseStorage.h:114-118). -/
def State.resize3 (s : State R) (x n m : Nat) : Res (State R) := s.all (.resize x n) (.resize (keyOf x) n) (.resize (offOf x) m)

/-- Implicit copy constructor. -/
def State.copy3 (s : State R) (x y : Nat) : Res (State R) := s.all (.copy x y) (.copy (keyOf x) (keyOf y)) (.copy (offOf x) (offOf y))

/-- Implicit move constructor. -/
def State.move3 (s : State R) (x y : Nat) : Res (State R) := s.all (.move x y) (.move (keyOf x) (keyOf y)) (.move (offOf x) (offOf y))

/-- Implicit copy assignment. -/
def State.assign3 (s : State R) (x y : Nat) : Res (State R) :=
  s.all (.assign x y) (.assign (keyOf x) (keyOf y)) (.assign (offOf x) (offOf y))

/-- Implicit move assignment. -/
def State.moveAssign3 (s : State R) (x y : Nat) : Res (State R) :=
  s.all (.moveAssign x y) (.moveAssign (keyOf x) (keyOf y)) (.moveAssign (offOf x) (offOf y))

/-- Implicit destructor. -/
def State.dtor3 (s : State R) (x : Nat) : Res (State R) := s.all (.dtor x) (.dtor (keyOf x)) (.dtor (offOf x))

/-- `x = std::move(y)` (SparseMatrix.h:98-105): the dimension members are copied, the storages move. -/
def State.moveAssign (s : State R) (x y : Nat) : Res (State R) := do
  let t ← s.moveAssign3 x y
  return t.setDim x (s.dim y)

/-- The matrix object `x` as a value: dimension members and arrays. -/
def State.deref (s : State R) (x : Nat) : Res (Sparse R) := do
  let v ← s.wv.cells (← s.wv.get x)
  let k ← s.wi.cells (← s.wi.get (keyOf x))
  let o ← s.wi.cells (← s.wi.get (offOf x))
  return ⟨.col, s.dim x, v, k, o⟩

/-- Stores the initialised cells of `d` into the array of `x`, one after the other. -/
def writeCells {A : Type} (x : Nat) (d : Buf A) (w : World A) : Res (World A) :=
  loopN d.length (fun i w =>
    match d[i]? with
    | some (some v) => Own.step w (.write x i v)
    | _ => .ok w) w

/-- The stores of the inner loops: `C` becomes the contents of the arrays of object `t`, which are new. -/
def State.writeAll (s : State R) (t : Nat) (C : Sparse R) : Res (State R) := do
  let wv ← writeCells t C.value s.wv
  let wi ← writeCells (keyOf t) C.key s.wi
  let wi ← writeCells (offOf t) C.offset wi
  return { s with wv := wv, wi := wi }

/-- A computed matrix `C` becomes the contents of the default-constructed object `t`: `C.resize(…)` (SparseMatrix.h:262-270) and
the stores of the inner loops. -/
def State.fillIn (s : State R) (t : Nat) (C : Sparse R) : Res (State R) := do
  let s ← s.resize3 t C.value.length C.offset.length
  (s.setDim t C.dim).writeAll t C

/-- A new object `t` whose constructor allocates and fills the arrays of `C`. -/
def State.construct (s : State R) (t : Nat) (C : Sparse R) : Res (State R) := do
  let s ← s.mk3 t C.value.length C.offset.length
  (s.setDim t C.dim).writeAll t C

/-- Default constructor (SparseMatrix.h:158-160). -/
def State.decl (s : State R) (x : Nat) : Res (State R) := do
  let s ← s.mk3 x 0 0
  return s.setDim x (Dim.mk' 0 0)

variable [Zero R] [Add R] [Mul R] [DecidableEq R]

/-- One statement. -/
def step (s : State R) : Stmt R → Res (State R)
  | .decl x => s.decl (var x)
  -- SparseMatrix.h:183-224
  | .new x r c f chk => do
    let C ← Sparse.ofDense chk id .col ⟨.col, Dim.mk' r c, (List.range (r * c)).map fun t => some (f (t % r) (t / r))⟩
    s.construct (var x) C
  -- SparseMatrix.h:262-270
  | .resize x r c n => do
    let s := s.setDim (var x) (Dim.mk' r c)
    s.resize3 (var x) (if n = 0 then r * c else n) (c + 1)
  -- SparseMatrix.h:81
  | .copyNew x y => do
    let t ← s.copy3 (var x) (var y)
    return t.setDim (var x) (s.dim (var y))
  -- SparseMatrix.h:84-89
  | .moveNew x y => do
    let t ← s.move3 (var x) (var y)
    return t.setDim (var x) (s.dim (var y))
  -- SparseMatrix.h:95
  | .assign x y => do
    let t ← s.assign3 (var x) (var y)
    return t.setDim (var x) (s.dim (var y))
  | .move x y => s.moveAssign (var x) (var y)
  -- BinaryFunctors.h:450-459, 468-477 (result `C`, default constructed), 173-248; then the move assignment
  | .bin op un x y z => do
    let s ← s.decl tmp0
    let A ← s.deref (var y)
    let B ← s.deref (var z)
    let C ← Sparse.binop op un A B (Sparse.empty .col)
    let s ← s.fillIn tmp0 C
    let s ← s.moveAssign (var x) tmp0
    s.dtor3 tmp0
  -- SparseMatrix.h:253-258: the expression is converted to a temporary matrix, which is move-assigned from the result of
  -- `execute` (MatrixMultExp.h:37-43, Multiplication_Native.h:154-205); then the move assignment
  | .mul x y z => do
    let s ← s.decl tmp0
    let s ← s.decl tmp1
    let A ← s.deref (var y)
    let B ← s.deref (var z)
    let C ← Sparse.mulSS A B (Sparse.empty .col)
    let s ← s.fillIn tmp1 C
    let s ← s.moveAssign tmp0 tmp1
    let s ← s.dtor3 tmp1
    let s ← s.moveAssign (var x) tmp0
    s.dtor3 tmp0
  -- Transposition.h:34-92; the result is returned by value and move-assigned
  | .trans x y => do
    let M ← s.deref (var y)
    let T ← M.transpose
    let s ← s.construct tmp0 T
    let s ← s.moveAssign (var x) tmp0
    s.dtor3 tmp0
  -- SparseMatrix.h:126-133: `full_size_` is not exchanged
  | .swap x y => do
    let t ← s.all (.swap (var x) (var y)) (.swap (keyOf (var x)) (keyOf (var y))) (.swap (offOf (var x)) (offOf (var y)))
    let dx := s.dim (var x)
    let dy := s.dim (var y)
    return (t.setDim (var x) { dy with fullSize := dx.fullSize }).setDim (var y) { dx with fullSize := dy.fullSize }
  | .destroy x => s.dtor3 (var x)

/-- A program. -/
def run : List (Stmt R) → State R → Res (State R)
  | [], s => .ok s
  | t :: ts, s => do run ts (← step s t)

/-- `x.getNbRows()`, `x.getNbColumns()`, `x.getSize()` (Dimension.h:64-66). -/
def rows (s : State R) (x : Nat) : Nat := (s.dim (var x)).rows
def cols (s : State R) (x : Nat) : Nat := (s.dim (var x)).cols
def size (s : State R) (x : Nat) : Nat := (s.dim (var x)).fullSize

/-- Client code that looks for an element: a loop over the stored elements of column `j` with the iterators of the matrix
(SparseStorage.h:133-148). -/
def entry (s : State R) (x i j : Nat) : Res (Option R) := do
  let S ← s.deref (var x)
  S.forRun j (fun k v acc => .ok (if k = i then some v else acc)) none

/-- `Matrix<Dense,T>(x)` (DenseMatrix.h:591-615). -/
def toDense (s : State R) (x : Nat) : Res (Dense R) := do
  let S ← s.deref (var x)
  S.toDense id .col

end BB.SProg
