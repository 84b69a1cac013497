import Verif.Model.Storage
import Verif.Model.Dense
import Verif.Model.Alias

/-!
# Programs over dense matrix variables

A small imperative language for client code that works with variables of type `Matrix<Dense,T>` (column-major,
variable size, heap storage): construction, copies, moves, assignment, element access, resizing, sums, products,
in-place operations (also `x += x`), transposition, exchange, and product expressions that are stored in a variable
and evaluated later.  The interpreter works on the heap of `Verif.Model.Storage`, object by object, including the
temporaries.

Simplifications: the inner loops of an operation read their operands' arrays when the operation starts and its result
is stored into the target array cell by cell afterwards (targets never share memory with operands, except for
`x op= x`, which is modelled by the loop on the one array); norm and occupation caches are not part of the state.
-/
namespace BB.Prog

open Own

variable {R : Type}

/-- Heap and storage objects, the dimension members of each object, and the stored product expressions (two
references each, MatrixMultExp.h:47-48). -/
structure State (R : Type) where
  w : World R
  dim : Nat → Dim
  lazy : Nat → Option (Nat × Nat)

def State.init : State R := ⟨World.init, fun _ => Dim.mk' 0 0, fun _ => none⟩

/-- The two temporaries a statement may need, and the object of a program variable. -/
def tmp0 : Nat := 0
def tmp1 : Nat := 1
def var (x : Nat) : Nat := x + 2

/-- A storage operation of object `x` together with the new dimension members. -/
def State.store (s : State R) (op : Op R) (x : Nat) (d : Dim) : Res (State R) := do
  let w ← Own.step s.w op
  return { s with w := w, dim := upd s.dim x d }

/-- A storage operation that leaves the dimension members alone. -/
def State.data (s : State R) (op : Op R) : Res (State R) := do
  let w ← Own.step s.w op
  return { s with w := w }

/-- The matrix object `x` as a value: dimension members and array. -/
def State.deref (s : State R) (x : Nat) : Res (Dense R) := do
  let o ← s.w.get x
  let d ← s.w.cells o
  return ⟨.col, s.dim x, d⟩

/-- Stores the initialised cells of `d` into the array of `x`, one after the other. -/
def writeCells (x : Nat) (d : Buf R) (w : World R) : Res (World R) :=
  loopN d.length (fun i w =>
    match d[i]? with
    | some (some v) => Own.step w (.write x i v)
    | _ => .ok w) w

def State.writeAll (s : State R) (x : Nat) (d : Buf R) : Res (State R) := do
  let w ← writeCells x d s.w
  return { s with w := w }

/-- A computed matrix `C` becomes the contents of the default-constructed object `t`: `C.resize(…)` and the stores of
the inner loops. -/
def State.fillIn (s : State R) (t : Nat) (C : Dense R) : Res (State R) := do
  let s ← s.store (.resize t C.data.length) t C.dim
  s.writeAll t C.data

/-- `x = std::move(y)` (DenseMatrix.h:214-221): dimension members are copied, the storage moves. -/
def State.moveAssign (s : State R) (x y : Nat) : Res (State R) := s.store (.moveAssign x y) x (s.dim y)

inductive Stmt (R : Type) where
  | decl (x : Nat)                      -- Matrix<Dense,T> x;
  | new (x r c : Nat) (v : R)           -- Matrix<Dense,T> x(r, c, AllFiller<T>(v));
  | copyNew (x y : Nat)                 -- Matrix<Dense,T> x(y);
  | moveNew (x y : Nat)                 -- Matrix<Dense,T> x(std::move(y));
  | assign (x y : Nat)                  -- x = y;
  | move (x y : Nat)                    -- x = std::move(y);
  | set (x i j : Nat) (v : R)           -- x(i,j) = v;
  | fill (x : Nat) (v : R)              -- x = v;
  | resize (x r c : Nat) (v : R)        -- x.resize(r, c, AllFiller<T>(v));
  | bin (op : R → R → R) (x y z : Nat)  -- x = y + z; x = y - z;
  | inplace (op : R → R → R) (x y : Nat) -- x += y; x -= y;
  | mul (x y z : Nat)                   -- x = y * z;
  | trans (x y : Nat)                   -- x = transpose(y);
  | swap (x y : Nat)                    -- swap(x, y);
  | lazy (p y z : Nat)                  -- auto p = y * z;
  | eval (x p : Nat)                    -- x = p;
  | destroy (x : Nat)                   -- x goes out of scope

variable [Zero R] [Add R] [Mul R]

/-- `x = y * z` on objects: the expression is converted to a temporary matrix (DenseMatrix.h:663-668), which is
move-assigned from the result `C` of `execute` (MatrixMultExp.h:37-43, Multiplication_Native.h:19-53); then `x` is
move-assigned from the temporary. -/
def State.mul (s : State R) (x y z : Nat) : Res (State R) := do
  let s ← s.store (.dflt tmp0) tmp0 (Dim.mk' 0 0)
  let s ← s.store (.dflt tmp1) tmp1 (Dim.mk' 0 0)
  let A ← s.deref y
  let B ← s.deref z
  let C ← Dense.mulGeneral A B (Dense.empty .col)
  let s ← s.fillIn tmp1 C
  let s ← s.moveAssign tmp0 tmp1
  let s ← s.data (.dtor tmp1)
  let s ← s.moveAssign x tmp0
  s.data (.dtor tmp0)

/-- One statement. -/
def step (s : State R) : Stmt R → Res (State R)
  -- DenseMatrix.h:336-339
  | .decl x => s.store (.dflt (var x)) (var x) (Dim.mk' 0 0)
  -- DenseMatrix.h:341-349, MatrixFiller.h:14-31
  | .new x r c v => do
    let s ← s.store (.size (var x) (r * c)) (var x) (Dim.mk' r c)
    s.data (.fill (var x) v)
  -- DenseMatrix.h:198
  | .copyNew x y => s.store (.copy (var x) (var y)) (var x) (s.dim (var y))
  -- DenseMatrix.h:200-205
  | .moveNew x y => s.store (.move (var x) (var y)) (var x) (s.dim (var y))
  -- DenseMatrix.h:211
  | .assign x y => s.store (.assign (var x) (var y)) (var x) (s.dim (var y))
  | .move x y => s.moveAssign (var x) (var y)
  -- DenseMatrix.h:712-716
  | .set x i j v => do
    assertThat (decide (i < (s.dim (var x)).rows))
    assertThat (decide (j < (s.dim (var x)).cols))
    s.data (.write (var x) ((View.plain .col (s.dim (var x)).rows (s.dim (var x)).cols).pos i j) v)
  -- DenseMatrix.h:679-687
  | .fill x v => s.data (.fill (var x) v)
  -- DenseMatrix.h:689-697
  | .resize x r c v => do
    let s ← s.store (.resize (var x) (r * c)) (var x) (Dim.mk' r c)
    s.data (.fill (var x) v)
  -- BinaryFunctors.h:450-459 (result `C`, default constructed), 141-171; then the move assignment
  | .bin op x y z => do
    let s ← s.store (.dflt tmp0) tmp0 (Dim.mk' 0 0)
    let A ← s.deref (var y)
    let B ← s.deref (var z)
    let C ← Dense.binop op A B (Dense.empty .col)
    let s ← s.fillIn tmp0 C
    let s ← s.moveAssign (var x) tmp0
    s.data (.dtor tmp0)
  -- BinaryFunctors.h:461-467, 325-344
  | .inplace op x y => do
    let A ← s.deref (var x)
    let D ← if x = y then Alias.assignSelf op A else do
      let B ← s.deref (var y)
      Dense.binassign op A B
    s.writeAll (var x) D.data
  | .mul x y z => s.mul (var x) (var y) (var z)
  -- Transposition.h:8-32; the result is returned by value and move-assigned
  | .trans x y => do
    let M ← s.deref (var y)
    let T ← M.transpose
    let s ← s.store (.size tmp0 T.data.length) tmp0 T.dim
    let s ← s.writeAll tmp0 T.data
    let s ← s.moveAssign (var x) tmp0
    s.data (.dtor tmp0)
  -- DenseMatrix.h:287-295: `full_size_` is not exchanged
  | .swap x y => do
    let w ← Own.step s.w (.swap (var x) (var y))
    let dx := s.dim (var x)
    let dy := s.dim (var y)
    let nx : Dim := { dy with fullSize := dx.fullSize }
    let ny : Dim := { dx with fullSize := dy.fullSize }
    return { s with w := w, dim := upd (upd s.dim (var x) nx) (var y) ny }
  -- MatrixMultExp.h:33-35, 191-194
  | .lazy p y z => .ok { s with lazy := upd s.lazy p (some (y, z)) }
  | .eval x p =>
    match s.lazy p with
    | none => .error .ub
    | some (y, z) => s.mul (var x) (var y) (var z)
  | .destroy x => s.data (.dtor (var x))

/-- A program. -/
def run : List (Stmt R) → State R → Res (State R)
  | [], s => .ok s
  | t :: ts, s => do run ts (← step s t)

/-- `x(i,j)`. -/
def read (s : State R) (x i j : Nat) : Res R := do
  let A ← s.deref (var x)
  A.get i j

/-- `x.getNbRows()`, `x.getNbColumns()`. -/
def rows (s : State R) (x : Nat) : Nat := (s.dim (var x)).rows
def cols (s : State R) (x : Nat) : Nat := (s.dim (var x)).cols

end BB.Prog
