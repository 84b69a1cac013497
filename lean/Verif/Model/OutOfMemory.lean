import Verif.Model.Storage

/-!
# Storages and matrices when memory runs out

`allocate<T>(n)` (Memory.h:7-13) throws `std::bad_alloc` if there is no memory.  The operations of
`Model/Storage.lean` again, each with a flag that tells whether the allocation it attempts fails, and with
the state that the exception leaves behind.  (An operation attempts one allocation at most.)

Simplifications: as in `Model/Storage.lean`; an archive that `load` reads does not throw itself; value and
index arrays of a sparse matrix have elements of one type.
-/

namespace BB.Own

variable {R : Type}

/-- How an operation ends: normally, with the exception of a failed allocation – and the state it leaves –
or otherwise (undefined behaviour, another exception). -/
inductive Out (R : Type) where
  | done (w : World R)
  | oom (w : World R)
  | fault (f : Fault)

/-- The outcome of an operation that attempts no allocation, or whose allocation succeeds. -/
def Out.ofRes : Res (World R) → Out R
  | .ok w => .done w
  | .error f => .fault f

/-- A constructor whose allocation fails: the object is not constructed.  (Member initialiser lists
Storage.h:313, 321, 331, 350: `data_(allocate<T>(…))` is the first thing they do.) -/
def ctorFail (w : World R) (x : Nat) : Out R :=
  match w.obj x with
  | none => .oom w
  | some _ => .fault .ub

/-- One operation; `fail` tells whether the allocation it attempts fails. -/
def stepF (fail : Bool) (w : World R) (op : Op R) : Out R :=
  if fail then
    match op with
    -- Storage.h:311-316
    | .size x _ => ctorFail w x
    -- Storage.h:318-327
    | .init x _ => ctorFail w x
    -- Storage.h:329-335
    | .copy x y =>
      match w.obj y with
      | some _ => ctorFail w x
      | none => .fault .ub
    -- Storage.h:347-354
    | .conv x y _ =>
      match w.obj y with
      | some _ => ctorFail w x
      | none => .fault .ub
    -- Storage.h:365-371: the old array is freed, then `data_ = allocate<T>(size)` throws; `data_` and
    -- `size_` keep their old values
    | .resize x n =>
      match w.obj x with
      | none => .fault .ub
      | some o =>
        if o.size = n then .done w
        else if ¬ o.own then .fault (.throw "resize storage with not own memory.")
        else
          match w.free o.data with
          | .ok w => .oom w
          | .error f => .fault f
    -- Storage.h:373-388: likewise
    | .assign x y =>
      match w.obj x, w.obj y with
      | some o, some p =>
        if x = y then .done w
        else
          match w.release o with
          | .error f => .fault f
          | .ok w => if p.own then .oom w else .done (w.setObj x ⟨p.data, p.size, false⟩)
      | _, _ => .fault .ub
    -- Storage.h:485-491: `size_` is read before the allocation
    | .load x vs =>
      match w.obj x with
      | none => .fault .ub
      | some o => .oom (w.setObj x { o with size := vs.length })
    | op => Out.ofRes (step w op)
  else Out.ofRes (step w op)

/-- A history of operations; `true` marks those whose allocation fails.  The program catches the exception
of a failed allocation and goes on; anything else ends it. -/
def runF : List (Bool × Op R) → World R → Out R
  | [], w => .done w
  | (f, op) :: ops, w =>
    match stepF f w op with
    | .done w => runF ops w
    | .oom w => runF ops w
    | .fault e => .fault e

/-- The object an operation constructs. -/
def Op.builds : Op R → Option Nat
  | .dflt x => some x
  | .size x _ => some x
  | .init x _ => some x
  | .copy x _ => some x
  | .conv x _ _ => some x
  | _ => none

/-- Destroy the given objects, then propagate the exception. -/
def unwind : List Nat → World R → Out R
  | [], w => .oom w
  | x :: xs, w =>
    match step w (.dtor x) with
    | .ok w => unwind xs w
    | .error f => .fault f

/-- Construct the members and bases of an object one after the other.  `fail k` tells whether the
allocation of the `k`-th of them fails; then those constructed so far (`built`, the last one first) are
destroyed, as C++ prescribes. -/
def build (fail : Nat → Bool) : Nat → List (Op R) → List Nat → World R → Out R
  | _, [], _, w => .done w
  | k, op :: ops, built, w =>
    match stepF (fail k) w op with
    | .done w => build fail (k + 1) ops (op.builds.toList ++ built) w
    | .oom w => unwind built w
    | .fault f => .fault f

/-- Construction of a sparse matrix from its number of columns and stored elements: the arrays of values,
keys and offsets (SparseMatrix.h:165-173, SparseStorage.h:101-105). -/
def sparseCtor (v k o nnz cols : Nat) : List (Op R) := [.size v nnz, .size k nnz, .size o (cols + 1)]

/-- Copy construction of a sparse matrix (SparseMatrix.h:88, SparseStorage.h: implicit copy constructor). -/
def sparseCopy (v k o v' k' o' : Nat) : List (Op R) := [.copy v v', .copy k k', .copy o o']

/-- Dense matrices: a matrix is named like its storage; `dim` are its numbers of rows and columns. -/
structure MWorld (R : Type) where
  st : World R
  dim : Nat → Nat × Nat

/-- Outcome of an operation on a matrix. -/
inductive MOut (R : Type) where
  | done (m : MWorld R)
  | oom (m : MWorld R)
  | fault (f : Fault)

/-- Combine the outcome for the storage with the dimensions. -/
def MOut.of (dim : Nat → Nat × Nat) : Out R → MOut R
  | .done w => .done ⟨w, dim⟩
  | .oom w => .oom ⟨w, dim⟩
  | .fault f => .fault f

/-- The constructor of an `r` by `c` matrix (DenseMatrix.h:341-349, without filler). -/
def MWorld.new (fail : Bool) (m : MWorld R) (x r c : Nat) : MOut R :=
  MOut.of (if fail then m.dim else upd m.dim x (r, c)) (stepF fail m.st (.size x (r * c)))

/-- `x.resize(r, c)` (DenseMatrix.h:689-697, without filler): dimensions first, then storage. -/
def MWorld.resize (fail : Bool) (m : MWorld R) (x r c : Nat) : MOut R :=
  MOut.of (upd m.dim x (r, c)) (stepF fail m.st (.resize x (r * c)))

/-- `x = y` (DenseMatrix.h:211, defaulted: base classes in order of declaration 37-44, the dimensions
before the storage). -/
def MWorld.assign (fail : Bool) (m : MWorld R) (x y : Nat) : MOut R :=
  MOut.of (upd m.dim x (m.dim y)) (stepF fail m.st (.assign x y))

/-- `x = std::move(y)` (DenseMatrix.h:214-221).  The dimensions of `y` are copied. -/
def MWorld.moveAssign (fail : Bool) (m : MWorld R) (x y : Nat) : MOut R :=
  MOut.of (upd m.dim x (m.dim y)) (stepF fail m.st (.moveAssign x y))

/-- `x(i, j) = v` for a column-major matrix (DenseMatrix.h:712-722, 724-731). -/
def MWorld.set (m : MWorld R) (x i j : Nat) (v : R) : Res (World R) := do
  assertThat (i < (m.dim x).1)
  assertThat (j < (m.dim x).2)
  step m.st (.write x (i + j * (m.dim x).1) v)

end BB.Own
