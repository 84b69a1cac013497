import Verif.Model.Dyn

/-!
# Queries in programs over dynamic matrices

`getNbRows`, `getNbColumns`, `getSize`, `getNorm`, `isNormLargerThan` of a `DynamicMatrix` (DynamicMatrixFunctions.h:10-116).  A
dense or sparse matrix remembers its norm when it is first asked for (NormPolicy.h:20-46).  All matrices of a program are
fresh objects: the results of `+`, `-` and products are moved into a default constructed object (BinaryFunctors.h:598-599,
621-622, MatrixMultExp.h:159-160), and the move assignment leaves the remembered norm of its target alone
(DenseMatrix.h:214-221, SparseMatrix.h:98-105), which is none.  `+=` and `-=` do not touch it either.

Occupation queries of a `DynamicMatrix` are not modelled: `isOccupationLargerThan` calls the member function with one argument
too few, and both do not compile for zero and two-part matrices, whose member functions take a number.
-/

namespace BB.Dyn

variable {R V : Type}

/-- The state of a program and the remembered norms of the matrices in memory. -/
structure QState (R V : Type) where
  st : State R
  norms : List (Option V)

inductive QStmt (R V : Type) where
  | stmt (o : Stmt R)
  | rows (x : Nat)                  -- getNbRows(x)
  | cols (x : Nat)                  -- getNbColumns(x)
  | size (x : Nat)                  -- getSize(x)
  | norm (x : Nat)                  -- getNorm(x)
  | normLarger (x : Nat) (v : V)    -- isNormLargerThan(x, v)

/-- What the program is told. -/
inductive Ans (V : Type) where
  | nothing
  | nat (n : Nat)
  | num (v : V)
  | bool (b : Bool)

/-- `getSize()` of a matrix: the stored size (Dimension.h:66), that of the first part (MultipleMatrix.h:65). -/
def sizeOf : Mat R → Nat
  | .one (.dense A) => A.dim.fullSize
  | .one (.sparse A) => A.dim.fullSize
  | .one (.zero d) => d.fullSize
  | .two X _ => match X with
    | .dense A => A.dim.fullSize
    | .sparse A => A.dim.fullSize
    | .zero d => d.fullSize

/-- Dense and sparse matrices remember their norm; zero matrices (ZeroMatrix.h:107-125) and two-part matrices
(MultipleMatrix.h:87-99) do not. -/
def remembers : Mat R → Bool
  | .one (.dense _) => true
  | .one (.sparse _) => true
  | _ => false

/-- `getNorm()` (NormPolicy.h:20-24, 40-46); `nrm` computes the norm. -/
def QState.getNorm (nrm : Mat R → Res V) (s : QState R V) (x : Nat) : Res (QState R V × V) := do
  let (l, M) ← s.st.deref x
  match s.norms[l]?.join with
  | some v => return (s, v)
  | none =>
    let v ← nrm M
    if remembers M then return ({ s with norms := s.norms.set l (some v) }, v)
    else return (s, v)

variable [Zero R] [Add R] [Mul R] [Sub R] [Neg R] [DecidableEq R] [LT V] [DecidableLT V]

/-- One statement or query. -/
def qstep (nrm : Mat R → Res V) (s : QState R V) : QStmt R V → Res (QState R V × Ans V)
  | .stmt o => do
    let t ← step s.st o
    return (⟨t, s.norms ++ List.replicate (t.heap.length - s.norms.length) none⟩, .nothing)
  | .rows x => do
    let (_, M) ← s.st.deref x
    return (s, .nat M.rows)
  | .cols x => do
    let (_, M) ← s.st.deref x
    return (s, .nat M.cols)
  | .size x => do
    let (_, M) ← s.st.deref x
    return (s, .nat (sizeOf M))
  | .norm x => do
    let (s, v) ← s.getNorm nrm x
    return (s, .num v)
  -- NormPolicy.h:26-30
  | .normLarger x w => do
    let (s, v) ← s.getNorm nrm x
    return (s, .bool (w < v))

/-- A program, with its answers. -/
def qexec (nrm : Mat R → Res V) (s : QState R V) : List (QStmt R V) → Res (QState R V × List (Ans V))
  | [] => .ok (s, [])
  | o :: os => do
    let (s, a) ← qstep nrm s o
    let (s, as) ← qexec nrm s os
    return (s, a :: as)

end BB.Dyn
