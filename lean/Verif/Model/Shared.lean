import Verif.Model.Blocked

/-! Blocked matrices as the program sees them: the cells hold shared pointers to blocks
(`DynamicMatrix = std::shared_ptr<MatrixBase>`, DynamicMatrix.h:11), so several cells, and several matrices, can
refer to the same block. -/

namespace BB.Shared

variable {R : Type}

/-- A `Matrix<Dense,DynamicMatrix,P>` object: the grid of pointers (numbers of blocks) and the unblocked
dimensions (Dimension.h:151-177). -/
structure Handle where
  grid : Dense Nat
  ubRows : Nat
  ubCols : Nat

/-- The blocks in memory; a pointer is an index. -/
abbrev Heap (R : Type) := List (Mat R)

/-- The blocked matrix a handle stands for: every pointer replaced by the block it points to. -/
def load (h : Heap R) (V : Handle) : Blocked R :=
  ⟨⟨V.grid.ori, V.grid.dim, V.grid.data.map (fun c => c.bind (fun id => h[id]?))⟩, V.ubRows, V.ubCols⟩

/-- Numbers for the blocks of a new matrix, counting from `off`; empty cells stay null pointers. -/
def number {α : Type} : Nat → List (Option α) → List (Option Nat)
  | _, [] => []
  | off, none :: t => none :: number off t
  | off, some _ :: t => some off :: number (off + 1) t

/-- Blocks just made by `new ResultType` (BinaryFunctors.h:601, MatrixMultExp.h:157) or by the converter
(MatrixConverter.h): every cell gets a pointer of its own. -/
def store (h : Heap R) (B : Blocked R) : Heap R × Handle :=
  (h ++ B.grid.data.filterMap id, ⟨⟨B.grid.ori, B.grid.dim, number h.length B.grid.data⟩, B.ubRows, B.ubCols⟩)

/-- `*ptrA += *ptrB` when both point to the same block: every read sees the updates made before
(BinaryFunctors.h:460-466, 512-535 with `&A == &B`). -/
def addAssignSelf [Add R] : Mat R → Res (Mat R)
  | .one A => do return .one (← SMat.binassign (· + ·) A A)
  | .two A1 A2 => do
    let A1 ← SMat.binassign (· + ·) A1 A1
    let A2 ← SMat.binassign (· + ·) A2 A1
    let A1 ← SMat.binassign (· + ·) A1 A2
    let A2 ← SMat.binassign (· + ·) A2 A2
    return .two A1 A2

/-- `operator += (DynamicMatrix const&, DynamicMatrix const&)` (BinaryFunctors.h:638-655): the block `a` points to is
changed in place. -/
def addAssignPtr [Add R] (h : Heap R) (a b : Nat) : Res (Heap R) :=
  match h[a]?, h[b]? with
  | some A, some B => do
    let M ← if a = b then addAssignSelf A else Mat.addAssign A B
    return h.set a M
  | _, _ => .error .ub

/-- Loop body of `A += B` on the grids (BinaryFunctors.h:339-342, 79-83); `p` runs over the storage of `A`, the
state is the iterator of `B` and the heap. -/
def addAssignStep [Add R] (A B : Handle) (p : Nat) (s : Nat × Heap R) : Res (Nat × Heap R) := do
  let a ← A.grid.data.read p
  let b ← B.grid.data.read s.1
  let h ← addAssignPtr s.2 a b
  return (s.1 + 1, h)

/-- `A += B` for blocked matrices (BinaryFunctors.h:325-344, 460-466). -/
def addAssign [Add R] (h : Heap R) (A B : Handle) : Res (Heap R) := do
  let (_, h) ← ptrLoop 0 A.grid.data.length 1 (addAssignStep A B) (0, h)
  return h

/-- Variables of blocked matrix type and the blocks in memory. -/
structure State (R : Type) where
  heap : Heap R
  vars : Nat → Handle

/-- Statements of a program over blocked matrices. -/
inductive Op (R : Type) where
  /-- `dst = a;` or `auto dst = a;` with the defaulted copy operations (DenseMatrix.h:194, 209; Storage.h:331-340, 365-377). -/
  | copy (dst a : Nat)
  /-- `dst = generator(...)`, or any other expression that makes all its blocks anew. -/
  | fresh (dst : Nat) (B : Blocked R)
  /-- `dst = (a * b).execute<Native>()` (MatrixMultExp.h:64-69, Multiplication_Native.h:107-152). -/
  | mul (dst a b : Nat)
  /-- `a += b` (BinaryFunctors.h:460-466). -/
  | addAssign (a b : Nat)

/-- Execution of a statement.  Assigning a variable stores the new handle; unreachable blocks stay in the heap
(they are freed in the program, which nobody can observe). -/
def step [Zero R] [Add R] [Mul R] [DecidableEq R] (s : State R) : Op R → Res (State R)
  | .copy dst a => .ok ⟨s.heap, Function.update s.vars dst (s.vars a)⟩
  | .fresh dst B => .ok ⟨(store s.heap B).1, Function.update s.vars dst (store s.heap B).2⟩
  | .mul dst a b => do
    let C ← Blocked.mul (load s.heap (s.vars a)) (load s.heap (s.vars b))
    return ⟨(store s.heap C).1, Function.update s.vars dst (store s.heap C).2⟩
  | .addAssign a b => do
    let h ← addAssign s.heap (s.vars a) (s.vars b)
    return ⟨h, s.vars⟩

/-- Execution of a program. -/
def exec [Zero R] [Add R] [Mul R] [DecidableEq R] (s : State R) : List (Op R) → Res (State R)
  | [] => .ok s
  | o :: os => do exec (← step s o) os

/-! ### Moves -/

/-- Move construction (DenseMatrix.h:197-203): dimension and storage are moved, the unblocked dimensions are
default constructed, that is 0 (Dimension.h:151-177).  Copying is not affected.  (The moved-from object is C61.) -/
def moveConstruct (B : Blocked R) : Blocked R := ⟨B.grid, 0, 0⟩

/-- Move assignment (DenseMatrix.h:212-219): all bases are moved. -/
def moveAssign (_old B : Blocked R) : Blocked R := B

end BB.Shared
