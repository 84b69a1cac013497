import Verif.Model.Dense

/-!
# Dense and sparse matrices with machine integers

The other models compute sizes and positions with natural numbers.  Here the constructor, `resize` and
element access of `Matrix<Dense,T,P>` and the sizes of `Matrix<Sparse,T,P>` are modelled with the integer
types of the code: dimensions and positions are `size_t`, arguments have type `P::IndexType`.

Simplifications: `size_t` has 64 bits and `int` 32; `P::IndexType` is one of the two; memory is a bound
`cap` on the number of elements that `allocate` can deliver (Memory.h:7-13), beyond it throws.
-/

namespace BB.Machine

variable {R : Type}

/-- `P::IndexType` (Parameter.h:18-27): `size_t` by default. -/
inductive Ix where
  | size
  | int
  deriving DecidableEq, Repr

/-- Values of the index type. -/
def Ix.Val : Ix → Int → Prop
  | .size, z => 0 ≤ z ∧ z < 2 ^ 64
  | .int, z => -(2 ^ 31) ≤ z ∧ z ≤ 2 ^ 31 - 1

/-- The result of an arithmetic operation in the index type, given its exact value: `size_t` wraps,
overflow of `int` is undefined. -/
def Ix.wrap : Ix → Int → Res Int
  | .size, z => .ok (z % 2 ^ 64)
  | .int, z => if -(2 ^ 31) ≤ z ∧ z ≤ 2 ^ 31 - 1 then .ok z else .error .ub

/-- Conversion of a value of the index type to `size_t`. -/
def toSize (z : Int) : Nat := (z % 2 ^ 64).toNat

/-- `allocate<T>(n)` (Memory.h:7-13). -/
def allocate (cap n : Nat) : Res (Buf R) := if n ≤ cap then .ok (Buf.alloc n) else .error (.throw "bad_alloc")

/-- A dense matrix: dimensions (`size_t`, Dimension.h:114-116) and elements. -/
structure MDense (R : Type) where
  ori : Ori
  rows : Nat
  cols : Nat
  full : Nat
  data : Buf R
  deriving Repr

/-- The constructor `Matrix(nbRows, nbColumns)` (DenseMatrix.h:341-349): the size of the storage is computed
in the index type, `full_size_` in `size_t` (Dimension.h:48-50). -/
def MDense.new (ix : Ix) (cap : Nat) (o : Ori) (r c : Int) : Res (MDense R) := do
  let n ← ix.wrap (r * c)
  let d ← allocate cap (toSize n)
  return ⟨o, toSize r, toSize c, (toSize r * toSize c) % 2 ^ 64, d⟩

/-- `resize(nbRows, nbColumns)` (DenseMatrix.h:689-697, Dimension.h:81-86, Storage.h:365-371). -/
def MDense.resize (ix : Ix) (cap : Nat) (M : MDense R) (r c : Int) : Res (MDense R) := do
  let n ← ix.wrap (r * c)
  let d ← if M.data.length = toSize n then pure M.data else allocate cap (toSize n)
  return ⟨M.ori, toSize r, toSize c, (toSize r * toSize c) % 2 ^ 64, d⟩

/-- `getPosition` (DenseMatrix.h:724-763, not a submatrix): `size_t` arithmetic, as `getNbRows()` is a
`size_t`. -/
def MDense.position (M : MDense R) (i j : Int) : Res Nat := do
  assertThat (toSize i < M.rows)
  assertThat (toSize j < M.cols)
  match M.ori with
  | .col => return (toSize i + toSize j * M.rows) % 2 ^ 64
  | .row => return (toSize i * M.cols + toSize j) % 2 ^ 64

/-- `operator()(i, j)` (DenseMatrix.h:718-722). -/
def MDense.get (M : MDense R) (i j : Int) : Res R := do
  let p ← M.position i j
  M.data.read p

/-- `operator()(i, j) = x` (DenseMatrix.h:712-716). -/
def MDense.set (M : MDense R) (i j : Int) (x : R) : Res (MDense R) := do
  let p ← M.position i j
  let d ← M.data.write p x
  return { M with data := d }

/-- `A = x` (DenseMatrix.h:679-687). -/
def MDense.fill (M : MDense R) (x : R) : Res (MDense R) := do
  let d ← Dense.fillBuf M.data x
  return { M with data := d }

/-- Calls on one matrix. -/
inductive Call (R : Type) where
  | resize (r c : Int)
  | set (i j : Int) (x : R)
  | get (i j : Int)
  | fill (x : R)

/-- A history of calls, with the values of the `get` calls. -/
def MDense.run (ix : Ix) (cap : Nat) : List (Call R) → MDense R → Res (MDense R × List R)
  | [], M => .ok (M, [])
  | .resize r c :: cs, M => do
    let M ← M.resize ix cap r c
    M.run ix cap cs
  | .set i j x :: cs, M => do
    let M ← M.set i j x
    M.run ix cap cs
  | .get i j :: cs, M => do
    let x ← M.get i j
    let (M, xs) ← M.run ix cap cs
    return (M, x :: xs)
  | .fill x :: cs, M => do
    let M ← M.fill x
    M.run ix cap cs

/-- `getPosition` of a column-major submatrix (DenseMatrix.h:733-741): `getLdRows()` has the index type
(DenseMatrix.h:278-281), so the whole computation is done in it.  `ld` is the number of rows of the parent
converted to the index type. -/
def subPosition (ix : Ix) (rows cols : Nat) (ld : Int) (i j : Int) : Res Nat := do
  assertThat (toSize i < rows)
  assertThat (toSize j < cols)
  let p ← ix.wrap (j * ld)
  let q ← ix.wrap (i + p)
  return toSize q

/-- Numbers of stored elements and offsets that the constructor of a sparse matrix allocates
(SparseMatrix.h:165-173): the product is computed only if `nnz` is 0. -/
def sparseSizes (ix : Ix) (r c nnz : Int) : Res (Nat × Nat) := do
  let n ← if nnz ≠ 0 then pure nnz else ix.wrap (r * c)
  let m ← ix.wrap (c + 1)
  return (toSize n, toSize m)

/-- The same for `resize` of a sparse matrix (SparseMatrix.h:262-270): `full_size_ = nbRows * nbColumns` is
computed in any case. -/
def sparseResizeSizes (ix : Ix) (r c nnz : Int) : Res (Nat × Nat) := do
  let full ← ix.wrap (r * c)
  let n := if nnz ≠ 0 then nnz else full
  let m ← ix.wrap (c + 1)
  return (toSize n, toSize m)

end BB.Machine
