import Verif.Model.Base

/-!
# Dimensions, addressing, submatrix views, cursors and striped iterators
-/

namespace BB

/-- Run-time dimension (include/BlasBooster/Core/Dimension.h:42-129): rows, columns and the *cached*
product `full_size_`. -/
structure Dim where
  rows : Nat
  cols : Nat
  fullSize : Nat
  deriving DecidableEq, Repr

/-- Constructor, Dimension.h:48-50. -/
def Dim.mk' (r c : Nat) : Dim := ⟨r, c, r * c⟩

/-- `getMajorDimension`, Dimension.h:92-100. -/
def Dim.major (d : Dim) : Ori → Nat
  | .row => d.cols
  | .col => d.rows

/-- `getMinorDimension`, Dimension.h:102-110. -/
def Dim.minor (d : Dim) : Ori → Nat
  | .row => d.rows
  | .col => d.cols

/-- `operator ==`, Dimension.h:71-74: the cached size is not compared. -/
def Dim.beq (a b : Dim) : Bool := a.rows == b.rows && a.cols == b.cols

/-- What element access and cursors know about a dense matrix or submatrix: orientation, dimensions,
`getLdRows()`/`getLdColumns()` (DenseMatrix.h:263-281) and `getDataPointer()` as the offset `base` in
the array that holds the elements. -/
structure View where
  ori : Ori
  rows : Nat
  cols : Nat
  ldRows : Nat
  ldCols : Nat
  base : Nat
  deriving DecidableEq, Repr

/-- The view of a matrix that is not a submatrix: leading dimensions are the dimensions
(DenseMatrix.h:263-266, 273-276), data starts at offset 0. -/
def View.plain (o : Ori) (r c : Nat) : View := ⟨o, r, c, r, c, 0⟩

/-- `getPosition` without its assertions (DenseMatrix.h:724-763): for matrices that are not
submatrices the code uses the dimensions, which are their leading dimensions.  -/
def View.pos (v : View) (i j : Nat) : Nat :=
  match v.ori with
  | .col => i + j * v.ldRows
  | .row => i * v.ldCols + j

/-- `const T& operator()(row, column)` (DenseMatrix.h:718-722) with the assertions of `getPosition`. -/
def View.get {R : Type} (v : View) (b : Buf R) (i j : Nat) : Res R := do
  assertThat (i < v.rows)
  assertThat (j < v.cols)
  b.read (v.base + v.pos i j)

/-- `operator()(row, column) = x` (DenseMatrix.h:712-716). -/
def View.set {R : Type} (v : View) (b : Buf R) (i j : Nat) (x : R) : Res (Buf R) := do
  assertThat (i < v.rows)
  assertThat (j < v.cols)
  b.write (v.base + v.pos i j) x

/-- Column-major submatrix constructor (DenseMatrix.h:421-436).  The leading dimensions and the offset
are computed from `other.getNbRows()`/`getNbColumns()` – *not* from `other.getLdRows()`. -/
def View.sub (other : View) (nbRows nbCols beginRow beginCol : Nat) : View :=
  { ori := .col, rows := nbRows, cols := nbCols, ldRows := other.rows, ldCols := other.cols,
    base := other.base + beginRow + beginCol * other.rows }

/-! ### Cursors (include/BlasBooster/Core/Cursor.h) -/

/-- `Cursor<M,Row>(M,i).begin()` as an offset (Cursor.h:57-69). -/
def View.rowBegin (v : View) (i : Nat) : Nat :=
  match v.ori with
  | .row => v.base + i * v.ldCols
  | .col => v.base + i

/-- `Cursor<M,Row>(M,i).end()` (Cursor.h:85-97). -/
def View.rowEnd (v : View) (i : Nat) : Nat :=
  match v.ori with
  | .row => v.base + i * v.ldCols + v.cols
  | .col => v.base + i + v.ldRows * v.cols

/-- Step of the inner column cursor `Cursor<RowCursor,Column>` (Cursor.h:116-138, 172-194,
StridedCursorBase.h:21-25, CursorBase.h:28-32). -/
def View.rowStride (v : View) : Nat :=
  match v.ori with
  | .row => 1
  | .col => v.ldRows

/-- `Cursor<M,Column>(M,j).begin()` (Cursor.h:71-83). -/
def View.colBegin (v : View) (j : Nat) : Nat :=
  match v.ori with
  | .row => v.base + j
  | .col => v.base + j * v.ldRows

/-- `Cursor<M,Column>(M,j).end()` (Cursor.h:99-111). -/
def View.colEnd (v : View) (j : Nat) : Nat :=
  match v.ori with
  | .row => v.base + j + v.rows * v.ldCols
  | .col => v.base + j * v.ldRows + v.rows

/-- Step of the inner row cursor `Cursor<ColumnCursor,Row>` (Cursor.h:116-138, 172-194). -/
def View.colStride (v : View) : Nat :=
  match v.ori with
  | .row => v.ldCols
  | .col => 1

/-- The offsets dereferenced by `for (ColumnCursor c(M,rowCur.begin()), e(M,rowCur.end()); c != e; ++c) *c`
for row `i`. -/
def View.rowVisits (v : View) (i : Nat) : Res (List Nat) :=
  ptrLoop (v.rowBegin i) (v.rowEnd i) v.rowStride (fun p acc => .ok (acc ++ [p])) []

/-- The offsets dereferenced by the analogous loop over the rows of column `j`. -/
def View.colVisits (v : View) (j : Nat) : Res (List Nat) :=
  ptrLoop (v.colBegin j) (v.colEnd j) v.colStride (fun p acc => .ok (acc ++ [p])) []

/-! ### Striped iterators (include/BlasBooster/Core/StripedIterator.h) -/

/-- `2^64`: `size_t` arithmetic of the striped iterator wraps. -/
def sizeMod : Nat := 2 ^ 64

/-- Largest `int`. -/
def intMax : Int := 2 ^ 31 - 1

/-- State of a `StripedIterator` (StripedIterator.h:73-85).  The pointer is an offset (an integer,
since `rend()` is one before the first element). -/
structure SIter where
  ptr : Int
  pos : Nat
  block : Int
  contMinus1 : Nat
  sepPlus1 : Nat
  nbBlocks : Nat
  deriving DecidableEq, Repr

/-- Constructor (StripedIterator.h:21-24): `continuousSize-1` and `separatorSize+1` wrap modulo 2^64. -/
def SIter.mk' (ptr : Int) (pos : Nat) (block : Int) (cont sep nb : Nat) : SIter :=
  ⟨ptr, pos, block, (cont + (sizeMod - 1)) % sizeMod, (sep + 1) % sizeMod, nb⟩

/-- `increment` (StripedIterator.h:49-59); `++block_` on an `int` at its maximum is UB; the comparison
with `nbBlocks_` is done after a cast to `size_t`. -/
def SIter.incr (it : SIter) : Res SIter :=
  if it.pos = it.contMinus1 then
    if it.block = intMax then .error .ub
    else
      let b := it.block + 1
      if b % (sizeMod : Int) = it.nbBlocks then .ok { it with ptr := it.ptr + 1, pos := 0, block := b }
      else .ok { it with ptr := it.ptr + it.sepPlus1, pos := 0, block := b }
  else .ok { it with ptr := it.ptr + 1, pos := it.pos + 1 }

/-- `decrement` (StripedIterator.h:61-71). -/
def SIter.decr (it : SIter) : SIter :=
  if it.pos = 0 then
    let b := it.block - 1
    if b = -1 then { it with ptr := it.ptr - 1, pos := it.contMinus1, block := b }
    else { it with ptr := it.ptr - it.sepPlus1, pos := it.contMinus1, block := b }
  else { it with ptr := it.ptr - 1, pos := it.pos - 1 }

/-- Striped proxy storage (Storage.h:503-662): data offset, block length, number of blocks, gap. -/
structure Striped where
  data : Int
  cont : Nat
  nb : Nat
  sep : Nat
  deriving DecidableEq, Repr

/-- `begin()`, Storage.h:588-594. -/
def Striped.begin (s : Striped) : SIter := SIter.mk' s.data 0 0 s.cont s.sep s.nb

/-- Pointer of `end()`, Storage.h:604-610 (`size_ = cont*nb`, 526); `nb - 1` wraps in C++, which as a
two's complement pointer offset is the integer computed here. -/
def Striped.endPtr (s : Striped) : Int :=
  s.data + (s.cont * s.nb : Nat) + ((s.nb : Int) - 1) * s.sep

/-- `rbegin()`, Storage.h:596-602. -/
def Striped.rbegin (s : Striped) : SIter :=
  SIter.mk' (s.endPtr - 1) ((s.cont + (sizeMod - 1)) % sizeMod) ((s.nb : Int) - 1) s.cont s.sep s.nb

/-- Pointer of `rend()`, Storage.h:612-618. -/
def Striped.rendPtr (s : Striped) : Int := s.data - 1

/-- Offsets dereferenced by `for (it = begin; it != end; ++it) *it`; equality of striped iterators
compares the pointers only (StripedIterator.h:44-47).  `fuel` bounds the number of steps, `ub` when
the loop is still running then. -/
def SIter.walk : Nat → SIter → Int → Res (List Int)
  | 0, _, _ => .error .ub
  | fuel + 1, it, stop =>
    if it.ptr = stop then .ok []
    else do
      let it' ← it.incr
      let rest ← SIter.walk fuel it' stop
      return it.ptr :: rest

/-- Same, backwards from `rbegin()` to `rend()` with `--it`. -/
def SIter.walkBack : Nat → SIter → Int → Res (List Int)
  | 0, _, _ => .error .ub
  | fuel + 1, it, stop =>
    if it.ptr = stop then .ok []
    else do
      let rest ← SIter.walkBack fuel it.decr stop
      return it.ptr :: rest

/-- Forward iteration over a striped storage. -/
def Striped.visits (s : Striped) (fuel : Nat) : Res (List Int) := s.begin.walk fuel s.endPtr

/-- Backward iteration over a striped storage. -/
def Striped.rvisits (s : Striped) (fuel : Nat) : Res (List Int) := s.rbegin.walkBack fuel s.rendPtr

/-- The striped storage a column-major submatrix constructor creates (DenseMatrix.h:433-435). -/
def View.subStriped (other : View) (nbRows nbCols beginRow beginCol : Nat) : Striped :=
  ⟨(other.base + beginRow + beginCol * other.rows : Nat), nbRows, nbCols, other.rows - nbRows⟩

end BB
