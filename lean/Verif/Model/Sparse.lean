import Verif.Model.Dense

/-!
# Sparse matrices: construction, conversion, transposition, sums and products

`Matrix<Sparse,T,P>` (include/BlasBooster/Core/SparseMatrix.h) with variable-size storage
(SparseStorage.h:85-176): three heap arrays.  Index types are `Nat`.
-/

namespace BB

variable {R : Type}

/-- `Matrix<Sparse,T,P>`: orientation (type parameter), dimension, and the arrays `value_`, `key_`,
`offset_` (SparseStorage.h:170-174). -/
structure Sparse (R : Type) where
  ori : Ori
  dim : Dim
  value : Buf R
  key : Buf Nat
  offset : Buf Nat
  deriving Repr

/-- The output side of every loop that builds a sparse matrix: the three arrays, the running iterators
`iterValueCur`, `iterKeyCur`, `iterOffsetCur` and the counter `offset` (SparseMatrix.h:190-196,
BinaryFunctors.h:196-203, Multiplication_Native.h:167-171). -/
structure Emit (R : Type) where
  value : Buf R
  key : Buf Nat
  offset : Buf Nat
  iv : Nat := 0
  ik : Nat := 0
  io : Nat := 0
  off : Nat := 0

/-- `*iterValueCur++ = x; *iterKeyCur++ = k; ++offset;` (SparseMatrix.h:215-219,
BinaryFunctors.h:215-230, Multiplication_Native.h:197-201). -/
def Emit.push (E : Emit R) (k : Nat) (x : R) : Res (Emit R) := do
  let v ← E.value.write E.iv x
  let ks ← E.key.write E.ik k
  return { E with value := v, key := ks, iv := E.iv + 1, ik := E.ik + 1, off := E.off + 1 }

/-- `*iterOffsetCur++ = offset;` (SparseMatrix.h:210, 223, BinaryFunctors.h:203, 245,
Multiplication_Native.h:190, 204). -/
def Emit.mark (E : Emit R) : Res (Emit R) := do
  let o ← E.offset.write E.io E.off
  return { E with offset := o, io := E.io + 1 }

/-- `while (cond) body` with a step bound `fuel`; a loop that is still running when the bound is used up
counts as a run-away (`ub`). -/
def whileN {σ : Type} : Nat → (σ → Bool) → (σ → Res σ) → σ → Res σ
  | 0, c, _, s => if c s then .error .ub else .ok s
  | fuel + 1, c, f, s => if c s then (f s).bind (whileN fuel c f) else .ok s

namespace Sparse

/-- `nnz()`, SparseStorage.h:147: the *allocated* number of values. -/
def nnz (S : Sparse R) : Nat := S.value.length

/-- Parameter constructor (SparseMatrix.h:165-173): `nbSig` values (all r*c of them if it is 0) and
`nbColumns + 1` offsets *for both orientations*. -/
def new (o : Ori) (r c nbSig : Nat) : Sparse R :=
  let n := if nbSig = 0 then r * c else nbSig
  ⟨o, Dim.mk' r c, Buf.alloc n, Buf.alloc n, Buf.alloc (c + 1)⟩

/-- Default constructor (SparseMatrix.h:158-160). -/
def empty (o : Ori) : Sparse R := ⟨o, Dim.mk' 0 0, [], [], []⟩

/-- `resize(r, c)` (SparseMatrix.h:262-270). -/
def resize (S : Sparse R) (r c : Nat) : Sparse R :=
  { S with dim := Dim.mk' r c, value := Dense.resizeBuf S.value (r * c),
           key := Dense.resizeBuf S.key (r * c), offset := Dense.resizeBuf S.offset (c + 1) }

/-- The output state at the start of a loop that fills `S`. -/
def emit (S : Sparse R) : Emit R := { value := S.value, key := S.key, offset := S.offset }

/-- `S` with the arrays written by the loop. -/
def filled (S : Sparse R) (E : Emit R) : Sparse R :=
  { S with value := E.value, key := E.key, offset := E.offset }

/-- The loop header shared by all loops over the stored elements of one run `q`:
`for (k = beginKey()+offset[q], v = begin()+offset[q]; k != beginKey()+offset[q+1]; ++k, ++v)`
(e.g. DenseMatrix.h:606-611).  The body gets the key and the value. -/
def forRun {σ : Type} (S : Sparse R) (q : Nat) (body : Nat → R → σ → Res σ) (s : σ) : Res σ := do
  let b ← S.offset.read q
  let e ← S.offset.read (q + 1)
  let (_, s) ← ptrLoop b e 1 (fun p (t : Nat × σ) => do
    let k ← S.key.read p
    let x ← S.value.read t.1
    let s ← body k x t.2
    return (t.1 + 1, s)) (b, s)
  return s

/-- The loop header over all runs: `for (iterOffset = beginOffset(); iterOffset != endOffset() - 1; …)`
(e.g. DenseMatrix.h:602-604).  A sparse matrix without any offset (default constructed) makes
`endOffset() - 1` precede `beginOffset()`: run-away. -/
def forRuns {σ : Type} (S : Sparse R) (body : Nat → σ → Res σ) (s : σ) : Res σ :=
  if S.offset.length = 0 then .error .ub else ptrLoop 0 (S.offset.length - 1) 1 body s

/-- Sparse → Dense (DenseMatrix.h:591-615 same orientation, 617-641 different orientation).  The loop
state is (`iterDense`, storage).  `cvt` converts the element type. -/
def toDense {T : Type} [Zero T] (cvt : R → T) (o : Ori) (S : Sparse R) : Res (Dense T) := do
  let dim := Dim.mk' S.dim.rows S.dim.cols
  let d0 ← Dense.fillBuf (Buf.alloc S.dim.fullSize) (0 : T)
  let (_, d) ← S.forRuns (fun q (s : Nat × Buf T) => do
    let d ← S.forRun q (fun k x d =>
      if S.ori = o then d.write (s.1 + k) (cvt x)
      else d.write (s.1 + k * dim.major o) (cvt x)) s.2
    return (if S.ori = o then s.1 + dim.major o else s.1 + 1, d)) (0, d0)
  return ⟨o, dim, d⟩

/-- `CountDesiredElementsFunctor` (Occupation.h:9-25) over a contiguous storage. -/
def countBuf (chk : R → Bool) (b : Buf R) : Res Nat :=
  ptrLoop 0 b.length 1 (fun p n => do
    let x ← b.read p
    return if chk x then n + 1 else n) 0

/-- Dense → Sparse (SparseMatrix.h:183-224).  The source is the view `v` of array `b`; `cnt` is what
`other.getNbOfSignificantElements(valueChecker)` returned (a fresh count, or a cached one, see
`Verif.Model.Cache`).  The outer cursor runs over columns if the orientations are equal and over rows
otherwise, up to `getMinorDimension()` of the *target*. -/
def ofView {T : Type} (chk : R → Bool) (cvt : R → T) (o : Ori) (v : View) (b : Buf R) (cnt : Nat) :
    Res (Sparse T) := do
  let dim := Dim.mk' v.rows v.cols
  let S : Sparse T := ⟨o, dim, Buf.alloc cnt, Buf.alloc cnt, Buf.alloc (dim.minor o + 1)⟩
  let inner := fun p (t : Nat × Emit T) => do
    let x ← b.read p
    let E ← if chk x then t.2.push t.1 (cvt x) else pure t.2
    return (t.1 + 1, E)
  let E ← ptrLoop 0 (dim.minor o) 1 (fun q (E : Emit T) => do
    let E ← E.mark
    let (_, E) ←
      if v.ori = o then ptrLoop (v.colBegin q) (v.colEnd q) v.colStride inner (0, E)
      else ptrLoop (v.rowBegin q) (v.rowEnd q) v.rowStride inner (0, E)
    return E) S.emit
  let E ← E.mark
  return S.filled E

/-- Dense → Sparse for a plain dense matrix whose number of significant elements is counted freshly. -/
def ofDense {T : Type} (chk : R → Bool) (cvt : R → T) (o : Ori) (A : Dense R) : Res (Sparse T) := do
  let cnt ← countBuf chk A.data
  ofView chk cvt o A.view A.data cnt

/-- `transpose(Matrix<Sparse,T,P>)` (Transposition.h:34-87): counting sort. -/
def transpose (M : Sparse R) : Res (Sparse R) := do
  let T : Sparse R := Sparse.new M.ori M.dim.cols M.dim.rows M.nnz
  let off ← Dense.fillBuf T.offset 0
  -- count number of elements in minor dimension
  let off ← M.forRuns (fun q off => do
    let b ← M.offset.read q
    let e ← M.offset.read (q + 1)
    ptrLoop b e 1 (fun p (off : Buf Nat) => do
      let k ← M.key.read p
      let n ← off.read (k + 1)
      off.write (k + 1) (n + 1)) off) off
  -- accumulate
  let off ← ptrLoop 2 off.length 1 (fun p (off : Buf Nat) => do
    let a ← off.read p
    let b ← off.read (p - 1)
    off.write p (a + b)) off
  -- insert
  let cur0 : Buf Nat := List.replicate (off.length - 1) (some 0)
  let (_, _, vs, ks) ← M.forRuns (fun q (s : Nat × Buf Nat × Buf R × Buf Nat) => do
    let s' ← M.forRun q (fun k x (t : Buf Nat × Buf R × Buf Nat) => do
      let o ← off.read k
      let c ← t.1.read k
      let vs ← t.2.1.write (o + c) x
      let ks ← t.2.2.write (o + c) s.1
      let cur ← t.1.write k (c + 1)
      return (cur, vs, ks)) s.2
    return (s.1 + 1, s')) (0, cur0, T.value, T.key)
  return { T with value := vs, key := ks, offset := off }

/-- Conversion between sparse matrices (SparseMatrix.h:176-181): the three arrays are converted; they
are those of the transposed matrix if the orientations differ.  The value checker is ignored. -/
def convert {T : Type} (cvt : R → T) (o : Ori) (S : Sparse R) : Res (Sparse T) := do
  let U ← if S.ori = o then pure S else S.transpose
  let vs ← Dense.convertBuf cvt U.value
  let ks ← Dense.convertBuf id U.key
  let os ← Dense.convertBuf id U.offset
  return ⟨o, Dim.mk' S.dim.rows S.dim.cols, vs, ks, os⟩

/-- State of the three merge loops of Sparse ± Sparse: `pa`, `pb` are the running positions in the
arrays of `A` and `B` (value and key iterators advance together). -/
structure MergeSt (R : Type) where
  pa : Nat
  pb : Nat
  E : Emit R

/-- Sparse ± Sparse (BinaryFunctors.h:173-248).  `op` is `BinaryOperation`, `un` is `UnaryOperation`
(identity for +, negation for -).  The merge loops are bounded by the lengths of the key arrays. -/
def binop (op : R → R → R) (un : R → R) (A B C : Sparse R) : Res (Sparse R) := do
  assertThat (A.dim.rows == B.dim.rows)
  assertThat (A.dim.cols == B.dim.cols)
  let C := C.resize A.dim.rows A.dim.cols
  let E ← C.emit.mark
  let E ← A.forRuns (fun q (E : Emit R) => do
    let pa ← A.offset.read q
    let pb ← B.offset.read q
    let ea ← A.offset.read (q + 1)
    let eb ← B.offset.read (q + 1)
    let fuel := A.key.length + B.key.length
    let s ← whileN fuel (fun s => s.pa != ea && s.pb != eb) (fun (s : MergeSt R) => do
      let ka ← A.key.read s.pa
      let kb ← B.key.read s.pb
      if ka < kb then do
        let x ← A.value.read s.pa
        let E ← s.E.push ka x
        return { s with pa := s.pa + 1, E := E }
      else if kb < ka then do
        let y ← B.value.read s.pb
        let E ← s.E.push kb (un y)
        return { s with pb := s.pb + 1, E := E }
      else do
        let x ← A.value.read s.pa
        let y ← B.value.read s.pb
        let E ← s.E.push ka (op x y)
        return { pa := s.pa + 1, pb := s.pb + 1, E := E }) ⟨pa, pb, E⟩
    let s ← whileN fuel (fun s => s.pa != ea) (fun (s : MergeSt R) => do
      let ka ← A.key.read s.pa
      let x ← A.value.read s.pa
      let E ← s.E.push ka x
      return { s with pa := s.pa + 1, E := E }) s
    let s ← whileN fuel (fun s => s.pb != eb) (fun (s : MergeSt R) => do
      let kb ← B.key.read s.pb
      let y ← B.value.read s.pb
      let E ← s.E.push kb (un y)
      return { s with pb := s.pb + 1, E := E }) s
    s.E.mark) E
  return C.filled E

/-- Dense ± Sparse (BinaryFunctors.h:250-282): `C = A`, then every stored element of `B` is added at
`iterC + key` where `iterC` advances by `C.getNbRows()` per run.  (Both of equal element type, so that
`C = A` is a plain copy.) -/
def binopDS (op : R → R → R) (A : Dense R) (B : Sparse R) : Res (Dense R) := do
  assertThat (A.dim.rows == B.dim.rows)
  assertThat (A.dim.cols == B.dim.cols)
  let (_, d) ← B.forRuns (fun q (s : Nat × Buf R) => do
    let d ← B.forRun q (fun k x (d : Buf R) => do
      let y ← d.read (s.1 + k)
      d.write (s.1 + k) (op y x)) s.2
    return (s.1 + A.dim.rows, d)) (0, A.data)
  return { A with data := d }

/-- Sparse ± Dense (BinaryFunctors.h:284-293): forwarded with *swapped* operands. -/
def binopSD (op : R → R → R) (A : Sparse R) (B : Dense R) : Res (Dense R) := binopDS op B A

/-- Dense op= Sparse (BinaryFunctors.h:356-377), through `A(key, col)`. -/
def binassignDS (op : R → R → R) (A : Dense R) (B : Sparse R) : Res (Dense R) := do
  assertThat (A.dim.rows == B.dim.rows)
  assertThat (A.dim.cols == B.dim.cols)
  let (_, A) ← B.forRuns (fun q (s : Nat × Dense R) => do
    let A ← B.forRun q (fun k x (A : Dense R) => do
      let y ← A.get k s.1
      A.set k s.1 (op y x)) s.2
    return (s.1 + 1, A)) (0, A)
  return A

/-- Sparse op= Sparse (BinaryFunctors.h:346-354). -/
def binassignSS (_A _B : Sparse R) : Res (Sparse R) := .error (.throw "4 not yet implemented.")

/-- Sparse op= Dense (BinaryFunctors.h:379-387). -/
def binassignSD (_A : Sparse R) (_B : Dense R) : Res (Sparse R) := .error (.throw "5 not yet implemented.")

/-- Sparse * Sparse (Multiplication_Native.h:154-205): scratch column `scr`, elements that are exactly
zero are not stored. -/
def mulSS [Zero R] [Add R] [Mul R] [DecidableEq R] (A B C : Sparse R) : Res (Sparse R) := do
  assertThat (A.dim.cols == B.dim.rows)
  let C := C.resize A.dim.rows B.dim.cols
  let E ← B.forRuns (fun q (E : Emit R) => do
    let scr : Buf R := List.replicate A.dim.rows (some 0)
    let scr ← B.forRun q (fun kb y (scr : Buf R) =>
      A.forRun kb (fun ka x (scr : Buf R) => do
        let s ← scr.read ka
        scr.write ka (s + x * y)) scr) scr
    let E ← E.mark
    let (_, E) ← ptrLoop 0 scr.length 1 (fun p (t : Nat × Emit R) => do
      let x ← scr.read p
      let E ← if x ≠ 0 then t.2.push t.1 x else pure t.2
      return (t.1 + 1, E)) (0, E)
    return E) C.emit
  let E ← E.mark
  return C.filled E

/-- Sparse * Dense (Multiplication_Native.h:207-239). -/
def mulSD [Zero R] [Add R] [Mul R] (A : Sparse R) (B C : Dense R) : Res (Dense R) := do
  assertThat (A.dim.cols == B.dim.rows)
  let C ← C.resizeFill A.dim.rows B.dim.cols 0
  let d ← loopN A.dim.cols (fun colA (d : Buf R) =>
    A.forRun colA (fun k x (d : Buf R) => do
      let (_, _, d) ← loopN B.dim.cols (fun _ (s : Nat × Nat × Buf R) => do
        -- s = (iter_B, iter_C, storage of C)
        let c ← s.2.2.read s.2.1
        let b ← B.data.read s.1
        let d ← s.2.2.write s.2.1 (c + x * b)
        return (s.1 + B.dim.rows, s.2.1 + C.dim.rows, d)) (colA, k, d)
      return d) d) C.data
  return { C with data := d }

/-- Dense * Sparse (Multiplication_Native.h:241-280): column cursors of `A` and `C`. -/
def mulDS [Zero R] [Add R] [Mul R] (A : Dense R) (B : Sparse R) (C : Dense R) : Res (Dense R) := do
  assertThat (A.dim.cols == B.dim.rows)
  let C ← C.resizeFill A.dim.rows B.dim.cols 0
  let (_, d) ← B.forRuns (fun q (s : Nat × Buf R) => do
    -- s = (col, storage of C)
    let d ← B.forRun q (fun k y (d : Buf R) => do
      let (_, d) ← ptrLoop (A.view.colBegin k) (A.view.colEnd k) A.view.colStride
        (fun p (t : Nat × Buf R) => do
          let c ← t.2.read t.1
          let a ← A.data.read p
          let d ← t.2.write t.1 (c + a * y)
          return (t.1 + C.view.colStride, d)) (C.view.colBegin s.1, d)
      return d) s.2
    return (s.1 + 1, d)) (0, C.data)
  return { C with data := d }

end Sparse
end BB
