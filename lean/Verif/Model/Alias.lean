import Verif.Model.Converter
import Verif.Model.Blocked

/-! In-place operations whose operands share one array: `A += A`, `sub1 += sub2` with two submatrices of the same
matrix, and `copy(sub2, sub1)`.  Unlike `Dense.binassign` and `copyInto`, which take two arrays, there is one
array here, and every read sees the writes made before it. -/

namespace BB.Alias

variable {R : Type}

/-- Writing through a pointer given as a possibly negative offset. -/
def writeI (b : Buf R) (p : Int) (x : R) : Res (Buf R) := if p < 0 then .error .ub else b.write p.toNat x

/-- Body of the loop of BinaryFunctors.h:339-342: `*curIterA op= *curIterB`, then `++curIterB`
(`++curIterA` is done by the loop).  State: `curIterB` and the common array. -/
def assignStep (op : R → R → R) (cur : Int) (s : SIter × Buf R) : Res (SIter × Buf R) := do
  let a ← s.2.readI cur
  let b ← s.2.readI s.1.ptr
  let d ← writeI s.2 cur (op a b)
  let it ← s.1.incr
  return (it, d)

/-- `A op= B` for two submatrices whose storages are the stripes `sa` and `sb` of one array
(BinaryFunctors.h:325-344, Storage.h:588-610).  `fuel` bounds the number of steps, `ub` beyond. -/
def assignStriped (op : R → R → R) (sa sb : Striped) (fuel : Nat) (d : Buf R) : Res (Buf R) := do
  let (_, d) ← sa.begin.loop fuel sa.endPtr (assignStep op) (sb.begin, d)
  return d

/-- `sub1 op= sub2` for two `nr` x `nc` submatrices of the same column-major matrix `A`, with origins `(r1,c1)` and
`(r2,c2)` (DenseMatrix.h:421-436, BinaryFunctors.h:325-344); the result is the matrix `A` afterwards. -/
def assignSub (op : R → R → R) (A : Dense R) (nr nc r1 c1 r2 c2 : Nat) : Res (Dense R) := do
  let d ← assignStriped op (A.view.subStriped nr nc r1 c1) (A.view.subStriped nr nc r2 c2) (A.data.length + 1) A.data
  return { A with data := d }

/-- `A op= A` for a plain matrix (BinaryFunctors.h:325-344): both iterators run over the same array. -/
def assignSelf (op : R → R → R) (A : Dense R) : Res (Dense R) := do
  let (_, d) ← ptrLoop 0 A.data.length 1 (fun p (s : Nat × Buf R) => do
    let a ← s.2.read p
    let b ← s.2.read s.1
    let d ← s.2.write p (op a b)
    return (s.1 + 1, d)) (0, A.data)
  return { A with data := d }

/-- Inner loop body of `copy` (Copy.h:23-26): `*destColumnCur = *sourceColumnCur`, both in one array. -/
def copyStep (stride : Nat) (p : Nat) (t : Nat × Buf R) : Res (Nat × Buf R) := do
  let x ← t.2.read p
  let d ← t.2.write t.1 x
  return (t.1 + stride, d)

/-- `copy(source, dest)` (Copy.h:10-29) for two submatrices `src`, `dst` of one array. -/
def copyViews (src dst : View) (d : Buf R) : Res (Buf R) :=
  ptrLoop 0 src.rows 1 (fun i (d : Buf R) => do
    let (_, d) ← ptrLoop (src.rowBegin i) (src.rowEnd i) src.rowStride (copyStep dst.rowStride) (dst.rowBegin i, d)
    return d) d

/-- `copy(sub2, sub1)` for two `nr` x `nc` submatrices of the same column-major matrix `A`: `sub1` with origin
`(r1,c1)` is the destination. -/
def copySub (A : Dense R) (nr nc r1 c1 r2 c2 : Nat) : Res (Dense R) := do
  let d ← copyViews (A.view.sub nr nc r2 c2) (A.view.sub nr nc r1 c1) A.data
  return { A with data := d }

end BB.Alias
