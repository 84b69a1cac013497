import Verif.Model.Sparse

/-!
# Fillers applied to sparse matrices

The constructor of `Matrix<Sparse,T,P>` that takes a filler (SparseMatrix.h:165-173) with `NoFiller`, `AllFiller` and
`ContinuousNumberFiller` (include/BlasBooster/Core/MatrixFiller.h).  `HilbertFiller` and `DiagonalFiller` have no overload for sparse
matrices.  Index types are `Nat`.
-/

namespace BB.Sparse

variable {R : Type}

/-- `AllFiller(x)(S)` for a sparse matrix (MatrixFiller.h:19-28): `begin()`/`end()` are those of the value array
(SparseStorage.h:139-142), so only values are written. -/
def fillAll (S : Sparse R) (x : R) : Res (Sparse R) := do
  let v ← Dense.fillBuf S.value x
  return { S with value := v }

/-- `ContinuousNumberFiller()(S)` for a sparse matrix (MatrixFiller.h:46-71): the values 1, 2, 3, … (50-55); then for every offset
but the last one the keys 0 … getNbRows()-1 and the offset (57-69); then the last offset (70).  `endOffset() - 1` of a matrix without
offsets precedes `beginOffset()`: run-away.  The state of the outer loop is (`iterKeyCur`, keys, `offset`, offsets). -/
def fillContinuous [One R] [Add R] (S : Sparse R) : Res (Sparse R) := do
  let (_, v) ← ptrLoop 0 S.value.length 1 (fun p (s : R × Buf R) => do
    let d ← s.2.write p s.1
    return (s.1 + 1, d)) (1, S.value)
  if S.offset.length = 0 then .error .ub
  else
    let (_, ks, off, os) ← ptrLoop 0 (S.offset.length - 1) 1 (fun q (s : Nat × Buf Nat × Nat × Buf Nat) => do
      let (ik, ks) ← loopN S.dim.rows (fun k (t : Nat × Buf Nat) => do
        let ks ← t.2.write t.1 k
        return (t.1 + 1, ks)) (s.1, s.2.1)
      let os ← s.2.2.2.write q s.2.2.1
      return (ik, ks, s.2.2.1 + S.dim.rows, os)) (0, S.key, 0, S.offset)
    let os ← os.write (S.offset.length - 1) off
    return { S with value := v, key := ks, offset := os }

/-- `Matrix<Sparse,T,P>(r, c, nbSig, AllFiller(x))` (SparseMatrix.h:165-173). -/
def newAll (o : Ori) (r c nbSig : Nat) (x : R) : Res (Sparse R) := (new o r c nbSig).fillAll x

/-- `Matrix<Sparse,T,P>(r, c, nbSig, ContinuousNumberFiller())` (SparseMatrix.h:165-173). -/
def newContinuous [One R] [Add R] (o : Ori) (r c nbSig : Nat) : Res (Sparse R) := (new o r c nbSig).fillContinuous

end BB.Sparse

namespace BB.Dense

variable {R : Type}

/-- `resize(r, c, ContinuousNumberFiller())` (DenseMatrix.h:689-697). -/
def resizeContinuous [One R] [Add R] (A : Dense R) (r c : Nat) : Res (Dense R) := (A.resize r c).fillContinuous

/-- `resize(r, c, HilbertFiller())` (DenseMatrix.h:689-697). -/
def resizeHilbert [One R] [Add R] [Sub R] [Div R] (A : Dense R) (r c : Nat) : Res (Dense R) := (A.resize r c).fillHilbert

/-- `resize(r, c, DiagonalFiller(x))` (DenseMatrix.h:689-697): the matrix afterwards and the outcome.  The dimension and the storage are
changed before the filler is called. -/
def resizeDiagonal [Zero R] (A : Dense R) (r c : Nat) (x : R) : Dense R × Res Unit :=
  match (A.resize r c).fillDiagonal x with
  | .ok B => (B, .ok ())
  | .error e => (A.resize r c, .error e)

end BB.Dense
