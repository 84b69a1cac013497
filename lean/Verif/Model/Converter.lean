import Verif.Model.Checker

/-!
# Conversion of a dense matrix or submatrix to the representation chosen by thresholds

include/BlasBooster/Core/MatrixConverter.h, Threshold.h, DynamicMatrixTypeList.h,
include/BlasBooster/Utilities/exec_if.h.
-/

namespace BB

variable {R : Type}

/-- `for (it = begin; it != end; ++it) { body(*it) }` over a striped storage (StripedIterator.h; as in
`SIter.walk`).  `fuel` bounds the number of steps: `ub` if the loop is still running then. -/
def SIter.loop {σ : Type} : Nat → SIter → Int → (Int → σ → Res σ) → σ → Res σ
  | 0, _, _, _, _ => .error .ub
  | fuel + 1, it, stop, f, s =>
    if it.ptr = stop then .ok s
    else do
      let s ← f it.ptr s
      let it ← it.incr
      SIter.loop fuel it stop f s

/-- Dereferencing a pointer given as a possibly negative offset. -/
def Buf.readI (b : Buf R) (p : Int) : Res R := if p < 0 then .error .ub else b.read p.toNat

/-- The argument of the converter: a dense matrix, or the submatrix of a (plain) dense matrix that
`BlockedMatrixGenerator` constructs (BlockedMatrixGenerator.h:42, DenseMatrix.h:421-436). -/
inductive Src (R : Type) where
  | plain (A : Dense R)
  | sub (A : Dense R) (nbRows nbCols beginRow beginCol : Nat)

namespace Src

/-- Addressing. -/
def view : Src R → View
  | .plain A => A.view
  | .sub A nr nc r0 c0 => A.view.sub nr nc r0 c0

/-- The array that holds the elements. -/
def data : Src R → Buf R
  | .plain A => A.data
  | .sub A _ _ _ _ => A.data

/-- `getNbRows()`, `getNbColumns()`. -/
def rows (s : Src R) : Nat := s.view.rows
def cols (s : Src R) : Nat := s.view.cols

/-- `getSize()` (Dimension.h:75-77): the dimension of a submatrix is constructed from its rows and
columns. -/
def size : Src R → Nat
  | .plain A => A.dim.fullSize
  | .sub _ nr nc _ _ => (Dim.mk' nr nc).fullSize

/-- `for (it = A.begin(); it != A.end(); ++it) body(*it)`: contiguous or striped storage. -/
def forEach {σ : Type} (s : Src R) (body : R → σ → Res σ) (x : σ) : Res σ :=
  match s with
  | .plain A => ptrLoop 0 A.data.length 1 (fun p x => do body (← A.data.read p) x) x
  | .sub A nr nc r0 c0 =>
    let st := A.view.subStriped nr nc r0 c0
    SIter.loop ((st.endPtr - st.data).toNat + 1) st.begin st.endPtr
      (fun p x => do body (← A.data.readI p) x) x

/-- `CountDesiredElementsFunctor` (Occupation.h:9-25), without the cache: the converter's sources are
freshly constructed submatrices. -/
def count [LT R] [DecidableLT R] [LE R] [DecidableLE R] [HasAbs R] (chk : Checker R) (s : Src R) : Res Nat :=
  s.forEach (fun x n => .ok (if chk.accepts x then n + 1 else n)) 0

/-- `getOccupation` (OccupationPolicy.h:33-38). -/
def occupation [LT R] [DecidableLT R] [LE R] [DecidableLE R] [HasAbs R] [NatCast R] [Div R]
    (chk : Checker R) (s : Src R) : Res (Option R) := do
  return occupationOf (← s.count chk) s.size

/-- `Matrix<Dense,T2>(matrix, valueChecker)`, column-major target: from a plain matrix the checker is
ignored (DenseMatrix.h:455-477), from a submatrix the rejected elements become 0 (DenseMatrix.h:479-497).
`cvt` is the conversion of the element type. -/
def toDense {T : Type} [LT R] [DecidableLT R] [LE R] [DecidableLE R] [HasAbs R] [Zero R]
    (chk : Checker R) (cvt : R → T) (s : Src R) : Res (Dense T) :=
  match s with
  | .plain A => A.convert cvt .col
  | .sub _ nr nc _ _ => do
    let dim := Dim.mk' nr nc
    let (_, d) ← s.forEach (fun x (t : Nat × Buf T) => do
      let d ← t.2.write t.1 (cvt (if chk.accepts x then x else 0))
      return (t.1 + 1, d)) (0, Buf.alloc dim.fullSize)
    return ⟨.col, dim, d⟩

/-- `Matrix<Sparse,T2>(matrix, valueChecker)`, column-major target (SparseMatrix.h:183-224). -/
def toSparse {T : Type} [LT R] [DecidableLT R] [LE R] [DecidableLE R] [HasAbs R]
    (chk : Checker R) (cvt : R → T) (s : Src R) : Res (Sparse T) := do
  let n ← s.count chk
  Sparse.ofView chk.accepts cvt .col s.view s.data n

end Src

/-- The types of `DynamicMatrixTypeList` (DynamicMatrixTypeList.h:27-35). -/
inductive Kind where
  | zero | sparseF | denseF | sparseD | multSS | multSD | denseD
  deriving DecidableEq, Repr

/-- `DynamicMatrixTypeList`, in order. -/
def typeList : List Kind := [.zero, .sparseF, .denseF, .sparseD, .multSS, .multSD, .denseD]

/-- The two element types occurring as template argument of the thresholds. -/
inductive Prec where | single | double
  deriving DecidableEq, Repr

/-- `ThresholdSettings` (Threshold.h:16-36), the numeric thresholds. -/
structure Settings (R : Type) where
  sigSingle : R
  sigDouble : R
  zeroSingle : R
  zeroDouble : R
  sparseFSingle : R
  sparseFDouble : R
  denseFSingle : R
  denseFDouble : R
  sparseDSingle : R
  sparseDDouble : R
  multSSSingle : R
  multSSDouble : R
  multSDSingle : R
  multSDDouble : R
  denseDSingle : R
  denseDDouble : R

namespace Settings

/-- The defaults of Threshold.h:16-36; `epsF`, `epsD` are `numeric_limits<float/double>::epsilon()`. -/
def default [Field R] (epsF epsD : R) : Settings R where
  sigSingle := epsF
  sigDouble := epsD
  zeroSingle := 0
  zeroDouble := 0
  sparseFSingle := 0
  sparseFDouble := 1 / 5
  denseFSingle := 0
  denseFDouble := 1
  sparseDSingle := 1 / 5
  sparseDDouble := 1 / 5
  multSSSingle := 1 / 5
  multSSDouble := 2 / 5
  multSDSingle := 1 / 5
  multSDDouble := 1
  denseDSingle := 1
  denseDDouble := 1

/-- `getSignificanceThreshold<T>()` (Threshold.h:86-96). -/
def sig (t : Settings R) : Prec → R
  | .single => t.sigSingle
  | .double => t.sigDouble

/-- `getOccupationThreshold<M,T>()` (Threshold.h:98-181).  For `Matrix<Zero>` both precisions return the
*double* setting (Threshold.h:170-181). -/
def occ (t : Settings R) : Kind → Prec → R
  | .sparseF, .single => t.sparseFSingle
  | .sparseF, .double => t.sparseFDouble
  | .multSS, .single => t.multSSSingle
  | .multSS, .double => t.multSSDouble
  | .multSD, .single => t.multSDSingle
  | .multSD, .double => t.multSDDouble
  | .sparseD, .single => t.sparseDSingle
  | .sparseD, .double => t.sparseDDouble
  | .denseF, .single => t.denseFSingle
  | .denseF, .double => t.denseFDouble
  | .denseD, .single => t.denseDSingle
  | .denseD, .double => t.denseDDouble
  | .zero, .single => t.zeroDouble
  | .zero, .double => t.zeroDouble

end Settings

/-- `BLASBOOSTER_CORE_FAILURE(msg)` (CoreException.h:12-16). -/
def coreFailure (b : Build) (msg : String) : Res Unit :=
  match b with
  | .debug => .error .assertFail
  | .exception => .error (.throw msg)
  | .release => .ok ()

/-- `exec_if<TypeList<...>>(p, e)` (exec_if.h:7-37).  The last type is executed even if its predicate is
false when the failure macro is compiled to nothing. -/
def execIf {K α : Type} (b : Build) (p : K → Res Bool) (e : K → Res α) : List K → Res α
  | [] => .error .ub
  | [k] => do
    if !(← p k) then coreFailure b "type not found"
    e k
  | k :: k' :: ks => do
    if ← p k then e k
    else execIf b p e (k' :: ks)

/-- `IsConvertible<MatrixType>` (MatrixConverter.h:13-25): `and` is short-circuit. -/
def isConvertible [LT R] [DecidableLT R] [LE R] [DecidableLE R] [HasAbs R] [Zero R] [NatCast R] [Div R]
    (t : Settings R) (s : Src R) (k : Kind) : Res Bool := do
  let o ← s.occupation (← Checker.mkAbove (t.sig .double))
  if leNaN o (t.occ k .double) then
    let o ← s.occupation (← Checker.mkAbove (t.sig .single))
    return leNaN o (t.occ k .single)
  else return false

/-- `ConversionFunctor` (MatrixConverter.h:58-114).  `rnd` is the conversion `double → float`. -/
def convertTo [LT R] [DecidableLT R] [LE R] [DecidableLE R] [HasAbs R] [Zero R]
    (rnd : R → R) (t : Settings R) (s : Src R) : Kind → Res (Mat R)
  | .zero => .ok (.one (.zero (Dim.mk' s.rows s.cols)))
  | .denseF => do return .one (.dense (← s.toDense (.above 0) rnd))
  | .denseD => do return .one (.dense (← s.toDense (.above 0) id))
  | .sparseD => do
    let c ← Checker.mkAbove (t.sig .single)
    return .one (.sparse (← s.toSparse c id))
  | .sparseF => do
    let c ← Checker.mkExIn (t.sig .double) (t.sig .single)
    return .one (.sparse (← s.toSparse c rnd))
  | .multSS => do
    let c1 ← Checker.mkAbove (t.sig .single)
    let X1 ← s.toSparse c1 id
    let c2 ← Checker.mkExIn (t.sig .double) (t.sig .single)
    let X2 ← s.toSparse c2 rnd
    Mat.mkTwo (.sparse X1) (.sparse X2)
  | .multSD => do
    let c1 ← Checker.mkAbove (t.sig .single)
    let X1 ← s.toSparse c1 id
    let c2 ← Checker.mkExIn (t.sig .double) (t.sig .single)
    let X2 ← s.toDense c2 rnd
    Mat.mkTwo (.sparse X1) (.dense X2)

/-- `MatrixConverter::operator()` (MatrixConverter.h:138-150); returns the dynamic type and the object. -/
def convertMatrix [LT R] [DecidableLT R] [LE R] [DecidableLE R] [HasAbs R] [Zero R] [NatCast R] [Div R]
    (b : Build) (rnd : R → R) (t : Settings R) (s : Src R) : Res (Kind × Mat R) :=
  execIf b (isConvertible t s) (fun k => do return (k, ← convertTo rnd t s k)) typeList

end BB
