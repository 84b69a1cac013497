import Verif.Model.Converter
import Verif.Model.Norm

/-!
# Comparing the occupation and the norm with a limit

`isOccupationLargerThan`, `isOccupationSmallerThan` (OccupationPolicy.h:39-49) and `isNormLargerThan`, `isNormSmallerThan` (NormPolicy.h:26-36) of
dense and sparse matrices, ZeroMatrix.h:107-149 for zero matrices, MultipleMatrix.h:72-99 for two-part matrices.

Simplifications: a fresh object (`Cache` models what is remembered from earlier calls); exact arithmetic, where 0/0 is `none` and every
comparison with it false.
-/
namespace BB.Occ

variable {R : Type}

/-- `x > v` of doubles; `none` is NaN. -/
def gtNaN [LT R] [DecidableLT R] : Option R → R → Bool
  | none, _ => false
  | some x, v => decide (x > v)

/-- `x < v` of doubles; `none` is NaN. -/
def ltNaN [LT R] [DecidableLT R] : Option R → R → Bool
  | none, _ => false
  | some x, v => decide (x < v)

section
variable [LT R] [DecidableLT R] [LE R] [DecidableLE R] [HasAbs R] [NatCast R] [Div R]

/-- `A.isOccupationLargerThan(v, k)` of a dense matrix (OccupationPolicy.h:39-43). -/
def denseLarger (A : Dense R) (v : R) (k : Checker R) : Res Bool := do
  let x ← A.occupation k
  return gtNaN x v

/-- `A.isOccupationSmallerThan(v, k)` of a dense matrix (OccupationPolicy.h:45-49). -/
def denseSmaller (A : Dense R) (v : R) (k : Checker R) : Res Bool := do
  let x ← A.occupation k
  return ltNaN x v

/-- `S.isOccupationLargerThan(v, k)` of a sparse matrix (OccupationPolicy.h:39-43). -/
def sparseLarger (S : Sparse R) (v : R) (k : Checker R) : Res Bool := do
  let x ← S.occupation k
  return gtNaN x v

/-- `S.isOccupationSmallerThan(v, k)` of a sparse matrix (OccupationPolicy.h:45-49). -/
def sparseSmaller (S : Sparse R) (v : R) (k : Checker R) : Res Bool := do
  let x ← S.occupation k
  return ltNaN x v

end

/-- `Z.isOccupationLargerThan(v, threshold)` of a zero matrix: the threshold is ignored (ZeroMatrix.h:142-145). -/
def zeroLarger [Zero R] [LT R] [DecidableLT R] (v : R) (_threshold : R) : Bool := decide ((0 : R) > v)

/-- `Z.isOccupationSmallerThan(v, threshold)` (ZeroMatrix.h:147-150). -/
def zeroSmaller [Zero R] [LT R] [DecidableLT R] (v : R) (_threshold : R) : Bool := decide ((0 : R) < v)

/-- `M.isOccupationLargerThan(v, threshold)` of a two-part matrix (MultipleMatrix.h:78-83). -/
def twoLarger (b : Build) (_M : Mat R) (_v _threshold : R) : Res Bool := do
  coreFailure b "not implemented yet"
  return false

/-- `M.isNormLargerThan(v)` of a two-part matrix (MultipleMatrix.h:92-97). -/
def twoNormLarger (b : Build) (_M : Mat R) (_v : R) : Res Bool := do
  coreFailure b "not implemented yet"
  return false

/-- `isNormLargerThan(v)` of a matrix that computes its norm by `nrm` (NormPolicy.h:26-30). -/
def normLarger [LT R] [DecidableLT R] (nrm : Res R) (v : R) : Res Bool := do return decide ((← nrm) > v)

/-- `isNormSmallerThan(v)` (NormPolicy.h:32-36). -/
def normSmaller [LT R] [DecidableLT R] (nrm : Res R) (v : R) : Res Bool := do return decide ((← nrm) < v)

/-- The same of a zero matrix (ZeroMatrix.h:116-124). -/
def zeroNormLarger [Zero R] [LT R] [DecidableLT R] (v : R) : Bool := decide ((0 : R) > v)
def zeroNormSmaller [Zero R] [LT R] [DecidableLT R] (v : R) : Bool := decide ((0 : R) < v)

end BB.Occ
