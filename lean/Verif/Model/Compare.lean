import Verif.Model.Norm
import Verif.Model.Checker

/-!
# Comparison of matrices

`equal` of storages and matrices (Storage.h:67-76, 193-199, 421-429; SparseStorage.h:129-132;
DenseMatrix.h:247-252; ZeroMatrix.h:50-60), `operator ==` of dense matrices (DenseMatrix.h:239-241,
Storage.h:414-419), Utilities/EqualWithinNumericalAccuracy.h, StatisticalErrorInformation.h.
-/

namespace BB

variable {R : Type}

/-- `equalWithinNumericalAccuracy(v1, v2)` (EqualWithinNumericalAccuracy.h:17-21); `acc1`, `acc2` are the
`numericalAccuracy<T>()` of the two element types (8-15). -/
def closeTo [LE R] [DecidableLE R] [Max R] [Sub R] [HasAbs R] (acc1 acc2 v1 v2 : R) : Bool := absv (v1 - v2) ≤ max acc1 acc2

/-- The loop of `Storage::equal` (Storage.h:424-428): returns at the first difference; reading an element that was
never written is undefined. -/
def equalLoop [LE R] [DecidableLE R] [Max R] [Sub R] [HasAbs R] (acc1 acc2 : R) : Buf R → Buf R → Res Bool
  | [], _ => .ok true
  | _ :: _, [] => .error .ub
  | some v1 :: b1, some v2 :: b2 => if closeTo acc1 acc2 v1 v2 then equalLoop acc1 acc2 b1 b2 else .ok false
  | _ :: _, _ :: _ => .error .ub

/-- `Storage::equal` (Storage.h:421-429). -/
def bufEqual [LE R] [DecidableLE R] [Max R] [Sub R] [HasAbs R] (acc1 acc2 : R) (b1 b2 : Buf R) : Res Bool :=
  if b1.length ≠ b2.length then .ok false else equalLoop acc1 acc2 b1 b2

/-- `Matrix<Dense>::equal` (DenseMatrix.h:247-252): `and` is short-circuit. -/
def Dense.equal [LE R] [DecidableLE R] [Max R] [Sub R] [HasAbs R] (acc1 acc2 : R) (A B : Dense R) : Res Bool := do
  if ← bufEqual acc1 acc2 A.data B.data then return A.dim.rows == B.dim.rows && A.dim.cols == B.dim.cols
  else return false

/-- `equal` of sparse matrices is that of their storages (SparseStorage.h:129-132); the dimensions are not
compared.  Keys and offsets are compared exactly (accuracy 0). -/
def Sparse.equal [LE R] [DecidableLE R] [Max R] [Sub R] [HasAbs R] (acc1 acc2 : R) (A B : Sparse R) : Res Bool := do
  if ← bufEqual (0 : Int) 0 (A.offset.map (Option.map Nat.cast)) (B.offset.map (Option.map Nat.cast)) then
    if ← bufEqual (0 : Int) 0 (A.key.map (Option.map Nat.cast)) (B.key.map (Option.map Nat.cast)) then
      bufEqual acc1 acc2 A.value B.value
    else return false
  else return false

/-- `Matrix<Zero>::equal` (ZeroMatrix.h:50-60, Dimension.h:71-74). -/
def Zero.equal (a b : Dim) : Bool := a.beq b

/-! ### StatisticalErrorInformation.h -/

/-- The loop of both functions: iterators of A and B advance together, A's end decides (StatisticalErrorInformation.h:9-14,
22-27). -/
def foldBuf2 {V : Type} (step : V → R → R → V) (a b : Buf R) (s : V) : Res V :=
  ptrLoop 0 a.length 1 (fun p s => do
    let x ← a.read p
    let y ← b.read p
    return step s x y) s

/-- `getMaximalDeviation(A,B)` (StatisticalErrorInformation.h:5-16) of dense matrices. -/
noncomputable def Dense.maxDeviation (A B : Dense ℝ) : Res ℝ := foldBuf2 (fun s x y => max s |x - y|) A.data B.data 0

/-- `getRootMeanSquareDeviation(A,B)` (StatisticalErrorInformation.h:18-29) of dense matrices; `none` is NaN, the
value of `sqrt(0.0/0)`. -/
noncomputable def Dense.rmsDeviation (A B : Dense ℝ) : Res (Option ℝ) := do
  let m ← foldBuf2 (fun s x y => s + (x - y) ^ 2) A.data B.data 0
  return if A.dim.rows * A.dim.cols = 0 then none else some (Real.sqrt (m / ((A.dim.rows * A.dim.cols : Nat) : ℝ)))

end BB
