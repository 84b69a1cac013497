import Verif.Model.External
import Verif.Model.Norm
import Verif.Model.BlockSize
import Verif.Model.Provider

/-!
# The benchmark program

src/Benchmark/Action_*.h, ActionProvider.cpp, benchmark.cpp, matrix_matrix_mult.cpp.  Times and the text layout of the
table are left out here (Model/Table.lean); `reps` stands for the number of calls `BrainTwister::Benchmark::benchIt` makes.  `double` is a
type `R`, `float` a type `F` with conversions `toF` and `toD`.
-/

namespace BB.Bench

open BB.Blas BB.Ext

variable {R F : Type}

/-- The external routines the program is linked with and the conversions between the element types. -/
structure Routines (R F : Type) where
  toF : R → F
  toD : F → R
  dgemmOpenBLAS : Gemm R
  sgemmOpenBLAS : Gemm F
  dgemmMKL : Gemm R
  sgemmMKL : Gemm F
  eigenD : Prod R R R
  eigenS : Prod F F F
  blazeD : Prod R R R
  blazeS : Prod F F F
  blazeSD : Prod F R R
  blazeDS : Prod R F R
  /-- where the arrays of a Blaze call lie -/
  place : Place

/-- `#ifdef WITH_…` (ActionProvider.cpp:2-25, 36-77).  Blaze is always included (19, 77). -/
structure With where
  openBLAS : Bool
  intelMKL : Bool
  eigen : Bool

/-- What `execute` computes from the two matrices (ActionBase.h:18-21), without the times. -/
structure Action (R : Type) where
  name : String
  execute : Dense R → Dense R → Res (Dense R)

/-- `Matrix<Dense,T> C; benchIt([&]{ C = (A * B).execute<Interface>(); })` (Action_*_dgemm.h and others): every call
computes into a new matrix (MatrixMultExp.h:36-41), which is moved to C. -/
def repeated (mul : Res (Dense R)) (reps : Nat) : Res (Dense R) := loopN reps (fun _ _ => mul) (Dense.empty .col)

/-- Action_native_dense.h:20-33: every call computes into the same C. -/
def native [Zero R] [Add R] [Mul R] (reps : Nat) : Action R :=
  ⟨"native_dense", fun A B => loopN reps (fun _ C => Dense.mulGeneral A B C) (Dense.empty .col)⟩

/-- Action_openblas_dgemm.h, Action_intelmkl_dgemm.h: 21-35. -/
def gemm [Zero R] [One R] (name : String) (impl : Gemm R) (reps : Nat) : Action R :=
  ⟨name, fun A B => repeated (Blas.mul impl A B (Dense.empty .col)) reps⟩

/-- Action_openblas_sgemm.h, Action_intelmkl_sgemm.h: 21-38. -/
def sgemm [Zero F] [One F] (name : String) (toF : R → F) (toD : F → R) (impl : Gemm F) (reps : Nat) : Action R :=
  ⟨name, fun A B => do
    let fA ← A.convert toF .col
    let fB ← B.convert toF .col
    let C ← repeated (Blas.mul impl fA fB (Dense.empty .col)) reps
    C.convert toD .col⟩

/-- Action_eigen_dgemm.h:21-33. -/
def eigen (impl : Prod R R R) (reps : Nat) : Action R :=
  ⟨"eigen_dgemm", fun A B => repeated (mulEigen impl A B (Dense.empty .col)) reps⟩

/-- Action_eigen_sgemm.h:21-36. -/
def eigenS (toF : R → F) (toD : F → R) (impl : Prod F F F) (reps : Nat) : Action R :=
  ⟨"eigen_sgemm", fun A B => do
    let fA ← A.convert toF .col
    let fB ← B.convert toF .col
    let C ← repeated (mulEigen impl fA fB (Dense.empty .col)) reps
    C.convert toD .col⟩

/-- Action_blaze_dgemm.h:21-33. -/
def blaze (impl : Prod R R R) (pl : Place) (reps : Nat) : Action R :=
  ⟨"blaze_dgemm", fun A B => repeated (mulBlaze impl pl A B (Dense.empty .col)) reps⟩

/-- Action_blaze_sgemm.h:21-36. -/
def blazeS (toF : R → F) (toD : F → R) (impl : Prod F F F) (pl : Place) (reps : Nat) : Action R :=
  ⟨"blaze_sgemm", fun A B => do
    let fA ← A.convert toF .col
    let fB ← B.convert toF .col
    let C ← repeated (mulBlaze impl pl fA fB (Dense.empty .col)) reps
    C.convert toD .col⟩

/-- Action_blaze_sdgemm.h:21-34. -/
def blazeSD (toF : R → F) (impl : Prod F R R) (pl : Place) (reps : Nat) : Action R :=
  ⟨"blaze_sdgemm", fun A B => do
    let fA ← A.convert toF .col
    repeated (mulBlaze impl pl fA B (Dense.empty .col)) reps⟩

/-- Action_blaze_dsgemm.h:21-34. -/
def blazeDS (toF : R → F) (impl : Prod R F R) (pl : Place) (reps : Nat) : Action R :=
  ⟨"blaze_dsgemm", fun A B => do
    let fB ← B.convert toF .col
    repeated (mulBlaze impl pl A fB (Dense.empty .col)) reps⟩

/-- The chain of name comparisons (ActionProvider.cpp:35-105); `block` is the action Action_blasbooster_block.h
(`blockPipeline`).  `none`: an exception object is constructed but not thrown (104), nothing is added. -/
def make [Zero R] [One R] [Add R] [Mul R] [Zero F] [One F] (w : With) (rt : Routines R F) (block : Action R) (reps : Nat) (name : String) : Option (Action R) :=
  if w.openBLAS && name == "openblas_dgemm" then some (gemm name rt.dgemmOpenBLAS reps)
  else if w.openBLAS && name == "openblas_sgemm" then some (sgemm name rt.toF rt.toD rt.sgemmOpenBLAS reps)
  else if w.intelMKL && name == "intelmkl_dgemm" then some (gemm name rt.dgemmMKL reps)
  else if w.intelMKL && name == "intelmkl_sgemm" then some (sgemm name rt.toF rt.toD rt.sgemmMKL reps)
  else if w.eigen && name == "eigen_dgemm" then some (eigen rt.eigenD reps)
  else if w.eigen && name == "eigen_sgemm" then some (eigenS rt.toF rt.toD rt.eigenS reps)
  else if name == "blaze_dgemm" then some (blaze rt.blazeD rt.place reps)
  else if name == "blaze_sgemm" then some (blazeS rt.toF rt.toD rt.blazeS rt.place reps)
  else if name == "blaze_sdgemm" then some (blazeSD rt.toF rt.blazeSD rt.place reps)
  else if name == "blaze_dsgemm" then some (blazeDS rt.toF rt.blazeDS rt.place reps)
  else if name == "blasbooster_block" then some block
  else if name == "native_dense" then some (native reps)
  else none

/-- Constructor of ActionProvider (ActionProvider.cpp:33-107). -/
def provide [Zero R] [One R] [Add R] [Mul R] [Zero F] [One F] (w : With) (rt : Routines R F) (block : Action R) (reps : Nat) : List String → List (Action R)
  | [] => []
  | n :: ns =>
    match make w rt block reps n with
    | some a => a :: provide w rt block reps ns
    | none => provide w rt block reps ns

/-- One line of the table (benchmark.cpp:85-94, 98-109): matrix number, name, max-norm and 2-norm of the difference. -/
structure Row where
  matrix : Nat
  name : String
  max : ℝ
  two : ℝ

/-- The lines printed so far and the contents of the files `diff_<i>.dat`. -/
structure Out where
  rows : List Row
  files : Nat → Option (Buf ℝ)

/-- Body of the loop over the other actions (benchmark.cpp:98-114).  Opening an `ofstream` truncates the file. -/
noncomputable def compare (writeDiff : Bool) (i : Nat) (A B refC : Dense ℝ) (a : Action ℝ) (o : Out) : Res Out := do
  let C ← a.execute A B
  let diff ← Dense.binop (· - ·) C refC (Dense.empty .col)
  let x ← (SMat.dense diff).norm .max
  let y ← (SMat.dense diff).norm .two
  return ⟨o.rows ++ [⟨i, a.name, x, y⟩], if writeDiff then fun k => if k = i then some diff.data else o.files k else o.files⟩

/-- The loop over the other actions (benchmark.cpp:96-115).  A failure leaves the lines printed before. -/
noncomputable def others (writeDiff : Bool) (i : Nat) (A B refC : Dense ℝ) : List (Action ℝ) → Out → Out × Res Unit
  | [], o => (o, .ok ())
  | a :: as, o =>
    match compare writeDiff i A B refC a o with
    | .ok o => others writeDiff i A B refC as o
    | .error e => (o, .error e)

/-- Body of the loop over the matrices (benchmark.cpp:85-115); `a` is `actions[0]`. -/
noncomputable def matrixStep (writeDiff : Bool) (a : Action ℝ) (as : List (Action ℝ)) (i : Nat) (A B : Dense ℝ) (o : Out) : Out × Res Unit :=
  match a.execute A B with
  | .error e => (o, .error e)
  | .ok refC => others writeDiff i A B refC as { o with rows := o.rows ++ [⟨i, a.name, 0, 0⟩] }

/-- The loop over the matrices (benchmark.cpp:83-116): `zip` of the two lists and the indices from `i` on. -/
noncomputable def matrices (writeDiff : Bool) (a : Action ℝ) (as : List (Action ℝ)) : Nat → List (Dense ℝ) → List (Dense ℝ) → Out → Out × Res Unit
  | i, A :: la, B :: lb, o =>
    match matrixStep writeDiff a as i A B o with
    | (o, .ok ()) => matrices writeDiff a as (i + 1) la lb o
    | (o, .error e) => (o, .error e)
  | _, _, _, o => (o, .ok ())

/-- benchmark.cpp:79-116: checks and loops. -/
noncomputable def runOn (writeDiff : Bool) (actions : List (Action ℝ)) (la lb : List (Dense ℝ)) (o : Out) : Out × Res Unit :=
  if la.length = 0 then (o, .error (.throw "No matrices defined"))
  else if la.length ≠ lb.length then (o, .error (.throw "Number of matrices A and B not equal"))
  else match actions with
    | [] => (o, .error (.throw "No actions defined"))
    | a :: as => matrices writeDiff a as 0 la lb o

/-- benchmark.cpp:76-116 with the two matrix sets of the configuration. -/
noncomputable def run (writeDiff : Bool) (actions : List (Action ℝ)) (sets : Provider.Sets ℝ) (o : Out) : Out × Res Unit :=
  match sets.get "A" with
  | .error e => (o, .error e)
  | .ok la =>
    match sets.get "B" with
    | .error e => (o, .error e)
    | .ok lb => runOn writeDiff actions la lb o

/-! ### The function `matrix_matrix_mult` -/

/-- `AbsoluteValueRangeChecker<T>()` (AbsoluteValueRangeChecker.h:54-64): |x| > 0. -/
def nonzero [Zero R] [DecidableEq R] (x : R) : Bool := decide (x ≠ 0)

/-- matrix_matrix_mult.cpp:174-198: `Matrix<Sparse,T> A(refA), B(refB)`, native product, `C = C2`. -/
def sparseNative [Zero R] [DecidableEq R] [Zero F] [Add F] [Mul F] [DecidableEq F] (toF : R → F) (toD : F → R) (reps : Nat) (A B : Dense R) : Res (Dense R) := do
  let sA ← Sparse.ofDense nonzero toF .col A
  let sB ← Sparse.ofDense nonzero toF .col B
  let C2 ← loopN reps (fun _ _ => Sparse.mulSS sA sB (Sparse.empty .col)) (Sparse.empty .col)
  C2.toDense toD .col

/-- matrix_matrix_mult.cpp:95-117: sparse times dense by `mkl_?csrmm`. -/
def csrmm [Zero R] [DecidableEq R] [Zero F] [One F] (toF : R → F) (toD : F → R) (impl : Csrmm F) (reps : Nat) (A B : Dense R) : Res (Dense R) := do
  let sA ← Sparse.ofDense nonzero toF .col A
  let fB ← B.convert toF .col
  let C2 ← repeated (mulCsr impl sA fB (Dense.empty .col)) reps
  C2.convert toD .col

/-- matrix_matrix_mult.cpp:119-143: sparse times sparse by `mkl_?csrmultcsr`. -/
def csrmultcsr [Zero R] [DecidableEq R] [Zero F] (toF : R → F) (toD : F → R) (impl : Csrmultcsr F) (reps : Nat) (A B : Dense R) : Res (Dense R) := do
  let sA ← Sparse.ofDense nonzero toF .col A
  let sB ← Sparse.ofDense nonzero toF .col B
  let C2 ← loopN reps (fun _ _ => mulCsrCsr impl sA sB (Sparse.empty .col)) (Sparse.empty .col)
  C2.toDense toD .col

/-- The MKL sparse routines. -/
structure SparseRoutines (R F : Type) where
  dcsrmm : Csrmm R
  scsrmm : Csrmm F
  dcsrmultcsr : Csrmultcsr R
  scsrmultcsr : Csrmultcsr F

/-- `matrix_matrix_mult` (matrix_matrix_mult.cpp:44-206) for one action name.  In the `double` branches operands and results
are not converted (the model converts with the identity).  An unknown name constructs an exception without throwing it
(202): copying the uninitialised `time` into the result is undefined. -/
def byName [Zero R] [One R] [Add R] [Mul R] [DecidableEq R] [Zero F] [One F] [Add F] [Mul F] [DecidableEq F] (w : With)
    (rt : Routines R F) (sp : SparseRoutines R F) (block : Action R) (reps : Nat) (name : String) (A B : Dense R) : Res (Dense R) :=
  if w.openBLAS && name == "openblas_dgemm" then (gemm name rt.dgemmOpenBLAS reps).execute A B
  else if w.openBLAS && name == "openblas_sgemm" then (sgemm name rt.toF rt.toD rt.sgemmOpenBLAS reps).execute A B
  else if w.intelMKL && name == "intelmkl_dgemm" then (gemm name rt.dgemmMKL reps).execute A B
  else if w.intelMKL && name == "intelmkl_sgemm" then (sgemm name rt.toF rt.toD rt.sgemmMKL reps).execute A B
  else if w.intelMKL && name == "intelmkl_dcsrmm" then csrmm id id sp.dcsrmm reps A B
  else if w.intelMKL && name == "intelmkl_scsrmm" then csrmm rt.toF rt.toD sp.scsrmm reps A B
  else if w.intelMKL && name == "intelmkl_dcsrmultcsr" then csrmultcsr id id sp.dcsrmultcsr reps A B
  else if w.intelMKL && name == "intelmkl_scsrmultcsr" then csrmultcsr rt.toF rt.toD sp.scsrmultcsr reps A B
  else if name == "blasbooster_block" then block.execute A B
  else if name == "blasbooster_sparse_double" then sparseNative id id reps A B
  else if name == "blasbooster_sparse_float" then sparseNative rt.toF rt.toD reps A B
  else .error .ub

end BB.Bench
