import Verif.Model.Sparse
import Mathlib.Algebra.Ring.Basic
import Mathlib.Algebra.BigOperators.Group.Finset.Basic

/-!
# Calls of external BLAS routines

include/BlasBooster/Core/Multiplication_OpenBLAS.h, Multiplication_IntelMKL.h (dense product and sparse times dense),
Multiplication_TheBestPolicy.h.  The routines themselves are not part of the repository: the model takes an arbitrary
function `impl` in their place and the theorems assume that it conforms to the published contract, stated here
(`Gemm.Conforms`, `Csrmm.Conforms`).  `Verif.Props.Blas` shows that conforming functions exist.
-/

namespace BB.Blas

variable {R : Type}

/-- Conversion of a `size_t` to a 32-bit `int`: the low 32 bits as a two's complement number
(`int M = A.getNbRows()`, Multiplication_OpenBLAS.h:25-30; `reinterpret_cast<const int*>(&A.nbRows_)` on a little-endian
machine, Multiplication_IntelMKL.h:39-50). -/
def toI32 (n : Nat) : Int := Int.bmod n (2 ^ 32)

/-- The parameters of `?gemm` after `transA = transB = 'N'`; the arrays are passed as whole arrays. -/
abbrev Gemm (R : Type) := (M N K lda ldb ldc : Int) → (alpha beta : R) → (a b c : Buf R) → Res (Buf R)

/-- BLAS reference, dgemm: the parameters that are accepted for `transA = transB = 'N'`. -/
def legal (M N K lda ldb ldc : Int) : Prop := 0 ≤ M ∧ 0 ≤ N ∧ 0 ≤ K ∧ max 1 M ≤ lda ∧ max 1 K ≤ ldb ∧ max 1 M ≤ ldc

instance (M N K lda ldb ldc : Int) : Decidable (legal M N K lda ldb ldc) := by unfold legal; infer_instance

open Classical in
/-- The contract of `?gemm` with column-major arrays.  With accepted parameters and initialised operands,
`C := alpha*A*B + beta*C`; `C` is not read if `beta` is 0; nothing else is changed.  With any other parameters an error
is reported (`xerbla`) and `C` is returned as it was. -/
structure Gemm.Conforms [Semiring R] (impl : Gemm R) : Prop where
  computes : ∀ (M N K lda ldb ldc : Nat) (alpha beta : R) (a b c : Buf R) (f g h : Nat → Nat → R),
    legal M N K lda ldb ldc →
    (∀ i l, i < M → l < K → a.read (i + l * lda) = .ok (f i l)) →
    (∀ l j, l < K → j < N → b.read (l + j * ldb) = .ok (g l j)) →
    (∀ i j, i < M → j < N → i + j * ldc < c.length ∧ (beta ≠ 0 → c.read (i + j * ldc) = .ok (h i j))) →
    ∃ c', impl M N K lda ldb ldc alpha beta a b c = .ok c' ∧ c'.length = c.length ∧
      (∀ i j, i < M → j < N → c'.read (i + j * ldc) =
        .ok (alpha * (∑ l ∈ Finset.range K, f i l * g l j) + if beta = 0 then 0 else beta * h i j)) ∧
      (∀ p, (∀ i j, i < M → j < N → p ≠ i + j * ldc) → c'[p]? = c[p]?)
  rejects : ∀ (M N K lda ldb ldc : Int) (alpha beta : R) (a b c : Buf R), ¬ legal M N K lda ldb ldc →
    impl M N K lda ldb ldc alpha beta a b c = .ok c

/-- `MultiplicationFunctor<Dense,T,P,Dense,T,P,Dense,T,P,OpenBLAS>` (Multiplication_OpenBLAS.h:12-39 and 42-69) and
`…,IntelMKL>` (Multiplication_IntelMKL.h:17-53): the same numbers are passed. -/
def mul [Zero R] [One R] (impl : Gemm R) (A B C : Dense R) : Res (Dense R) := do
  assertThat (A.dim.cols == B.dim.rows)
  let C := C.resize A.dim.rows B.dim.cols
  let M := toI32 A.dim.rows
  let N := toI32 B.dim.cols
  let K := toI32 A.dim.cols
  let d ← impl M N K (toI32 A.dim.rows) (toI32 A.dim.cols) (toI32 A.dim.rows) 1 0 A.data B.data C.data
  return { C with data := d }

/-- Parameters of `mkl_?csrmm` with `transa = 'N'` and `matdescra = "GLNF.."` (general, one-based indices, dense
matrices column-major): M, N, K, ldb, ldc, alpha, beta, val, indx, pntrb, pntre, b, c. -/
abbrev Csrmm (R : Type) :=
  (M N K ldb ldc : Int) → (alpha beta : R) → Buf R → Buf Int → Buf Int → Buf Int → (b c : Buf R) → Res (Buf R)

/-- The contract of `mkl_?csrmm` for `beta = 0`: the rows of the sparse matrix hold the (column, value) pairs `L`. -/
structure Csrmm.Conforms [Semiring R] (impl : Csrmm R) : Prop where
  computes : ∀ (M N K ldb ldc : Nat) (alpha : R) (val : Buf R) (indx pntrb pntre : Buf Int) (b c : Buf R)
      (L : List (List (Nat × R))) (g : Nat → Nat → R),
    L.length = M → (∀ run ∈ L, ∀ e ∈ run, e.1 < K) → 0 < M → 0 < K → K ≤ ldb → M ≤ ldc →
    (∀ (p : Nat) (e : Nat × R), L.flatten[p]? = some e → val.read p = .ok e.2 ∧ indx.read p = .ok (e.1 + 1 : Int)) →
    (∀ i, i < M → pntrb.read i = .ok ((L.take i).flatten.length + 1 : Int) ∧ pntre.read i = .ok ((L.take (i + 1)).flatten.length + 1 : Int)) →
    (∀ l j, l < K → j < N → b.read (l + j * ldb) = .ok (g l j)) →
    (∀ i j, i < M → j < N → i + j * ldc < c.length) →
    ∃ c', impl M N K ldb ldc alpha 0 val indx pntrb pntre b c = .ok c' ∧ c'.length = c.length ∧
      (∀ i j, i < M → j < N → c'.read (i + j * ldc) = .ok (alpha * ((L.getD i []).map fun e => e.2 * g e.1 j).sum)) ∧
      (∀ p, (∀ i j, i < M → j < N → p ≠ i + j * ldc) → c'[p]? = c[p]?)

/-- `MultiplicationFunctor<Sparse,T,P,Dense,T,P,Dense,T,P,IntelMKL>` (Multiplication_IntelMKL.h:56-111).  `&rmA_key[0]`
and `&rmA_offset[1]` are the arrays from that position on. -/
def mulCsr [Zero R] [One R] (impl : Csrmm R) (A : Sparse R) (B C : Dense R) : Res (Dense R) := do
  assertThat (A.dim.cols == B.dim.rows)
  let C := C.resize A.dim.rows B.dim.cols
  let rmA ← A.convert id .row
  let key ← Dense.convertBuf (fun k => toI32 (k + 1)) rmA.key
  let off ← Dense.convertBuf (fun k => toI32 (k + 1)) rmA.offset
  let d ← impl (toI32 A.dim.rows) (toI32 B.dim.cols) (toI32 A.dim.cols) (toI32 A.dim.cols) (toI32 A.dim.rows) 1 0
    rmA.value key off (off.drop 1) B.data C.data
  return { C with data := d }

/-- Compile-time configuration of TheBestPolicy (Multiplication_TheBestPolicy.h:6-12, 26, 74). -/
inductive Config where
  | native
  | intelMKL
  | openBLAS
  deriving DecidableEq

/-- `TheBestPolicy` for two dense matrices of one element type (Multiplication_TheBestPolicy.h:19-24, 28-36, 76-84). -/
def best [Zero R] [One R] [Add R] [Mul R] (cfg : Config) (impl : Gemm R) (A B C : Dense R) : Res (Dense R) :=
  match cfg with
  | .native => Dense.mulGeneral A B C
  | .intelMKL => mul impl A B C
  | .openBLAS => mul impl A B C

/-- `TheBestPolicy` with Intel MKL for float times double (Multiplication_TheBestPolicy.h:38-48): the double operand is
rounded to float, the float product is converted to double and assigned to the result (DenseMatrix.h converting
constructor and assignment). -/
def bestFloatDouble {S : Type} [Zero R] [One R] (toFloat : S → R) (toDouble : R → S) (impl : Gemm R) (A : Dense R) (B : Dense S) : Res (Dense S) := do
  let fB ← B.convert toFloat B.ori
  let fC ← mul impl A fB (Dense.empty A.ori)
  fC.convert toDouble fC.ori

/-- The same for double times float (Multiplication_TheBestPolicy.h:50-60). -/
def bestDoubleFloat {S : Type} [Zero R] [One R] (toFloat : S → R) (toDouble : R → S) (impl : Gemm R) (A : Dense S) (B : Dense R) : Res (Dense S) := do
  let fA ← A.convert toFloat A.ori
  let fC ← mul impl fA B (Dense.empty fA.ori)
  fC.convert toDouble fC.ori

end BB.Blas
