import Verif.Model.Blas
import Verif.Spec

/-!
# Calls of Eigen, Blaze and of MKL's sparse times sparse product

include/BlasBooster/Core/Multiplication_Eigen.h, Multiplication_Blaze.h, Multiplication_IntelMKL.h:113-204.
As in `Verif.Model.Blas` the routines are arbitrary functions and the theorems assume their published contracts.
-/

namespace BB.Ext

open BB.Blas

variable {RA RB R : Type}

/-- `cC = cA * cB` for column-major matrices of m×k, k×n and m×n elements that lie one column after the other in the
three arrays (`Eigen::Map<Eigen::MatrixX?>`, `blaze::CustomMatrix<…,columnMajor>` with spacing m, k, m). -/
abbrev Prod (RA RB R : Type) := (m k n : Nat) → (a : Buf RA) → (b : Buf RB) → (c : Buf R) → Res (Buf R)

/-- The contract: the product in the element type of the result (`ca`, `cb` convert the elements of the factors). -/
def Prod.Conforms [Semiring R] (ca : RA → R) (cb : RB → R) (impl : Prod RA RB R) : Prop :=
  ∀ (m k n : Nat) (a : Buf RA) (b : Buf RB) (c : Buf R) (f : Nat → Nat → RA) (g : Nat → Nat → RB),
    (∀ i l, i < m → l < k → a.read (i + l * m) = .ok (f i l)) →
    (∀ l j, l < k → j < n → b.read (l + j * k) = .ok (g l j)) →
    c.length = m * n →
    ∃ c', impl m k n a b c = .ok c' ∧ c'.length = m * n ∧
      ∀ i j, i < m → j < n → c'.read (i + j * m) = .ok (∑ l ∈ Finset.range k, ca (f i l) * cb (g l j))

/-- `MultiplicationFunctor<Dense,T,P,Dense,T,P,Dense,T,P,EigenI>` (Multiplication_Eigen.h:12-30, 33-52).  Eigen rejects
products of different scalar types at compile time, so the functors of lines 55-90 cannot be instantiated. -/
def mulEigen (impl : Prod R R R) (A B C : Dense R) : Res (Dense R) := do
  assertThat (A.dim.cols == B.dim.rows)
  let C := C.resize A.dim.rows B.dim.cols
  let d ← impl A.dim.rows A.dim.cols B.dim.cols A.data B.data C.data
  return { C with data := d }

/-- Constructor of `blaze::CustomMatrix<T,aligned,padded,columnMajor>(ptr, m, n, mm)` with mm = m (Multiplication_Blaze.h:
22-26): it throws `std::invalid_argument` if the address is null or not aligned (`addr = false`) or the spacing is not a
multiple of the number `simd` of elements of a SIMD register that is at least m. -/
def custom (simd : Nat) (addr : Bool) (m : Nat) : Res Unit :=
  if !addr then .error (.throw "Invalid alignment detected")
  else if m % simd ≠ 0 then .error (.throw "Insufficient capacity for padded matrix")
  else .ok ()

/-- Where the three arrays lie and how many elements of each type a SIMD register holds. -/
structure Place where
  simdA : Nat
  simdB : Nat
  simdC : Nat
  addrA : Bool
  addrB : Bool
  addrC : Bool

/-- `MultiplicationFunctor<Dense,TA,P,Dense,TB,P,Dense,T,P,Blaze>` (Multiplication_Blaze.h:12-31, 34-53, 56-76, 79-96). -/
def mulBlaze (impl : Prod RA RB R) (pl : Place) (A : Dense RA) (B : Dense RB) (C : Dense R) : Res (Dense R) := do
  assertThat (A.dim.cols == B.dim.rows)
  let C := C.resize A.dim.rows B.dim.cols
  custom pl.simdA pl.addrA A.dim.rows
  custom pl.simdB pl.addrB B.dim.rows
  custom pl.simdC pl.addrC C.dim.rows
  let d ← impl A.dim.rows A.dim.cols B.dim.cols A.data B.data C.data
  return { C with data := d }

/-! ### mkl_?csrmultcsr -/

/-- `mkl_?csrmultcsr` with trans = 'N' and sort = 8: request, m, n, k, (a, ja, ia), (b, jb, ib), (c, jc, ic) ↦
(c, jc, ic).  `nzmax` is used for request 0 only (the pointer passed for it, `reinterpret_cast<const int*>(C.value_.size())`,
is never dereferenced); `info` is 0 unless the call fails. -/
abbrev Csrmultcsr (R : Type) := (request : Nat) → (m n k : Int) → Buf R → Buf Int → Buf Int → Buf R → Buf Int → Buf Int →
  Buf R → Buf Int → Buf Int → Res (Buf R × Buf Int × Buf Int)

/-- The three arrays hold the rows `L` in one-based compressed row format. -/
structure Csr (L : List (List (Nat × R))) (val : Buf R) (idx ptr : Buf Int) : Prop where
  elems : ∀ (p : Nat) (e : Nat × R), L.flatten[p]? = some e → val.read p = .ok e.2 ∧ idx.read p = .ok (e.1 + 1 : Int)
  ptrs : ∀ i, i ≤ L.length → ptr.read i = .ok ((L.take i).flatten.length + 1 : Int)

/-- The contract of the pair of calls request = 1 and request = 2: the first one sets `ic`, the second one sets the
elements of C = A*B with sorted rows; cells behind them are left alone.  `ia` is read up to `ia(m+1)`. -/
structure Csrmultcsr.Conforms [Semiring R] (impl : Csrmultcsr R) : Prop where
  computes : ∀ (m n k : Nat) (LA LB : List (List (Nat × R))) (a b c : Buf R) (ja ia jb ib jc ic : Buf Int),
    LA.length = m → LB.length = n → (∀ run ∈ LA, ∀ e ∈ run, e.1 < n) → (∀ run ∈ LB, ∀ e ∈ run, e.1 < k) →
    Csr LA a ja ia → Csr LB b jb ib → ic.length = m + 1 → m * k ≤ c.length → m * k ≤ jc.length →
    ∃ (LC : List (List (Nat × R))) (c' : Buf R) (jc' ic' : Buf Int),
      impl 1 m n k a ja ia b jb ib c jc ic = .ok (c, jc, ic') ∧
      impl 2 m n k a ja ia b jb ib c jc ic' = .ok (c', jc', ic') ∧
      LC.length = m ∧ (∀ run ∈ LC, ∀ e ∈ run, e.1 < k) ∧ (∀ run ∈ LC, run.Pairwise (fun x y => x.1 < y.1)) ∧
      (∀ i j, i < m → j < k → entryAt (LC.getD i []) j = ((LA.getD i []).map fun e => e.2 * entryAt (LB.getD e.1 []) j).sum) ∧
      Csr LC c' jc' ic' ∧ c'.length = c.length ∧ jc'.length = jc.length ∧ ic'.length = ic.length ∧
      ∀ p, LC.flatten.length ≤ p → c'[p]? = c[p]? ∧ jc'[p]? = jc[p]?
  bounds : ∀ (req : Nat) (m : Nat) (n k : Int) (a b c : Buf R) (ja ia jb ib jc ic : Buf Int),
    ia.length < m + 1 → impl req m n k a ja ia b jb ib c jc ic = .error .ub

/-- `--value` of an `int`, converted to `size_t`. -/
def fromI32 (v : Int) : Nat := ((v - 1) % 2 ^ 64).toNat

/-- `MultiplicationFunctor<Sparse,T,P,Sparse,T,P,Sparse,T,P,IntelMKL>` (Multiplication_IntelMKL.h:113-204).  The two
calls pass the numbers of columns in a different order (156-158 and 178-180). -/
def mulCsrCsr (impl : Csrmultcsr R) (A B C : Sparse R) : Res (Sparse R) := do
  assertThat (A.dim.cols == B.dim.rows)
  let C := C.resize A.dim.rows B.dim.cols
  let aKey ← Dense.convertBuf (fun k => toI32 (k + 1)) A.key
  let aOff ← Dense.convertBuf (fun k => toI32 (k + 1)) A.offset
  let bKey ← Dense.convertBuf (fun k => toI32 (k + 1)) B.key
  let bOff ← Dense.convertBuf (fun k => toI32 (k + 1)) B.offset
  let cKey : Buf Int := List.replicate C.key.length (some 0)
  let cOff : Buf Int := List.replicate C.offset.length (some 0)
  let (c, jc, ic) ← impl 1 (toI32 A.dim.rows) (toI32 A.dim.cols) (toI32 B.dim.cols) A.value aKey aOff B.value bKey bOff C.value cKey cOff
  let (c, jc, ic) ← impl 2 (toI32 A.dim.rows) (toI32 B.dim.cols) (toI32 A.dim.cols) A.value aKey aOff B.value bKey bOff c jc ic
  let key ← Dense.convertBuf fromI32 jc
  let off ← Dense.convertBuf fromI32 ic
  return { C with value := c, key := key, offset := off }

end BB.Ext
