import Verif.Model.Sparse

/-!
# Specification vocabulary

Small definitions used in the statements of the property theorems: which mathematical matrix a program
object denotes.
-/

namespace BB

/-- `f` is the r×c matrix that can be read through view `v` of array `b`: every in-range call of
`operator()(i,j)` succeeds and returns `f i j`. -/
def View.Reads {R : Type} (v : View) (b : Buf R) (f : Nat → Nat → R) : Prop :=
  ∀ i j, i < v.rows → j < v.cols → v.get b i j = .ok (f i j)

/-- The window described by a view is addressable: minor runs do not overlap and the last element lies
inside the array of length `n`. -/
structure View.Fits (v : View) (n : Nat) : Prop where
  ld : match v.ori with
       | .col => v.rows ≤ v.ldRows
       | .row => v.cols ≤ v.ldCols
  bound : ∀ i j, i < v.rows → j < v.cols → v.base + v.pos i j < n

/-- The dense object `A` denotes the r×c matrix `f`: its bookkeeping is consistent and every in-range
`operator()(i,j)` returns `f i j`. -/
structure Dense.Is {R : Type} (A : Dense R) (r c : Nat) (f : Nat → Nat → R) : Prop where
  rows : A.dim.rows = r
  cols : A.dim.cols = c
  size : A.dim.fullSize = r * c
  alloc : A.data.length = r * c
  elems : ∀ i j, i < r → j < c → A.get i j = .ok (f i j)

/-- Row-by-column product accumulated from left to right, starting at 0:
`((0 + f i 0 * g 0 j) + f i 1 * g 1 j) + …`. -/
def dotSeq {R : Type} [Zero R] [Add R] [Mul R] (f g : Nat → Nat → R) (k i j : Nat) : R :=
  (List.range k).foldl (fun s l => s + f i l * g l j) 0

/-- The running value of a counter that starts at 1 and is incremented `n` times: `1 + 1 + … + 1`. -/
def countUp {R : Type} [One R] [Add R] : Nat → R
  | 0 => 1
  | n + 1 => countUp n + 1

/-! ### Sparse matrices -/

/-- Index of the run (column of a column-major, row of a row-major matrix) that holds element (i,j). -/
def Ori.minorIx : Ori → Nat → Nat → Nat
  | .col, _, j => j
  | .row, i, _ => i

/-- Index inside its run of element (i,j). -/
def Ori.majorIx : Ori → Nat → Nat → Nat
  | .col, i, _ => i
  | .row, _, j => j

/-- Element of the matrix `f` in run `q` under key `k`. -/
def Ori.elem {R : Type} : Ori → (Nat → Nat → R) → Nat → Nat → R
  | .col, f, q, k => f k q
  | .row, f, q, k => f q k

/-- The value stored under key `k` in a run of (key, value) pairs, 0 if there is none. -/
def entryAt {R : Type} [Zero R] (run : List (Nat × R)) (k : Nat) : R :=
  match run.find? (fun e => e.1 == k) with
  | some e => e.2
  | none => 0

/-- `S` is a structurally valid r×c compressed matrix whose runs hold the (key, value) pairs `L`:
offsets are the numbers of pairs in the preceding runs, keys and values are the pairs one after the
other, keys of a run are strictly increasing and in range. -/
structure Sparse.Valid {R : Type} (S : Sparse R) (r c : Nat) (L : List (List (Nat × R))) : Prop where
  rows : S.dim.rows = r
  cols : S.dim.cols = c
  size : S.dim.fullSize = r * c
  runs : L.length = S.ori.minorIx r c
  offsLen : S.offset.length = L.length + 1
  offs : ∀ q, q ≤ L.length → S.offset[q]? = some (some (L.take q).flatten.length)
  keyLen : S.key.length = S.value.length
  cells : ∀ (p : Nat) (e : Nat × R), L.flatten[p]? = some e → S.key[p]? = some (some e.1) ∧ S.value[p]? = some (some e.2)
  bound : ∀ run ∈ L, ∀ e ∈ run, e.1 < S.ori.majorIx r c
  sorted : ∀ run ∈ L, run.Pairwise (fun a b => a.1 < b.1)

/-- `S` is a valid compressed matrix that denotes the r×c matrix `f`: element (i,j) is the stored value
or 0. -/
def Sparse.Is {R : Type} [Zero R] (S : Sparse R) (r c : Nat) (f : Nat → Nat → R) : Prop :=
  ∃ L, S.Valid r c L ∧
    ∀ i j, i < r → j < c → f i j = entryAt (L.getD (S.ori.minorIx i j) []) (S.ori.majorIx i j)

/-- `nnz()` is the number of elements really stored in the runs. -/
def Sparse.Tight {R : Type} (S : Sparse R) : Prop :=
  ∃ n, S.offset.getLast? = some (some n) ∧ S.nnz = n

end BB
