import Verif.Model.Checker
import Verif.Model.Norm

/-!
# Cached norms and occupations

The base classes `NormPolicy` and `OccupationPolicy` (include/BlasBooster/Core/NormPolicy.h:11-54,
OccupationPolicy.h:10-60) of dense and sparse matrices, and what the special member functions of the matrices
(DenseMatrix.h:197-221, 287-295; SparseMatrix.h:84-105, 126-133) do to them.  A program is a sequence of
operations on named objects.

The checkers here have the threshold type `double`; the key order of the map is then a strict weak order whose
equivalence is equality of checkers (C31), so the map is modelled by an association list searched with that
order.
-/

namespace BB.Cache

variable {M R V : Type}

/-- What the cache code uses of a matrix class: `norm<NormType>`, `countDesiredElements`, `getSize()`, the
state a move leaves behind in its source, and the effect of the friend `swap` on both objects. -/
structure Ops (M R V : Type) where
  nrm : M → Res V
  cnt : Checker R → M → Res Nat
  size : M → Nat
  taken : M → M
  swapped : M → M → M × M

/-- A matrix object with its two caches: `norm_` if `isNormUpToDate_` (NormPolicy.h:48-50) and
`nbDesiredElementsMap_` (OccupationPolicy.h:56). -/
structure Obj (M R V : Type) where
  mat : M
  norm : Option V
  occ : List (Checker R × Nat)

/-- Constructors other than copy: both policies are default constructed (NormPolicy.h:16-18,
OccupationPolicy.h:14). -/
def Obj.fresh (m : M) : Obj M R V := ⟨m, none, []⟩

/-- The live objects. -/
abbrev Pool (M R V : Type) := Nat → Option (Obj M R V)

/-- `getNorm()` (NormPolicy.h:20-24, 40-46). -/
def Obj.getNorm (K : Ops M R V) (o : Obj M R V) : Res (Obj M R V × V) :=
  match o.norm with
  | some v => .ok (o, v)
  | none => do
    let v ← K.nrm o.mat
    return ({ o with norm := some v }, v)

/-- `ValueCheckerLess` (AbsoluteValueRangeChecker.h:24-31) finds neither key less than the other: the map takes
them for the same key. -/
def sameKey [LT R] [DecidableLT R] (a b : Checker R) : Bool :=
  match TChecker.less ⟨true, a⟩ ⟨true, b⟩, TChecker.less ⟨true, b⟩ ⟨true, a⟩ with
  | .ok false, .ok false => true
  | _, _ => false

/-- The map search `nbDesiredElementsMap_.count(key)` / `[key]`: the entry whose key is neither less nor
greater. -/
def lookup [LT R] [DecidableLT R] (l : List (Checker R × Nat)) (k : Checker R) : Option Nat :=
  (l.find? fun e => sameKey e.1 k).map Prod.snd

/-- `getNbOfSignificantElements(valueChecker)` (OccupationPolicy.h:17-28). -/
def Obj.getCount [LT R] [DecidableLT R] (K : Ops M R V) (o : Obj M R V) (k : Checker R) : Res (Obj M R V × Nat) :=
  match lookup o.occ k with
  | some n => .ok (o, n)
  | none => do
    let n ← K.cnt k o.mat
    return ({ o with occ := (k, n) :: o.occ }, n)

/-- `getOccupation(valueChecker)` (OccupationPolicy.h:31-36): the cached count over the current size; `none` is
NaN. -/
def Obj.getOccupation [LT R] [DecidableLT R] [DivisionRing R] (K : Ops M R V) (o : Obj M R V) (k : Checker R) :
    Res (Obj M R V × Option R) := do
  let (o, n) ← o.getCount K k
  return (o, occupationOf n (K.size o.mat))

/-- What a program can do with matrix objects. -/
inductive Op (M R : Type) where
  | make (x : Nat) (m : M)          -- any constructor other than copy and move
  | copy (x y : Nat)                -- Matrix(y)
  | move (x y : Nat)                -- Matrix(std::move(y))
  | assign (x y : Nat)              -- x = y
  | moveAssign (x y : Nat)          -- x = std::move(y)
  | swap (x y : Nat)                -- swap(x,y)
  | edit (x : Nat) (f : M → M)      -- element writes, resize, fill, op=, load: anything that changes x in place
  | reset (x : Nat)                 -- OccupationPolicy::reset
  | norm (x : Nat)                  -- getNorm(), isNormLargerThan(), isNormSmallerThan()
  | count (x : Nat) (k : Checker R) -- getNbOfSignificantElements(k), getOccupation(k), isOccupation...Than(k)

/-- What an operation returns to the program. -/
inductive Ans (V : Type) where
  | unit
  | norm (v : V)
  | count (n : Nat)

/-- Using an object that does not exist is undefined. -/
def Pool.get (p : Pool M R V) (x : Nat) : Res (Obj M R V) :=
  match p x with
  | some o => .ok o
  | none => .error .ub

/-- Assign to one name. -/
def Pool.set (p : Pool M R V) (x : Nat) (o : Obj M R V) : Pool M R V := fun z => if z = x then some o else p z

/-- One operation. -/
def step [LT R] [DecidableLT R] (K : Ops M R V) (p : Pool M R V) : Op M R → Res (Pool M R V × Ans V)
  | .make x m => .ok (p.set x (.fresh m), .unit)
  -- defaulted: all bases are copied, the caches too
  | .copy x y => do return (p.set x (← p.get y), .unit)
  -- the policies are not in the initialiser list: default constructed; the source keeps its caches
  | .move x y => do
    let o ← p.get y
    return ((p.set y { o with mat := K.taken o.mat }).set x (.fresh o.mat), .unit)
  -- defaulted: all bases are assigned, the caches too
  | .assign x y => do
    let _ ← p.get x
    return (p.set x (← p.get y), .unit)
  -- only dimension and storage are moved; both objects keep their caches
  | .moveAssign x y => do
    let o ← p.get x
    let q ← p.get y
    let p := p.set x { o with mat := q.mat }
    return (p.set y { q with mat := K.taken q.mat }, .unit)
  -- only dimension and storage are exchanged
  | .swap x y => do
    let o ← p.get x
    let q ← p.get y
    let (m1, m2) := K.swapped o.mat q.mat
    return ((p.set x { o with mat := m1 }).set y { q with mat := m2 }, .unit)
  -- no member function that changes the elements touches the caches
  | .edit x f => do
    let o ← p.get x
    return (p.set x { o with mat := f o.mat }, .unit)
  | .reset x => do
    let o ← p.get x
    return (p.set x { o with occ := [] }, .unit)
  | .norm x => do
    let (o, v) ← (← p.get x).getNorm K
    return (p.set x o, .norm v)
  | .count x k => do
    let (o, n) ← (← p.get x).getCount K k
    return (p.set x o, .count n)

/-- A program run from the pool `p`. -/
def run [LT R] [DecidableLT R] (K : Ops M R V) : List (Op M R) → Pool M R V → Res (Pool M R V)
  | [], p => .ok p
  | op :: ops, p => do
    let (p, _) ← step K p op
    run K ops p

/-- Dense matrices as such a class.  The friend `swap` exchanges data and dimensions but not the cached size
(DenseMatrix.h:287-295); a moved-from matrix keeps its dimensions and has no storage. -/
def denseOps [LinearOrder R] [AddGroup R] (nrm : Dense R → Res V) : Ops (Dense R) R V where
  nrm := nrm
  cnt c A := A.countSig c
  size A := A.dim.fullSize
  taken A := { A with data := [] }
  swapped A B :=
    ({ A with dim := { B.dim with fullSize := A.dim.fullSize }, data := B.data },
     { B with dim := { A.dim with fullSize := B.dim.fullSize }, data := A.data })

/-- Sparse matrices as such a class (SparseMatrix.h:84-105, 126-133). -/
def sparseOps [LinearOrder R] [AddGroup R] (nrm : Sparse R → Res V) : Ops (Sparse R) R V where
  nrm := nrm
  cnt c A := A.countSig c
  size A := A.dim.fullSize
  taken A := { A with value := [], key := [], offset := [] }
  swapped A B :=
    ({ B with dim := { B.dim with fullSize := A.dim.fullSize } },
     { A with dim := { A.dim with fullSize := B.dim.fullSize } })

/-- Construction of a sparse matrix from a dense object (SparseMatrix.h:183-224): the number of significant
elements comes from the cache. -/
def Obj.toSparse [LinearOrder R] [AddGroup R] (K : Ops (Dense R) R V) (o : Obj (Dense R) R V) (k : Checker R) (ori : Ori) :
    Res (Sparse R) := do
  let (_, n) ← o.getCount K k
  Sparse.ofView k.accepts id ori o.mat.view o.mat.data n

end BB.Cache
