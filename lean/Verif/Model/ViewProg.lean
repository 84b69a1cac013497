import Verif.Model.Info
import Verif.Model.Storage
import Verif.SpecViewProg

/-!
# Programs over submatrix view objects: execution

Simplifications: the matrices are plain column-major dense matrices that live as long as the views and are not resized; a view and its
matrix have the same element type; `std::forward<storage>(other)` finds no move constructor or move assignment in the striped storage
(Storage.h:540-560 declare the copying ones), so the copying ones are called.
-/
namespace BB.VProg

open Own (upd)

variable {R : Type}

/-- A `Matrix<Dense,T,P>` with `P::isSubMatrix` (DenseMatrix.h:36-60): the dimension (Dimension.h:43-111), the leading dimension
(Dimension.h:133-147) and the striped storage (Storage.h:503-662); `src` is the matrix `data_` points into, `none` for the null
pointer of the default constructor. -/
structure ViewObj where
  dim : Dim
  ldRows : Nat
  ldCols : Nat
  src : Option Nat
  st : Striped
  deriving DecidableEq, Repr

/-- The submatrix constructor (DenseMatrix.h:421-436). -/
def ViewObj.window (A : Dense R) (m nr nc r0 c0 : Nat) : ViewObj :=
  ⟨Dim.mk' nr nc, A.dim.rows, A.dim.cols, some m, A.view.subStriped nr nc r0 c0⟩

/-- The copy constructor of a striped storage and its copy assignment copy the pointer and the three sizes
(Storage.h:532-556).  `size_` is their product (Storage.h:526). -/
def copyStriped (s : Striped) : Striped := ⟨s.data, s.cont, s.nb, s.sep⟩

/-- Defaulted copy constructor (DenseMatrix.h:197-198): every base class is copied. -/
def ViewObj.copy (o : ViewObj) : ViewObj := ⟨o.dim, o.ldRows, o.ldCols, o.src, copyStriped o.st⟩

/-- Move constructor (DenseMatrix.h:200-206): dimension and storage are initialised from `other`; the leading dimension is not
mentioned and so is default constructed, with zeros (Dimension.h:135-137). -/
def ViewObj.moved (o : ViewObj) : ViewObj := ⟨o.dim, 0, 0, o.src, copyStriped o.st⟩

/-- Move assignment (DenseMatrix.h:213-221): dimension, leading dimension and storage are assigned. -/
def ViewObj.moveAssigned (o : ViewObj) : ViewObj := ⟨o.dim, o.ldRows, o.ldCols, o.src, copyStriped o.st⟩

/-- How `operator()` addresses the elements: `getPosition` with the leading dimension (DenseMatrix.h:733-741), relative to
`getDataPointer()` (Storage.h:624-630). -/
def ViewObj.view (o : ViewObj) : View := ⟨.col, o.dim.rows, o.dim.cols, o.ldRows, o.ldCols, o.st.data.toNat⟩

/-- The matrices and the view objects (`none`: not constructed). -/
structure State (R : Type) where
  mat : Nat → Dense R
  view : Nat → Option ViewObj

/-- The object of a view variable. -/
def State.obj (s : State R) (v : Nat) : Res ViewObj :=
  match s.view v with
  | some o => .ok o
  | none => .error .ub

/-- The matrix a view points into; a null pointer must not be used. -/
def ViewObj.target (o : ViewObj) : Res Nat :=
  match o.src with
  | some m => .ok m
  | none => .error .ub

/-- Begin the lifetime of a view variable. -/
def State.construct (s : State R) (v : Nat) (o : ViewObj) : Res (State R) :=
  match s.view v with
  | none => .ok { s with view := upd s.view v (some o) }
  | some _ => .error .ub

/-- `v(i,j)` (DenseMatrix.h:718-722). -/
def State.get (s : State R) (v i j : Nat) : Res R := do
  let o ← s.obj v
  let m ← o.target
  o.view.get (s.mat m).data i j

/-- The elements `begin()` … `end()` of a view refer to, in this order (Storage.h:588-610). -/
def State.elems (s : State R) (v : Nat) : Res (List R) := do
  let o ← s.obj v
  let m ← o.target
  SIter.loop ((o.st.endPtr - o.st.data).toNat + 1) o.st.begin o.st.endPtr (fun p l => do return l ++ [← (s.mat m).data.readI p]) []

/-- `getNbRows()`, `getNbColumns()`, `getSize()` (Dimension.h:91-93). -/
def State.dims (s : State R) (v : Nat) : Res (Nat × Nat × Nat) := do
  let o ← s.obj v
  return (o.dim.rows, o.dim.cols, o.dim.fullSize)

/-- `v == u` (DenseMatrix.h:239-241, Storage.h:566-573, Dimension.h:71-74): the pointers, the sizes, the dimensions.  Simplification:
pointers into different matrices are never equal. -/
def State.same (s : State R) (v u : Nat) : Res Bool := do
  let a ← s.obj v
  let b ← s.obj u
  return (a.src == b.src && a.st.data == b.st.data && a.st.cont * a.st.nb == b.st.cont * b.st.nb && a.st.cont == b.st.cont &&
    a.st.nb == b.st.nb && a.st.sep == b.st.sep) && a.dim.beq b.dim

/-- One statement. -/
def State.step (s : State R) : Op R → Res (State R)
  | .window v m nr nc r0 c0 => s.construct v (ViewObj.window (s.mat m) m nr nc r0 c0)
  | .copyOf v u => do s.construct v (← s.obj u).copy
  | .moveOf v u => do s.construct v (← s.obj u).moved
  | .assign v u => do
    -- defaulted (DenseMatrix.h:210-211)
    let _ ← s.obj v
    let o ← s.obj u
    return { s with view := upd s.view v (some o.copy) }
  | .moveAssign v u => do
    let _ ← s.obj v
    let o ← s.obj u
    return { s with view := upd s.view v (some o.moveAssigned) }
  | .set v i j x => do
    -- DenseMatrix.h:712-716
    let o ← s.obj v
    let m ← o.target
    let d ← o.view.set (s.mat m).data i j x
    return { s with mat := upd s.mat m { s.mat m with data := d } }
  | .fill v x => do
    -- `operator=(T value)` (DenseMatrix.h:679-687)
    let o ← s.obj v
    let m ← o.target
    let d ← Info.fillStriped o.st ((s.mat m).data.length + 1) x (s.mat m).data
    return { s with mat := upd s.mat m { s.mat m with data := d } }
  | .setM m i j x => do
    let A ← (s.mat m).set i j x
    return { s with mat := upd s.mat m A }

/-- A program. -/
def State.run : List (Op R) → State R → Res (State R)
  | [], s => .ok s
  | op :: ops, s => do
    let s ← s.step op
    State.run ops s

end BB.VProg
