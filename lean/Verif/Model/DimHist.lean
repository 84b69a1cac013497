import Verif.Model.Cache
import Verif.Model.Mat

/-!
# The dimension members of matrix objects over a program's history

The base class `Dimension` (Dimension.h:42-129) caches `full_size_ = nbRows_ * nbColumns_`; `getSize()` returns the
cache.  This file models which operation of which matrix class writes which of the three members.  A program is a
sequence of operations on named objects; only the dimension members are modelled here.  C++ types are static: an
operation applied to objects of the wrong class does not compile and counts here as an error.
-/

namespace BB.DimHist

/-- Variable-size matrix classes. -/
inductive Cls where
  | dense    -- Matrix<Dense,T,P>
  | sparse   -- Matrix<Sparse,T,P>
  | zero     -- Matrix<Zero,NullType,P>
  | blocked  -- Matrix<Dense,DynamicMatrix,P>
  deriving DecidableEq, Repr

/-- An object: class and dimension members. -/
structure Obj where
  cls : Cls
  dim : Dim
  deriving DecidableEq, Repr

abbrev Pool := Nat → Option Obj

def Pool.get (p : Pool) (x : Nat) : Res Obj :=
  match p x with
  | some o => .ok o
  | none => .error .ub

def Pool.set (p : Pool) (x : Nat) (o : Obj) : Pool := fun z => if z = x then some o else p z

/-- `Dimension::resize` (Dimension.h:81-86). -/
def dimResize (_ : Dim) (r c : Nat) : Dim := ⟨r, c, r * c⟩

/-- `resize` of the classes: dense DenseMatrix.h:689-697 (calls `Dimension::resize`), sparse SparseMatrix.h:263-270,
zero ZeroMatrix.h:97-104 and blocked DenseMatrix.h:699-710 (both write rows and columns only). -/
def Obj.resize (o : Obj) (r c : Nat) : Obj :=
  match o.cls with
  | .dense => { o with dim := dimResize o.dim r c }
  | .sparse => { o with dim := { rows := r, cols := c, fullSize := r * c } }
  | .zero => { o with dim := { o.dim with rows := r, cols := c } }
  | .blocked => { o with dim := { o.dim with rows := r, cols := c } }

/-- What the program can do. -/
inductive Op where
  | make (x : Nat) (k : Cls) (r c : Nat)  -- default, parameter, initialiser-list, conversion constructors, products: dimension(r,c)
  | copy (x y : Nat)                      -- Matrix(y)
  | move (x y : Nat)                      -- Matrix(std::move(y))
  | assign (x y : Nat)                    -- x = y
  | moveAssign (x y : Nat)                -- x = std::move(y)
  | resize (x r c : Nat)                  -- x.resize(r,c,…)
  | swap (x y : Nat)                      -- swap(x,y)
  | fromDynamic (x y : Nat)               -- Matrix<Dense,T,P>(DynamicMatrix) of the object y
  | load (x y : Nat)                      -- archive >> x after archive << y
  deriving DecidableEq, Repr

/-- The friend `swap` found for two objects: dense and blocked DenseMatrix.h:287-295, sparse SparseMatrix.h:126-133
exchange `nbRows_` and `nbColumns_` only.  Zero matrices have no `swap` of their own: either that of `Dimension`
(Dimension.h:64-69) or `std::swap` runs, both exchange everything. -/
def swapDims (k : Cls) (a b : Dim) : Dim × Dim :=
  match k with
  | .zero => (b, a)
  | _ => ({ b with fullSize := a.fullSize }, { a with fullSize := b.fullSize })

/-- One operation. -/
def step (p : Pool) : Op → Res Pool
  -- Dimension.h:48-50
  | .make x k r c => .ok (p.set x ⟨k, ⟨r, c, r * c⟩⟩)
  -- defaulted, Dimension.h:53
  | .copy x y => do return p.set x (← p.get y)
  -- Dimension.h:59, defaulted: the source keeps its members (DenseMatrix.h:200-205, SparseMatrix.h:87-92)
  | .move x y => do return p.set x (← p.get y)
  -- Dimension.h:56
  | .assign x y => do
    let o ← p.get x
    let q ← p.get y
    if o.cls = q.cls then return p.set x { o with dim := q.dim } else .error .ub
  -- Dimension.h:62 (DenseMatrix.h:214-221, SparseMatrix.h:100-106)
  | .moveAssign x y => do
    let o ← p.get x
    let q ← p.get y
    if o.cls = q.cls then return p.set x { o with dim := q.dim } else .error .ub
  | .resize x r c => do return p.set x ((← p.get x).resize r c)
  | .swap x y => do
    let o ← p.get x
    let q ← p.get y
    if o.cls = q.cls then
      let d := swapDims o.cls o.dim q.dim
      return (p.set x { o with dim := d.1 }).set y { q with dim := d.2 }
    else .error .ub
  -- DenseMatrix.h:582-589: a default constructed matrix is swapped with the converted one
  | .fromDynamic x y => do
    let q ← p.get y
    return p.set x ⟨.dense, (swapDims .dense ⟨0, 0, 0 * 0⟩ ⟨q.dim.rows, q.dim.cols, q.dim.rows * q.dim.cols⟩).1⟩
  -- Dimension.h:123-128: all three members are written and read; dense matrices only
  | .load x y => do
    let o ← p.get x
    let q ← p.get y
    if o.cls = .dense ∧ q.cls = .dense then return p.set x { o with dim := q.dim } else .error .ub

/-- A program. -/
def run : Pool → List Op → Res Pool
  | p, [] => .ok p
  | p, op :: ops => do run (← step p op) ops

/-- `getSize()` (Dimension.h:90). -/
def Obj.getSize (o : Obj) : Nat := o.dim.fullSize

/-- `getNbRows()`, `getNbColumns()` (Dimension.h:88-89). -/
def Obj.getNbRows (o : Obj) : Nat := o.dim.rows
def Obj.getNbColumns (o : Obj) : Nat := o.dim.cols

end BB.DimHist
