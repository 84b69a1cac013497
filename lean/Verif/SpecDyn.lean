import Verif.SpecMat
import Verif.Model.Dyn
import Mathlib.Algebra.BigOperators.Group.Finset.Basic
import Mathlib.Algebra.Ring.Defs

/-!
# What a program over dynamic matrices means

A memory of mathematical matrices and variables that refer to them.
-/

namespace BB.Dyn

/-- How a matrix is stored. -/
inductive Form where | zero | sparse | dense
  deriving DecidableEq, Repr

inductive Shape where | one (k : Form) | two (k1 k2 : Form)
  deriving DecidableEq, Repr

/-- How a sum of two matrices is stored. -/
def Form.sum : Form → Form → Form
  | .dense, _ => .dense
  | _, .dense => .dense
  | .sparse, _ => .sparse
  | _, .sparse => .sparse
  | .zero, .zero => .zero

/-- How a product of two matrices is stored. -/
def Form.prod : Form → Form → Form
  | .zero, _ => .zero
  | _, .zero => .zero
  | .sparse, .sparse => .sparse
  | _, _ => .dense

/-- The sum of all parts. -/
def Shape.sum : Shape → Shape → Form
  | .one a, .one b => a.sum b
  | .one a, .two b c => (a.sum b).sum c
  | .two a b, .one c => (a.sum b).sum c
  | .two a b, .two c d => ((a.sum b).sum c).sum d

/-- The sum of the products of all pairs of parts. -/
def Shape.prod : Shape → Shape → Form
  | .one a, .one b => a.prod b
  | .one a, .two b c => (a.prod b).sum (a.prod c)
  | .two a b, .one c => (a.prod c).sum (b.prod c)
  | .two a b, .two c d => (((a.prod c).sum (a.prod d)).sum (b.prod c)).sum (b.prod d)

/-- Differences that are computed correctly: not Sparse − Dense, not Zero − M unless M is a zero matrix (C65) … -/
def Form.CanSub : Form → Form → Prop
  | .sparse, .dense => False
  | .zero, .dense => False
  | .zero, .sparse => False
  | _, _ => True

/-- … and not with two parts on both sides. -/
def Shape.CanSub : Shape → Shape → Prop
  | .one a, .one b => a.CanSub b
  | .one a, .two b c => a.CanSub b ∧ (a.sum b).CanSub c
  | .two a b, .one c => (a.sum b).CanSub c
  | .two _ _, .two _ _ => False

/-- `A += B` and `A -= B` are computed correctly: `A` is dense, or `B` is a zero matrix and `A` has one part (C65). -/
def Shape.CanAssign : Shape → Shape → Prop
  | .one .dense, _ => True
  | .one _, .one .zero => True
  | _, _ => False

/-- A matrix: how it is stored, dimensions, elements. -/
structure Obj (R : Type) where
  shape : Shape
  rows : Nat
  cols : Nat
  elem : Nat → Nat → R

/-- The memory: matrices, what each variable refers to (if anything), the operands of stored products. -/
structure Store (R : Type) where
  objs : List (Obj R)
  vars : Nat → Option Nat
  lazy : Nat → Option (Nat × Nat)

variable {R : Type}

/-- The matrix `x` refers to. -/
def Store.at (t : Store R) (x : Nat) : Option (Obj R) := (t.vars x).bind (fun l => t.objs[l]?)

/-- `x` refers to a new matrix. -/
def Store.new (t : Store R) (x : Nat) (o : Obj R) : Store R :=
  { t with objs := t.objs ++ [o], vars := Function.update t.vars x (some t.objs.length) }

/-- The matrix number `l` gets other elements. -/
def Store.change (t : Store R) (l : Nat) (o : Obj R) (f : Nat → Nat → R) : Store R :=
  { t with objs := t.objs.set l { o with elem := f } }

def formOf : SMat R → Form
  | .dense _ => .dense
  | .sparse _ => .sparse
  | .zero _ => .zero

def shapeOf : Mat R → Shape
  | .one A => .one (formOf A)
  | .two A B => .two (formOf A) (formOf B)

/-- `Means t st t'`: the statement takes the memory `t` to `t'`. -/
inductive Means [Ring R] : Store R → Stmt R → Store R → Prop
  | make {t x M r c f} : M.Is r c f → Means t (.make x M) (t.new x ⟨shapeOf M, r, c, f⟩)
  | share {t x y} : Means t (.share x y) { t with vars := Function.update t.vars x (t.vars y) }
  | reset {t x} : Means t (.reset x) { t with vars := Function.update t.vars x none }
  | add {t x y z a b} : t.at y = some a → t.at z = some b → a.rows = b.rows → a.cols = b.cols →
      Means t (.add x y z) (t.new x ⟨.one (a.shape.sum b.shape), a.rows, a.cols, fun i j => a.elem i j + b.elem i j⟩)
  | sub {t x y z a b} : t.at y = some a → t.at z = some b → a.rows = b.rows → a.cols = b.cols → a.shape.CanSub b.shape →
      Means t (.sub x y z) (t.new x ⟨.one (a.shape.sum b.shape), a.rows, a.cols, fun i j => a.elem i j - b.elem i j⟩)
  | mul {t x y z a b} : t.at y = some a → t.at z = some b → a.cols = b.rows →
      Means t (.mul x y z) (t.new x ⟨.one (a.shape.prod b.shape), a.rows, b.cols,
        fun i j => ∑ l ∈ Finset.range a.cols, a.elem i l * b.elem l j⟩)
  | addAssign {t x y l a b} : t.vars x = some l → t.objs[l]? = some a → t.at y = some b → a.shape.CanAssign b.shape →
      a.rows = b.rows → a.cols = b.cols → Means t (.addAssign x y) (t.change l a (fun i j => a.elem i j + b.elem i j))
  | subAssign {t x y l a b} : t.vars x = some l → t.objs[l]? = some a → t.at y = some b → a.shape.CanAssign b.shape →
      a.rows = b.rows → a.cols = b.cols → Means t (.subAssign x y) (t.change l a (fun i j => a.elem i j - b.elem i j))
  | lazy {t p y z} : Means t (.lazy p y z) { t with lazy := Function.update t.lazy p (some (y, z)) }
  /-- A stored product has the value of its variables when it is used. -/
  | eval {t x p y z a b} : t.lazy p = some (y, z) → t.at y = some a → t.at z = some b → a.cols = b.rows →
      Means t (.eval x p) (t.new x ⟨.one (a.shape.prod b.shape), a.rows, b.cols,
        fun i j => ∑ l ∈ Finset.range a.cols, a.elem i l * b.elem l j⟩)

/-- The statements of the program one after the other. -/
inductive Runs [Ring R] : Store R → List (Stmt R) → Store R → Prop
  | nil {t} : Runs t [] t
  | cons {t t' t'' st p} : Means t st t' → Runs t' p t'' → Runs t (st :: p) t''

/-- The state of the program represents the memory: same variables, and every matrix denotes its mathematical matrix. -/
structure Agrees [Zero R] [Add R] (s : State R) (t : Store R) : Prop where
  vars : s.vars = t.vars
  lazy : s.lazy = t.lazy
  length : s.heap.length = t.objs.length
  objs : ∀ (l : Nat) (M : Mat R) (o : Obj R), s.heap[l]? = some M → t.objs[l]? = some o → shapeOf M = o.shape ∧ M.Is o.rows o.cols o.elem

end BB.Dyn
