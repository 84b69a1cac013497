import Verif.Spec
import Verif.Model.Mat

/-!
# Specification vocabulary for matrices of any kind
-/

namespace BB

/-- The dense, sparse or zero matrix `M` denotes the r×c matrix `f` (dense and sparse matrices are
column-major).  For a zero matrix only the reported rows and columns matter: `f` is 0. -/
def SMat.Is {R : Type} [Zero R] : SMat R → Nat → Nat → (Nat → Nat → R) → Prop
  | .dense A, r, c, f => A.Is r c f ∧ A.ori = .col
  | .sparse A, r, c, f => A.Is r c f ∧ A.ori = .col
  | .zero d, r, c, f => d.rows = r ∧ d.cols = c ∧ ∀ i j, i < r → j < c → f i j = 0

/-- A matrix of any kind denotes the r×c matrix `f`; a two-part matrix denotes the sum of its parts. -/
def Mat.Is {R : Type} [Zero R] [Add R] : Mat R → Nat → Nat → (Nat → Nat → R) → Prop
  | .one A, r, c, f => A.Is r c f
  | .two X1 X2, r, c, f =>
    ∃ f1 f2, X1.Is r c f1 ∧ X2.Is r c f2 ∧ ∀ i j, i < r → j < c → f i j = f1 i j + f2 i j

/-- `M` is a sparse matrix. -/
def SMat.isSparse {R : Type} : SMat R → Bool
  | .sparse _ => true
  | _ => false

/-- `M` is a dense matrix. -/
def SMat.isDense {R : Type} : SMat R → Bool
  | .dense _ => true
  | _ => false

/-- `M` is a zero matrix. -/
def SMat.isZero {R : Type} : SMat R → Bool
  | .zero _ => true
  | _ => false

end BB
