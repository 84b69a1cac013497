import Verif.SpecMat
import Mathlib.Algebra.BigOperators.Group.Finset.Basic
import Verif.Model.Converter

/-!
# Specification vocabulary for the conversion of matrices
-/

namespace BB

/-- The source `s` denotes the r×c matrix `f`.  A plain source is a column-major dense matrix; a submatrix
source is a non-empty window, inside its column-major parent, whose sizes fit the machine types of the
striped iterator (`size_t` and, for the number of columns, `int`). -/
def Src.Is {R : Type} : Src R → Nat → Nat → (Nat → Nat → R) → Prop
  | .plain A, r, c, f => A.Is r c f ∧ A.ori = .col
  | .sub A nr nc r0 c0, r, c, f =>
    nr = r ∧ nc = c ∧ 0 < r ∧ 0 < c ∧ A.ori = .col ∧
    ∃ pr pc F, A.Is pr pc F ∧ r0 + r ≤ pr ∧ c0 + c ≤ pc ∧ pr + 1 < 2 ^ 64 ∧ c < 2 ^ 31 ∧
      ∀ i j, i < r → j < c → f i j = F (r0 + i) (c0 + j)

/-- Number of elements of the r×c matrix `f` whose absolute value exceeds `t`. -/
def countAbove {R : Type} [LinearOrder R] [Neg R] (t : R) (r c : Nat) (f : Nat → Nat → R) : Nat :=
  ∑ i ∈ Finset.range r, ∑ j ∈ Finset.range c, if t < max (f i j) (-f i j) then 1 else 0

/-- The two occupation conditions under which a non-empty matrix may be stored as kind `k`. -/
def Fulfils {R : Type} [LinearOrder R] [Neg R] [NatCast R] [Div R] (t : Settings R) (r c : Nat) (f : Nat → Nat → R) (k : Kind) : Prop :=
  (countAbove t.sigDouble r c f : R) / ((r * c : Nat) : R) ≤ t.occ k .double ∧
  (countAbove t.sigSingle r c f : R) / ((r * c : Nat) : R) ≤ t.occ k .single

end BB
