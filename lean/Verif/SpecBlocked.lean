import Verif.SpecConv
import Verif.Model.Blocked

/-!
# Specification vocabulary for blocked matrices
-/

namespace BB

/-- Where block `i` of a partition starts: the sum of the preceding block sizes. -/
def offs (sizes : List Nat) (i : Nat) : Nat := (sizes.take i).sum

/-- `B` is a blocked matrix with the given row and column block sizes that denotes the matrix `f`: block (i,j)
is there, has `rs[i]` rows and `cs[j]` columns, and denotes the corresponding window of `f`. -/
structure Blocked.Is {R : Type} [Zero R] [Add R] (B : Blocked R) (rs cs : List Nat) (f : Nat → Nat → R) : Prop where
  ori : B.grid.ori = .col
  rows : B.grid.dim.rows = rs.length
  cols : B.grid.dim.cols = cs.length
  alloc : B.grid.data.length = rs.length * cs.length
  ubRows : B.ubRows = rs.sum
  ubCols : B.ubCols = cs.sum
  blocks : ∀ i j, i < rs.length → j < cs.length → ∃ M, B.grid.get i j = .ok M ∧
    M.Is (rs.getD i 0) (cs.getD j 0) (fun a b => f (offs rs i + a) (offs cs j + b))

end BB
