import Verif.SpecBlocked
import Verif.Model.Norm

/-!
# Specification of the entry-wise norms of an r×c matrix
-/

namespace BB

/-- `x` is the entry-wise 1-norm, 2-norm (Frobenius norm) or maximum norm of the r×c matrix `f`. -/
def IsNorm : NormKind → Nat → Nat → (Nat → Nat → ℝ) → ℝ → Prop
  | .one, r, c, f, x => x = ∑ i ∈ Finset.range r, ∑ j ∈ Finset.range c, |f i j|
  | .two, r, c, f, x => 0 ≤ x ∧ x ^ 2 = ∑ i ∈ Finset.range r, ∑ j ∈ Finset.range c, f i j ^ 2
  | .max, r, c, f, x => (∀ i j, i < r → j < c → |f i j| ≤ x) ∧
      ((r * c = 0 ∧ x = 0) ∨ ∃ i j, i < r ∧ j < c ∧ |f i j| = x)

/-- The matrices whose norm `k` can be computed: a dense matrix; a sparse one whose value array holds the
stored elements and nothing else; a zero matrix for the 2-norm; a two-part matrix with at least one dense
part for the 2- and the maximum norm. -/
def Normable {R : Type} (k : NormKind) : Mat R → Prop
  | .one (.dense _) => True
  | .one (.sparse S) => S.Tight
  | .one (.zero _) => k = .two
  | .two X1 X2 => k ≠ .one ∧ (X1.isDense = true ∨ X2.isDense = true)

end BB
