import Verif.Model.NormFp
import Verif.SpecTyped
import Verif.SpecNorm
import Mathlib.Data.Rat.Cast.Order

/-!
# Specification vocabulary for norms in rounding arithmetic
-/

namespace BB

variable {D : Type}

/-- What is assumed of the operations on `double`: `val` is the real number a `double` stands for; `abs` and `max` are
exact; sums, differences, quotients, squares and square roots are the exact results with a relative error of at most `u`
(the unit roundoff).  Overflow and underflow are excluded. -/
structure NormRounding [Zero D] [Add D] (o : FOps D) (val : D → ℝ) (u : ℝ) : Prop where
  nonneg : 0 ≤ u
  lt_one : u < 1
  zero : val 0 = 0
  add : ∀ a b, |val (a + b) - (val a + val b)| ≤ u * |val a + val b|
  sub : ∀ a b, |val (o.sub a b) - (val a - val b)| ≤ u * |val a - val b|
  div : ∀ a b, val b ≠ 0 → |val (o.div a b) - val a / val b| ≤ u * |val a / val b|
  abs : ∀ a, val (o.abs a) = |val a|
  sq : ∀ a, |val (o.sq a) - val a ^ 2| ≤ u * val a ^ 2
  sqrt : ∀ a, 0 ≤ val a → |val (o.sqrt a) - √(val a)| ≤ u * √(val a)
  max : ∀ a b, val (o.max a b) = Max.max (val a) (val b)

/-- `x` is the non-negative number `t` up to N roundings with relative error `u`. -/
def RelErr (u : ℝ) (N : Nat) (x t : ℝ) : Prop := (1 - u) ^ N * t ≤ x ∧ x ≤ (1 + u) ^ N * t

/-- `x` is the entry-wise norm of the r×c matrix `e` up to N roundings; for the 2-norm its square is. -/
def NormUpTo (u : ℝ) (N : Nat) : NormKind → Nat → Nat → (Nat → Nat → ℝ) → ℝ → Prop
  | .one, r, c, e, x => RelErr u N x (∑ i ∈ Finset.range r, ∑ j ∈ Finset.range c, |e i j|)
  | .two, r, c, e, x => 0 ≤ x ∧ RelErr u N (x ^ 2) (∑ i ∈ Finset.range r, ∑ j ∈ Finset.range c, e i j ^ 2)
  | .max, r, c, e, x => ∃ y, IsNorm .max r c e y ∧ RelErr u N x y

/-- The matrices whose norm `k` can be computed: a dense matrix; a sparse one whose value array holds the stored elements
and nothing else; a zero matrix; a two-part matrix with a dense part and a part of `double`s.  The 1-norm only of matrices
with one part, not of zero matrices; the maximum norm only of matrices of `double`s. -/
def TNormable {F : Type} (k : NormKind) : TMat F D → Prop
  | .one (.denseF _) => k ≠ .max
  | .one (.sparseF S) => k ≠ .max ∧ S.Tight
  | .one (.denseD _) => True
  | .one (.sparseD S) => S.Tight
  | .one (.zero _) => k = .two
  | .two X1 X2 => k ≠ .one ∧ (X1.stored = some true ∨ X2.stored = some true) ∧ (X1.prec = some .double ∨ X2.prec = some .double)

/-- The number of roundings in the norm `k` of a matrix with `n` elements (in the square of the 2-norm). -/
def roundings {F : Type} (n : Nat) : NormKind → TMat F D → Nat
  | .one, _ => n
  | .two, .one _ => n + 3
  | .two, .two _ _ => n + 5
  | .max, .one _ => 0
  | .max, .two _ _ => 1

/-- The matrix stands for the r×c matrix `e` of real numbers, a two-part matrix for the exact sum of its parts. -/
def TMat.Reals {F : Type} [Zero F] [Zero D] (val : D → ℝ) (up : F → D) : TMat F D → Nat → Nat → (Nat → Nat → ℝ) → Prop
  | .one A, r, c, e => ∃ f, A.Is up r c f ∧ ∀ i j, i < r → j < c → e i j = val (f i j)
  | .two X Y, r, c, e => ∃ f g, X.Is up r c f ∧ Y.Is up r c g ∧ ∀ i j, i < r → j < c → e i j = val (f i j) + val (g i j)

/-- The blocked matrix with the given row and column block sizes stands for the matrix `e` of real numbers. -/
structure TBlocked.Reals {F : Type} [Zero F] [Zero D] (val : D → ℝ) (up : F → D) (B : TBlocked F D) (rs cs : List Nat)
    (e : Nat → Nat → ℝ) : Prop where
  ori : B.grid.ori = .col
  rows : B.grid.dim.rows = rs.length
  cols : B.grid.dim.cols = cs.length
  alloc : B.grid.data.length = rs.length * cs.length
  blocks : ∀ i j, i < rs.length → j < cs.length → ∃ M, B.grid.get i j = .ok M ∧
    M.Reals val up (rs.getD i 0) (cs.getD j 0) (fun a b => e (offs rs i + a) (offs cs j + b))

end BB
