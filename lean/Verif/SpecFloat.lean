import Verif.SpecBlocked
import Mathlib.Algebra.Ring.Defs
import Mathlib.Algebra.BigOperators.Group.Finset.Basic
import Mathlib.Algebra.Order.Ring.Rat
import Mathlib.Data.Int.Log
import Mathlib.Data.Rat.Floor

/-!
# Specification vocabulary for arithmetic that rounds

The theorems about rounding arithmetic do not assume that addition is associative or that multiplication
distributes over it.  What they assume is stated here.
-/

namespace BB

/-- Arithmetic of which only the behaviour of 0 is known: `x + 0 = 0 + x = x`, `x * 0 = 0 * x = 0`.  Finite IEEE
numbers have these laws when +0 and -0 are identified; infinities and NaN do not. -/
class Arith (R : Type) extends AddZeroClass R, MulZeroClass R

/-- The same, with a commutative addition (rounding a sum does not depend on the order of its two terms). -/
class CommArith (R : Type) extends Arith R where
  add_comm' : ∀ a b : R, a + b = b + a

/-- Exact arithmetic is a special case. -/
instance (priority := 100) CommArith.ofSemiring {R : Type} [NonUnitalNonAssocSemiring R] : CommArith R where
  zero_add := zero_add
  add_zero := add_zero
  zero_mul := zero_mul
  mul_zero := mul_zero
  add_comm' := add_comm

/-- The standard model of rounding arithmetic: `val` is the rational number an element stands for; every sum and every
product is the exact result with a relative error of at most `u` (the unit roundoff).  Overflow and underflow are
excluded. -/
structure Rounding {R : Type} [Zero R] [Add R] [Mul R] (val : R → ℚ) (u : ℚ) : Prop where
  nonneg : 0 ≤ u
  zero : val 0 = 0
  add : ∀ a b, |val (a + b) - (val a + val b)| ≤ u * |val a + val b|
  mul : ∀ a b, |val (a * b) - val a * val b| ≤ u * |val a * val b|

/-- The matrix `M` of any kind stands for the r×c matrix `e` of rational numbers, a two-part matrix for the exact sum of
its parts; `w` is the matrix of absolute values (of the sums of the absolute values of the parts). -/
def Mat.Stands {R : Type} [Zero R] (val : R → ℚ) : Mat R → Nat → Nat → (Nat → Nat → ℚ) → (Nat → Nat → ℚ) → Prop
  | .one A, r, c, e, w => ∃ f, A.Is r c f ∧ ∀ i j, i < r → j < c → e i j = val (f i j) ∧ w i j = |val (f i j)|
  | .two X Y, r, c, e, w => ∃ f g, X.Is r c f ∧ Y.Is r c g ∧
      ∀ i j, i < r → j < c → e i j = val (f i j) + val (g i j) ∧ w i j = |val (f i j)| + |val (g i j)|

/-- The blocked matrix `B` with the given row and column block sizes stands for the matrix `e` of rational numbers, with
absolute values `w`. -/
structure Blocked.Stands {R : Type} [Zero R] (val : R → ℚ) (B : Blocked R) (rs cs : List Nat) (e w : Nat → Nat → ℚ) : Prop where
  ori : B.grid.ori = .col
  rows : B.grid.dim.rows = rs.length
  cols : B.grid.dim.cols = cs.length
  alloc : B.grid.data.length = rs.length * cs.length
  ubRows : B.ubRows = rs.sum
  ubCols : B.ubCols = cs.sum
  blocks : ∀ i j, i < rs.length → j < cs.length → ∃ M, B.grid.get i j = .ok M ∧
    M.Stands val (rs.getD i 0) (cs.getD j 0) (fun a b => e (offs rs i + a) (offs cs j + b))
      (fun a b => w (offs rs i + a) (offs cs j + b))

/-! ### Binary floating point numbers -/

/-- A rounding mode to the nearest integer, with any rule for ties. -/
structure Mode where
  rn : ℚ → Int
  near : ∀ x, |(rn x : ℚ) - x| ≤ 1 / 2

/-- `x` has a binary significand of `p` bits: it is m·2^s with |m| ≤ 2^p.  (|m| = 2^p is the same as the significand
2^(p-1) with exponent s+1.)  Exponents are unbounded. -/
def HasBits (p : Nat) (x : ℚ) : Prop := ∃ m s : Int, |m| ≤ 2 ^ p ∧ x = m * 2 ^ s

/-- `x` rounded to `p` significant bits. -/
def fl (p : Nat) (md : Mode) (x : ℚ) : ℚ :=
  if x = 0 then 0 else md.rn (x / 2 ^ (Int.log 2 |x| - p + 1)) * 2 ^ (Int.log 2 |x| - p + 1)

/-- The binary floating point numbers with a `p`-bit significand (24 for `float`, 53 for `double`), without bounds on
the exponent.  There is one zero. -/
structure Fp (p : Nat) (md : Mode) where
  val : ℚ
  rep : HasBits p val

/-- Round to nearest, ties to even: the default of IEEE 754. -/
def roundEven (x : ℚ) : Int :=
  if x - ⌊x⌋ < 1 / 2 then ⌊x⌋
  else if 1 / 2 < x - ⌊x⌋ then ⌊x⌋ + 1
  else if ⌊x⌋ % 2 = 0 then ⌊x⌋ else ⌊x⌋ + 1

end BB
