import Mathlib.Algebra.BigOperators.Group.Finset.Defs
import Mathlib.Algebra.Ring.Defs

/-!
# What programs over blocked matrix variables mean

A blocked matrix is the list of its row and column block sizes and its elements.  Nothing here refers to the model of the code.
-/
namespace BB.BProg

open Finset

/-- Statements over blocked matrix variables. -/
inductive Op where
  /-- `BlockedDenseMatrix x(y);` -/
  | copyOf (x y : Nat)
  /-- `BlockedDenseMatrix x(std::move(y));` -/
  | moveOf (x y : Nat)
  /-- `x = y;` -/
  | assign (x y : Nat)
  /-- `x = std::move(y);` -/
  | moveAssign (x y : Nat)
  /-- `swap(x, y);` -/
  | swap (x y : Nat)
  /-- `x = y * z;` -/
  | mul (x y z : Nat)
  deriving DecidableEq, Repr

/-- A matrix cut into blocks: the heights of the rows of blocks, the widths of the columns of blocks, the elements. -/
structure Value (R : Type) where
  rs : List Nat
  cs : List Nat
  f : Nat → Nat → R

/-- What a variable is: not constructed, moved from, or a value. -/
inductive Var (R : Type) where
  | unborn
  | moved
  | holds (v : Value R)

/-- `f` with the value `x` at `k`. -/
def put {α : Type} (f : Nat → α) (k : Nat) (x : α) : Nat → α := fun i => if i = k then x else f i

/-- The product; the block sizes along the common dimension must agree, and there must be at least one block. -/
def Value.mul {R : Type} [NonUnitalNonAssocSemiring R] (A B : Value R) : Option (Value R) :=
  if A.cs = B.rs ∧ A.cs ≠ [] then some ⟨A.rs, B.cs, fun i j => ∑ l ∈ range A.cs.sum, A.f i l * B.f l j⟩ else none

/-- One statement; `none`: not allowed. -/
def step {R : Type} [NonUnitalNonAssocSemiring R] (s : Nat → Var R) : Op → Option (Nat → Var R)
  | .copyOf x y =>
    match s x, s y with
    | .unborn, .holds v => some (put s x (.holds v))
    | _, _ => none
  | .moveOf x y =>
    match s x, s y with
    | .unborn, .holds v => some (put (put s x (.holds v)) y .moved)
    | _, _ => none
  | .assign x y =>
    match s x, s y with
    | .unborn, _ => none
    | _, .holds v => some (put s x (.holds v))
    | _, _ => none
  | .moveAssign x y =>
    if x = y then none
    else
      match s x, s y with
      | .unborn, _ => none
      | _, .holds v => some (put (put s x (.holds v)) y .moved)
      | _, _ => none
  | .swap x y =>
    match s x, s y with
    | .holds v, .holds w => some (put (put s x (.holds w)) y (.holds v))
    | _, _ => none
  | .mul x y z =>
    match s x, s y, s z with
    | .unborn, _, _ => none
    | _, .holds v, .holds w => (v.mul w).map fun p => put s x (.holds p)
    | _, _, _ => none

/-- A program. -/
def run {R : Type} [NonUnitalNonAssocSemiring R] : List Op → (Nat → Var R) → Option (Nat → Var R)
  | [], s => some s
  | op :: ops, s =>
    match step s op with
    | some s => run ops s
    | none => none

/-- The statements the code executes as they are meant: no matrix is constructed by moving another, and only matrices with the same number of
rows and of columns are exchanged. -/
def Harmless {R : Type} (s : Nat → Var R) : Op → Prop
  | .moveOf _ _ => False
  | .swap x y => ∀ v w, s x = .holds v → s y = .holds w → v.rs.sum = w.rs.sum ∧ v.cs.sum = w.cs.sum
  | _ => True

/-- Every statement of the program is harmless when it is reached. -/
def AllHarmless {R : Type} [NonUnitalNonAssocSemiring R] : List Op → (Nat → Var R) → Prop
  | [], _ => True
  | op :: ops, s => Harmless s op ∧ ∀ s', step s op = some s' → AllHarmless ops s'

end BB.BProg
