import Mathlib.Data.Finset.Basic
import Mathlib.Data.Finset.Card
import Mathlib.Order.Basic

/-!
# What the block size generator is meant to do: a greedy choice of cuts

A dimension of `n` elements is cut at places `x`, `0 < x < n` (before element `x`).  `detect` holds one detection value per
place: that of place `x` is `detect[x-1]`.  This file does not refer to the model.
-/

namespace BB

variable {R : Type}

/-- `[a, b)` is a block of the `n` elements cut at the places `P`. -/
def IsBlock (n : Nat) (P : Finset Nat) (a b : Nat) : Prop :=
  (a = 0 ∨ a ∈ P) ∧ (b = n ∨ b ∈ P) ∧ a < b ∧ ∀ x ∈ P, x ≤ a ∨ b ≤ x

/-- A place that is not cut yet. -/
def IsOpen (n : Nat) (P : Finset Nat) (x : Nat) : Prop := 0 < x ∧ x < n ∧ x ∉ P

/-- Cutting at `x` divides its block into two parts, the smaller of which has `m` elements. -/
def Leaves (n : Nat) (P : Finset Nat) (x m : Nat) : Prop :=
  ∃ a b, IsBlock n P a b ∧ a < x ∧ x < b ∧ m = min (x - a) (b - x)

/-- At least one cut was made and no block has more than `mx` elements. -/
def Finished (n mx : Nat) (P : Finset Nat) : Prop := P ≠ ∅ ∧ ∀ a b, IsBlock n P a b → b - a ≤ mx

/-- `x` is an open place and none of the open places has a greater detection value. -/
def IsSteepest [LE R] (detect : List R) (n : Nat) (P : Finset Nat) (x : Nat) : Prop :=
  IsOpen n P x ∧ ∀ y, IsOpen n P y → ∀ u w, detect[x - 1]? = some u → detect[y - 1]? = some w → w ≤ u

/-- The sets of cuts that the greedy choice goes through: as long as there is a block of more than `mx` elements (or no
cut yet), cut at a place of the greatest detection value that leaves parts of at least `mn` elements; among several
such places at one whose smaller part is the largest. -/
inductive Greedy [LE R] (detect : List R) (n mn mx : Nat) : Finset Nat → Prop
  | start : Greedy detect n mn mx ∅
  | cut (P : Finset Nat) (x m : Nat) : Greedy detect n mn mx P → ¬ Finished n mx P → IsSteepest detect n P x →
      Leaves n P x m → mn ≤ m → (∀ y m', IsSteepest detect n P y → Leaves n P y m' → mn ≤ m' → m' ≤ m) →
      Greedy detect n mn mx (insert x P)

/-- The greedy choice must go on but cannot: none of the places of the greatest detection value leaves parts of at least
`mn` elements. -/
def Stuck [LE R] (detect : List R) (n mn mx : Nat) (P : Finset Nat) : Prop :=
  ¬ Finished n mx P ∧ (∃ x, IsSteepest detect n P x) ∧ ∀ x m, IsSteepest detect n P x → Leaves n P x m → m < mn

end BB
