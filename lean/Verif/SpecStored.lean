import Verif.Spec
import Verif.Model.Mat

/-!
# Stored elements

What a product is if nothing at all is known of the arithmetic: elements that are not stored contribute nothing, whatever they
would be multiplied with.
-/

namespace BB

/-- The value stored under key `k` in a run of (key, value) pairs, if there is one. -/
def storedAt {R : Type} (run : List (Nat × R)) (k : Nat) : Option R := (run.find? (fun e => e.1 == k)).map (·.2)

/-- `s + a * b` if both elements are stored, `s` otherwise. -/
def mulAdd {R : Type} [Add R] [Mul R] (s : R) : Option R → Option R → R
  | some a, some b => s + a * b
  | _, _ => s

/-- Row-by-column product of the elements that are stored in both matrices, accumulated from left to right, starting at 0. -/
def dotStored {R : Type} [Zero R] [Add R] [Mul R] (f g : Nat → Nat → Option R) (k i j : Nat) : R :=
  (List.range k).foldl (fun s l => mulAdd s (f i l) (g l j)) 0

/-- `op a b` if both elements are stored, `a` if only the left one is, `un b` if only the right one is. -/
def joinStored {R : Type} (op : R → R → R) (un : R → R) : Option R → Option R → Option R
  | some a, some b => some (op a b)
  | some a, none => some a
  | none, some b => some (un b)
  | none, none => none

/-- `S` is a valid r×c compressed matrix that stores exactly the elements `f`. -/
def Sparse.Stores {R : Type} (S : Sparse R) (r c : Nat) (f : Nat → Nat → Option R) : Prop :=
  ∃ L, S.Valid r c L ∧
    ∀ i j, i < r → j < c → f i j = storedAt (L.getD (S.ori.minorIx i j) []) (S.ori.majorIx i j)

/-- The column-major matrix `M` stores exactly the elements `f`: a dense matrix all, a `Matrix<Zero>` none. -/
def SMat.Stores {R : Type} (M : SMat R) (r c : Nat) (f : Nat → Nat → Option R) : Prop :=
  match M with
  | .dense A => A.ori = .col ∧ ∃ g, A.Is r c g ∧ ∀ i j, i < r → j < c → f i j = some (g i j)
  | .sparse A => A.ori = .col ∧ A.Stores r c f
  | .zero d => d.rows = r ∧ d.cols = c ∧ ∀ i j, i < r → j < c → f i j = none

end BB
