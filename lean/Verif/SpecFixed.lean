import Verif.Model.FixedStorage

/-!
# What programs over fixed-size storages mean

A variable holds an array of `N` elements, or it was moved from.  `step` is `none` where the language or the class
leave the program without a meaning: constructing a variable twice, using one that does not exist, reading, writing,
assigning to or loading into one that was moved from, writing out of range, and whatever concerns memory of the caller.
-/

namespace BB.FixedSpec

open Own

variable {R : Type}

/-- `none`: no such variable; `some none`: it was moved from; `some (some cs)`: it is the array `cs`, in which
`none` is an element that has no value yet. -/
abbrev State (R : Type) := Nat → Option (Option (List (Option R)))

def put (σ : State R) (x : Nat) (v : Option (Option (List (Option R)))) : State R := fun z => if z = x then v else σ z

/-- A new variable. -/
def fresh (σ : State R) (x : Nat) (k : Option (State R × Option String)) : Option (State R × Option String) :=
  match σ x with
  | none => k
  | some _ => none

/-- The array `x`. -/
def withArr (σ : State R) (x : Nat) (k : List (Option R) → Option (State R × Option String)) : Option (State R × Option String) :=
  match σ x with
  | some (some cs) => k cs
  | _ => none

/-- The variable `x`, moved from or not. -/
def withVar (σ : State R) (x : Nat) (k : Option (List (Option R)) → Option (State R × Option String)) : Option (State R × Option String) :=
  match σ x with
  | some v => k v
  | none => none

/-- The state after an operation and the exception it throws. -/
def step (N : Nat) (σ : State R) : FOp R → Option (State R × Option String)
  | .userAlloc _ => none
  | .proxy _ _ => none
  | .dflt x => fresh σ x (some (put σ x (some (some (List.replicate N none))), none))
  | .init x vs => fresh σ x (if vs.length = N then some (put σ x (some (some (vs.map some))), none)
      else some (σ, some "Storage (fixed,onHeap): values.size() != size_"))
  | .conv x cs => fresh σ x (if cs.length = N then some (put σ x (some (some cs)), none)
      else some (σ, some "Storage (fixed,onHeap): rhs.size_ != size_"))
  | .copy x y => fresh σ x (withArr σ y fun cs => some (put σ x (some (some cs)), none))
  | .move x y => fresh σ x (withVar σ y fun v => some (put (put σ x (some v)) y (some none), none))
  | .dtor x => withVar σ x fun _ => some (put σ x none, none)
  | .assign x y => withArr σ x fun _ => withArr σ y fun cs => some (put σ x (some (some cs)), none)
  | .moveAssign x y => withVar σ x fun v => withVar σ y fun u => some (put (put σ x (some u)) y (some v), none)
  | .swap x y => withVar σ x fun v => withVar σ y fun u => some (put (put σ x (some u)) y (some v), none)
  | .write x i v => withArr σ x fun cs => if i < N then some (put σ x (some (some (cs.set i (some v)))), none) else none
  | .load x vs => withArr σ x fun cs =>
      if N ≤ vs.length then some (put σ x (some (some ((vs.take N).map some))), none)
      else some (put σ x (some (some (vs.map some ++ cs.drop vs.length))), some "input stream error")

/-- A program, from the empty state: the final state and what each operation throws. -/
def run (N : Nat) : List (FOp R) → State R → Option (State R × List (Option String))
  | [], σ => some (σ, [])
  | op :: ops, σ =>
    match step N σ op with
    | none => none
    | some (σ', t) =>
      match run N ops σ' with
      | none => none
      | some (σ'', ts) => some (σ'', t :: ts)

/-- The constructors of a program that were given the wrong number of elements. -/
def badConstructor (N : Nat) : FOp R → Bool
  | .init _ vs => vs.length ≠ N
  | .conv _ cs => cs.length ≠ N
  | _ => false

end BB.FixedSpec
