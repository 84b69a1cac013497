import Verif.Model.Cache

/-!
# Specification: when cached answers can be trusted

A tiny automaton per object that knows nothing of the implementation: has the quantity been asked for, and has
the object been changed since?
-/

namespace BB.Cache

variable {M R : Type}

/-- Nothing known; asked for and unchanged since; asked for and changed since. -/
inductive State where | clean | asked | stale
  deriving DecidableEq, Repr

/-- The contents of the object change. -/
def State.touch : State → State
  | .clean => .clean
  | _ => .stale

/-- Which of the two kinds of query is meant. -/
inductive What where | norm | occ
  deriving DecidableEq, Repr

/-- How an operation changes the states of the objects.  A copy is in the state of its original; a freshly
built or move-constructed object is clean; only the occupation can be reset. -/
def track (w : What) (g : Nat → State) : Op M R → Nat → State
  | .make x _, z => if z = x then .clean else g z
  | .copy x y, z => if z = x then g y else g z
  | .move x y, z => if z = x then .clean else if z = y then (g y).touch else g z
  | .assign x y, z => if z = x then g y else g z
  | .moveAssign x y, z => if z = x ∨ z = y then (g z).touch else g z
  | .swap x y, z => if z = x ∨ z = y then (g z).touch else g z
  | .edit x _, z => if z = x then (g x).touch else g z
  | .reset x, z => if z = x ∧ w = .occ then .clean else g z
  | .norm x, z => if z = x ∧ w = .norm ∧ g x = .clean then .asked else g z
  | .count x _, z => if z = x ∧ w = .occ ∧ g x = .clean then .asked else g z

/-- States after a history. -/
def trackAll (w : What) (g : Nat → State) : List (Op M R) → Nat → State
  | [] => g
  | op :: ops => trackAll w (track w g op) ops

/-- At the beginning nothing has been asked. -/
def noneAsked : Nat → State := fun _ => .clean

end BB.Cache
