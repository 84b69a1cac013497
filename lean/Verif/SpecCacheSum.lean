import Verif.SpecCache
import Verif.Model.CacheSum

/-!
# Specification: when the remembered answers of computed matrices can be trusted

The automaton of `SpecCache`, with sums and products.
-/

namespace BB.Cache

variable {R V : Type}

/-- How a matrix is stored. -/
inductive Kind where | dense | sparse | zero
  deriving DecidableEq, Repr

def kindOf : SMat R → Kind
  | .dense _ => .dense
  | .sparse _ => .sparse
  | .zero _ => .zero

/-- The kind of the object named `x`. -/
def Pool.kind (p : Pool (SMat R) R V) (x : Nat) : Option Kind := (p x).map (fun o => kindOf o.mat)

/-- The state of a sum or difference of two matrices in the states `s` and `t`: the sum of a dense and a sparse matrix is the dense
matrix changed, the sum with a zero matrix is the other matrix, and all others are new matrices. -/
def sumState (keep : Bool) (a b : Option Kind) (s t : State) : State :=
  if keep then
    match a, b with
    | some .dense, some .sparse => s.touch
    | some .sparse, some .dense => t.touch
    | _, some .zero => s
    | some .zero, _ => t
    | _, _ => .clean
  else .clean

/-- How an operation or computation changes the states of the objects. -/
def atrack (w : What) (p : Pool (SMat R) R V) (g : Nat → State) : AOp R → Nat → State
  | .op o, u => track w g o u
  | .add keep x y z, u => if u = x then sumState keep (p.kind y) (p.kind z) (g y) (g z) else g u
  | .sub keep x y z, u => if u = x then sumState keep (p.kind y) (p.kind z) (g y) (g z) else g u
  | .mul x _ _, u => if u = x then .clean else g u

variable [LinearOrder R] [Ring R]

/-- `History K w os p g`: the program `os` leads to the objects `p` in the states `g`. -/
inductive History (K : Ops (SMat R) R V) (w : What) : List (AOp R) → Pool (SMat R) R V → (Nat → State) → Prop
  | start : History K w [] (fun _ => none) noneAsked
  | next {os : List (AOp R)} {p p' : Pool (SMat R) R V} {g : Nat → State} {o : AOp R} {a : Ans V} : History K w os p g →
      astep K p o = .ok (p', a) → History K w (os ++ [o]) p' (atrack w p g o)

end BB.Cache
