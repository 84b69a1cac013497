import Verif.Model.Dyn

/-!
# The Python module

src/PythonBinding/matrix.cpp: the class `Matrix` of the module `blasbooster`, a wrapped `DynamicMatrix`.

Python names refer to objects; an object is the pointer variable of `Dyn` with the same number.  Statements run one after the other; an
exception ends the statement and the program goes on (as in an interactive session or with `try`).

Simplifications: the behaviour of pybind11 is the documented one: an argument without the buffer protocol, and a result whose type is not
registered with the module, raise `TypeError`; a name that is not bound raises `NameError`.  Memory is never full; objects that no name refers
to stay in the list.
-/
namespace BB.Python

variable {R : Type}

inductive Stmt where
  | make (x : Nat) (buffer : Bool)   -- x = Matrix(a); `buffer`: `a` has the buffer protocol (e.g. an array)
  | bind (x y : Nat)                 -- x = y
  | del (x : Nat)                    -- del x
  | add (x y z : Nat)                -- x = y + z
  | mul (x y z : Nat)                -- x = y * z
  | str (x : Nat)                    -- print(str(x))

/-- What a statement shows. -/
inductive Ans where
  | done
  | text (s : String)
  | raised (type : String)
  deriving DecidableEq, Repr

/-- The C++ side, the number of objects made so far, and the objects names refer to. -/
structure State (R : Type) where
  dyn : Dyn.State R
  next : Nat
  names : Nat → Option Nat

def State.init : State R := ⟨.init, 0, fun _ => none⟩

variable [Zero R] [Add R] [Mul R] [Sub R] [Neg R] [DecidableEq R]

/-- One statement. -/
def step (s : State R) : Stmt → Res (State R × Ans)
  -- matrix.cpp:19-23: the buffer is requested (an exception if there is none) and not used, the new `DynamicMatrix` is a null pointer
  | .make x true => do
    let d ← Dyn.step s.dyn (.reset s.next)
    return (⟨d, s.next + 1, Function.update s.names x (some s.next)⟩, .done)
  | .make _ false => .ok (s, .raised "TypeError")
  | .bind x y =>
    match s.names y with
    | none => .ok (s, .raised "NameError")
    | some o => .ok ({ s with names := Function.update s.names x (some o) }, .done)
  | .del x =>
    match s.names x with
    | none => .ok (s, .raised "NameError")
    | some _ => .ok ({ s with names := Function.update s.names x none }, .done)
  -- `.def(py::self + py::self)` (matrix.cpp:24)
  | .add x y z =>
    match s.names y, s.names z with
    | some a, some b => do
      let d ← Dyn.step s.dyn (.add s.next a b)
      return (⟨d, s.next + 1, Function.update s.names x (some s.next)⟩, .done)
    | _, _ => .ok (s, .raised "NameError")
  -- `.def(py::self * py::self)` (matrix.cpp:25): the product expression is made, its type is not registered
  | .mul _ y z =>
    match s.names y, s.names z with
    | some a, some b => do
      let _ ← Dyn.step s.dyn (.lazy 0 a b)
      return (s, .raised "TypeError")
    | _, _ => .ok (s, .raised "NameError")
  -- matrix.cpp:26-29
  | .str x =>
    match s.names x with
    | none => .ok (s, .raised "NameError")
    | some _ => .ok (s, .text "DynamicMatrix")

/-- A program: what the statements show, in order. -/
def exec (s : State R) : List Stmt → Res (State R × List Ans)
  | [] => .ok (s, [])
  | c :: cs => do
    let (s, a) ← step s c
    let (s, l) ← exec s cs
    return (s, a :: l)

end BB.Python
