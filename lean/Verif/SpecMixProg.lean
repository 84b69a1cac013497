import Verif.SpecProg
import Verif.SpecSparseProg

/-!
# What programs over dense and sparse matrix variables mean

Dense variables stand for matrices (`Verif.SpecProg`), sparse variables for tables of stored elements (`Verif.SpecSparseProg`).
A statement replaces the value of its target by a function of the values its operands have at that moment; where nothing is stored,
nothing happens.  No memory, no temporaries.
-/
namespace BB.MProg

variable {R : Type}

/-- The name of a dense or a sparse variable. -/
inductive Opd where
  | d (x : Nat)
  | s (x : Nat)

inductive Stmt (R : Type) where
  | dense (t : Prog.Stmt R)                       -- a statement over dense variables
  | sparse (t : SProg.Stmt R)                     -- a statement over sparse variables
  | denseOf (x y : Nat)                           -- Matrix<Dense,T> x(y);      y sparse
  | sparseOf (x y : Nat) (chk : R → Bool)         -- Matrix<Sparse,T> x(y, chk);  y dense
  | bin (op : R → R → R) (x y z : Nat)            -- x = y + z; x = y - z;      x and y dense, z sparse
  | add (x y z : Nat)                             -- x = y + z;                 x and z dense, y sparse
  | inplace (op : R → R → R) (x y : Nat)          -- x += y; x -= y;            x dense, y sparse
  | mul (x : Nat) (a b : Opd)                     -- x = a * b;                 x sparse if a and b are, otherwise dense
  | lazy (p : Nat) (a b : Opd)                    -- auto p = a * b;
  | eval (x p : Nat)                              -- x = p;

structure Env (R : Type) where
  d : SpecProg.Env R
  s : SProg.Env R
  lazy : Nat → Option (Opd × Opd)

def Env.init : Env R := ⟨.init, .init, fun _ => none⟩

/-- `op a b` where the right element is stored, `a` elsewhere. -/
def onto (op : R → R → R) (a : R) : Option R → R
  | some b => op a b
  | none => a

variable [Zero R] [Add R] [Mul R] [DecidableEq R]

/-- The product of two variables, to `x`. -/
def Env.mul (E : Env R) (x : Nat) : Opd → Opd → Option (Env R)
  | .d y, .d z => (E.d.mul x y z).map fun D => { E with d := D }
  | .s y, .s z => (SProg.specStep E.s (.mul x y z)).map fun S => { E with s := S }
  | .d y, .s z =>
    match E.d.mat y, E.s.mat z with
    | some (r, k, f), some (k', c, g) =>
      if k = k' then (E.d.assign x r c (dotStored (fun i l => some (f i l)) g k)).map fun D => { E with d := D } else none
    | _, _ => none
  | .s y, .d z =>
    match E.s.mat y, E.d.mat z with
    | some (r, k, f), some (k', c, g) =>
      if k = k' then (E.d.assign x r c (dotStored f (fun l j => some (g l j)) k)).map fun D => { E with d := D } else none
    | _, _ => none

def specStep (E : Env R) : Stmt R → Option (Env R)
  | .dense t => (SpecProg.step E.d t).map fun D => { E with d := D }
  | .sparse t => (SProg.specStep E.s t).map fun S => { E with s := S }
  | .denseOf x y =>
    match E.s y with
    | some ⟨r, c, n, .stored f⟩ =>
      if n = r * c then (E.d.new x r c fun i j => (f i j).getD 0).map fun D => { E with d := D } else none
    | _ => none
  | .sparseOf x y chk =>
    match E.d.mat y with
    | some (r, c, f) => (E.s.new x (.ofStored r c fun i j => if chk (f i j) then some (f i j) else none)).map fun S => { E with s := S }
    | none => none
  | .bin op x y z =>
    match E.d.mat y, E.s.mat z with
    | some (r, c, f), some (r', c', g) =>
      if r = r' ∧ c = c' then (E.d.assign x r c fun i j => onto op (f i j) (g i j)).map fun D => { E with d := D } else none
    | _, _ => none
  | .add x y z =>
    match E.s.mat y, E.d.mat z with
    | some (r, c, f), some (r', c', g) =>
      if r = r' ∧ c = c' then (E.d.assign x r c fun i j => onto (fun b a => a + b) (g i j) (f i j)).map fun D => { E with d := D } else none
    | _, _ => none
  | .inplace op x y =>
    match E.d.mat x, E.s.mat y with
    | some (r, c, f), some (r', c', g) =>
      if r = r' ∧ c = c' then (E.d.assign x r c fun i j => onto op (f i j) (g i j)).map fun D => { E with d := D } else none
    | _, _ => none
  | .mul x a b => E.mul x a b
  | .lazy p a b => some { E with lazy := fun q => if q = p then some (a, b) else E.lazy q }
  | .eval x p =>
    match E.lazy p with
    | some (a, b) => E.mul x a b
    | none => none

def specRun : List (Stmt R) → Env R → Option (Env R)
  | [], E => some E
  | t :: ts, E => (specStep E t).bind (specRun ts)

end BB.MProg
