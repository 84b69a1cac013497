import Verif.SpecStored
import Mathlib.Algebra.BigOperators.Group.Finset.Basic
import Mathlib.Algebra.Ring.Defs

/-!
# Programs over matrices of all kinds: language and meaning

The language contains the operations of the library for variables of the types `Matrix<Dense,T>`, `Matrix<Sparse,T>` and
`Matrix<Zero>` (column-major).  The meaning of a variable is its type, its dimension and the elements it stores.  A program has a
meaning if it uses only existing variables, operands fit, and it uses none of the operations that the library does not provide
for the types in question or that are treated elsewhere (differences Sparse − Dense and Zero − M: C65; transposition of sparse
matrices without rows: C63).
-/

namespace BB.Mix

inductive Kind where
  | dense | sparse | zero
  deriving DecidableEq, Repr

inductive Stmt (R : Type) where
  | new (x r c : Nat) (v : R)             -- Matrix<Dense,T> x(r, c, AllFiller<T>(v));
  | zero (x r c : Nat)                    -- Matrix<Zero> x(r, c);
  | set (x i j : Nat) (v : R)             -- x(i,j) = v;
  | sparse (x y : Nat) (chk : R → Bool)   -- Matrix<Sparse,T> x(y, chk);
  | dense (x y : Nat)                     -- Matrix<Dense,T> x(y);
  | toZero (x y : Nat)                    -- Matrix<Zero> x(y);
  | copy (x y : Nat)                      -- auto x = y;
  | add (x y z : Nat)                     -- auto x = y + z;
  | sub (x y z : Nat)                     -- auto x = y - z;
  | addTo (x y : Nat)                     -- x += y;
  | subFrom (x y : Nat)                   -- x -= y;
  | mul (x y z : Nat)                     -- auto x = (y * z).execute();
  | trans (x y : Nat)                     -- auto x = transpose(y);
  | drop (x : Nat)                        -- x goes out of scope

/-- Type, dimension and stored elements of a variable. -/
structure Val (R : Type) where
  kind : Kind
  rows : Nat
  cols : Nat
  elem : Nat → Nat → Option R

abbrev Env (R : Type) := Nat → Option (Val R)

variable {R : Type}

def Env.put (E : Env R) (x : Nat) (v : Val R) : Env R := fun y => if y = x then some v else E y

/-- The type of a sum or difference: dense if one operand is, otherwise sparse if one is. -/
def Kind.join : Kind → Kind → Kind
  | .zero, .zero => .zero
  | .dense, _ | _, .dense => .dense
  | _, _ => .sparse

/-- The type of a product: zero if one operand is, otherwise dense if one is. -/
def Kind.prod : Kind → Kind → Kind
  | .zero, _ | _, .zero => .zero
  | .sparse, .sparse => .sparse
  | _, _ => .dense

/-- What `A op= B` does to one element of a dense `A`. -/
def inPlace (op : R → R → R) (a b : Option R) : Option R :=
  match a, b with
  | some a, some b => some (op a b)
  | a, _ => a

variable [Zero R] [Add R] [Sub R] [Neg R] [Mul R] [DecidableEq R]

/-- What a product of the given type stores: dense products every element, sparse ones those other than 0, zero matrices none. -/
def keep : Kind → R → Option R
  | .dense, x => some x
  | .sparse, x => if x = 0 then none else some x
  | .zero, _ => none

/-- The meaning of a statement. -/
def means (E : Env R) : Stmt R → Option (Env R)
  | .new x r c v => some (E.put x ⟨.dense, r, c, fun _ _ => some v⟩)
  | .zero x r c => some (E.put x ⟨.zero, r, c, fun _ _ => none⟩)
  | .set x i j v =>
    match E x with
    | some a =>
      if a.kind = .dense ∧ i < a.rows ∧ j < a.cols then
        some (E.put x { a with elem := fun k l => if k = i ∧ l = j then some v else a.elem k l })
      else none
    | none => none
  | .sparse x y chk =>
    match E y with
    | some a =>
      if a.kind = .dense then some (E.put x ⟨.sparse, a.rows, a.cols, fun i j => (a.elem i j).filter chk⟩) else none
    | none => none
  | .dense x y =>
    match E y with
    | some a => some (E.put x ⟨.dense, a.rows, a.cols, fun i j => some ((a.elem i j).getD 0)⟩)
    | none => none
  | .toZero x y =>
    match E y with
    | some a => some (E.put x ⟨.zero, a.rows, a.cols, fun _ _ => none⟩)
    | none => none
  | .copy x y =>
    match E y with
    | some a => some (E.put x a)
    | none => none
  | .add x y z =>
    match E y, E z with
    | some a, some b =>
      if a.rows = b.rows ∧ a.cols = b.cols then
        some (E.put x ⟨a.kind.join b.kind, a.rows, a.cols, fun i j => joinStored (· + ·) id (a.elem i j) (b.elem i j)⟩)
      else none
    | _, _ => none
  | .sub x y z =>
    match E y, E z with
    | some a, some b =>
      if a.rows = b.rows ∧ a.cols = b.cols ∧ ¬(a.kind = .sparse ∧ b.kind = .dense) ∧ ¬(a.kind = .zero ∧ b.kind ≠ .zero) then
        some (E.put x ⟨a.kind.join b.kind, a.rows, a.cols, fun i j => joinStored (· - ·) (- ·) (a.elem i j) (b.elem i j)⟩)
      else none
    | _, _ => none
  | .addTo x y =>
    match E x, E y with
    | some a, some b =>
      if a.rows = b.rows ∧ a.cols = b.cols ∧ a.kind = .dense then
        some (E.put x { a with elem := fun i j => inPlace (· + ·) (a.elem i j) (b.elem i j) })
      else none
    | _, _ => none
  | .subFrom x y =>
    match E x, E y with
    | some a, some b =>
      if a.rows = b.rows ∧ a.cols = b.cols ∧ a.kind = .dense then
        some (E.put x { a with elem := fun i j => inPlace (· - ·) (a.elem i j) (b.elem i j) })
      else none
    | _, _ => none
  | .mul x y z =>
    match E y, E z with
    | some a, some b =>
      if a.cols = b.rows then
        some (E.put x ⟨a.kind.prod b.kind, a.rows, b.cols,
          fun i j => keep (a.kind.prod b.kind) (dotStored a.elem b.elem a.cols i j)⟩)
      else none
    | _, _ => none
  | .trans x y =>
    match E y with
    | some a =>
      if a.kind = .dense ∨ (a.kind = .sparse ∧ 0 < a.rows) then some (E.put x ⟨a.kind, a.cols, a.rows, fun i j => a.elem j i⟩) else none
    | none => none
  | .drop x =>
    match E x with
    | some _ => some (fun y => if y = x then none else E y)
    | none => none

/-- The meaning of a program. -/
def meaning : List (Stmt R) → Env R → Option (Env R)
  | [], E => some E
  | t :: ts, E => (means E t).bind (meaning ts)

/-! ### The mathematical reading, for a ring: types play no role -/

/-- A matrix: dimension and elements. -/
structure MVal (R : Type) where
  rows : Nat
  cols : Nat
  elem : Nat → Nat → R

abbrev MEnv (R : Type) := Nat → Option (MVal R)

def MEnv.put {R : Type} (F : MEnv R) (x : Nat) (v : MVal R) : MEnv R := fun y => if y = x then some v else F y

/-- The mathematical effect of a statement on existing variables of fitting dimensions. -/
def math {R : Type} [Ring R] (F : MEnv R) : Stmt R → Option (MEnv R)
  | .new x r c v => some (F.put x ⟨r, c, fun _ _ => v⟩)
  | .zero x r c => some (F.put x ⟨r, c, fun _ _ => 0⟩)
  | .set x i j v => (F x).map fun a => F.put x ⟨a.rows, a.cols, fun k l => if k = i ∧ l = j then v else a.elem k l⟩
  | .sparse x y chk => (F y).map fun a => F.put x ⟨a.rows, a.cols, fun i j => if chk (a.elem i j) then a.elem i j else 0⟩
  | .dense x y => (F y).map fun a => F.put x a
  | .toZero x y => (F y).map fun a => F.put x ⟨a.rows, a.cols, fun _ _ => 0⟩
  | .copy x y => (F y).map fun a => F.put x a
  | .add x y z => (F y).bind fun a => (F z).map fun b => F.put x ⟨a.rows, a.cols, fun i j => a.elem i j + b.elem i j⟩
  | .sub x y z => (F y).bind fun a => (F z).map fun b => F.put x ⟨a.rows, a.cols, fun i j => a.elem i j - b.elem i j⟩
  | .addTo x y => (F x).bind fun a => (F y).map fun b => F.put x ⟨a.rows, a.cols, fun i j => a.elem i j + b.elem i j⟩
  | .subFrom x y => (F x).bind fun a => (F y).map fun b => F.put x ⟨a.rows, a.cols, fun i j => a.elem i j - b.elem i j⟩
  | .mul x y z => (F y).bind fun a => (F z).map fun b =>
      F.put x ⟨a.rows, b.cols, fun i j => ∑ l ∈ Finset.range a.cols, a.elem i l * b.elem l j⟩
  | .trans x y => (F y).map fun a => F.put x ⟨a.cols, a.rows, fun i j => a.elem j i⟩
  | .drop x => (F x).map fun _ y => if y = x then none else F y

/-- The mathematical effect of a program. -/
def mathRun {R : Type} [Ring R] : List (Stmt R) → MEnv R → Option (MEnv R)
  | [], F => some F
  | t :: ts, F => (math F t).bind (mathRun ts)

end BB.Mix
