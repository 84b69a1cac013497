/-!
# What programs over submatrix views mean

Matrices and windows of matrices, without memory: a view variable is bound to a window of a matrix; reading and writing through it
means reading and writing the matrix.  Nothing here refers to the model of the code.
-/
namespace BB.VProg

/-- Statements over matrix variables `m` and view variables `v`, `u`. -/
inductive Op (R : Type) where
  /-- `SubMatrix v(m, nr, nc, r0, c0);` -/
  | window (v m nr nc r0 c0 : Nat)
  /-- `SubMatrix v(u);` -/
  | copyOf (v u : Nat)
  /-- `SubMatrix v(std::move(u));` -/
  | moveOf (v u : Nat)
  /-- `v = u;` -/
  | assign (v u : Nat)
  /-- `v = std::move(u);` -/
  | moveAssign (v u : Nat)
  /-- `v(i,j) = x;` -/
  | set (v i j : Nat) (x : R)
  /-- `v = x;` for a number `x` -/
  | fill (v : Nat) (x : R)
  /-- `m(i,j) = x;` -/
  | setM (m i j : Nat) (x : R)

/-- A statement that constructs a view by moving another one. -/
def Op.isMoveOf {R : Type} : Op R → Bool
  | .moveOf _ _ => true
  | _ => false

/-- A window: the matrix, its number of rows and columns, its first row and column.  `narrow`: the view addresses its elements
as if it had one column. -/
structure Win where
  mat : Nat
  nr : Nat
  nc : Nat
  r0 : Nat
  c0 : Nat
  narrow : Bool
  deriving DecidableEq, Repr

/-- The row and column of the matrix that `v(i,j)` means. -/
def Win.cell (w : Win) (i j : Nat) : Nat × Nat := (w.r0 + i, w.c0 + if w.narrow then 0 else j)

/-- Does the window contain element (I,J) of its matrix? -/
def Win.has (w : Win) (I J : Nat) : Prop := w.r0 ≤ I ∧ I < w.r0 + w.nr ∧ w.c0 ≤ J ∧ J < w.c0 + w.nc

instance (w : Win) (I J : Nat) : Decidable (w.has I J) := inferInstanceAs (Decidable (_ ∧ _ ∧ _ ∧ _))

/-- Matrix `m` has `(dims m).1` rows, `(dims m).2` columns and the elements `elem m`; `view v` is the window the view variable is
bound to, if it has been constructed. -/
structure Meaning (R : Type) where
  dims : Nat → Nat × Nat
  elem : Nat → Nat → Nat → R
  view : Nat → Option Win

/-- `f` with the value `x` at `k`. -/
def put {α : Type} (f : Nat → α) (k : Nat) (x : α) : Nat → α := fun i => if i = k then x else f i

/-- Element (I,J) of matrix `m` replaced. -/
def putElem {R : Type} (f : Nat → Nat → Nat → R) (m I J : Nat) (x : R) : Nat → Nat → Nat → R :=
  fun m' I' J' => if m' = m ∧ I' = I ∧ J' = J then x else f m' I' J'

/-- One statement; `none`: the statement is not allowed.  `keeps`: does constructing a view from a temporary keep how it addresses
its elements? -/
def step {R : Type} (keeps : Bool) (s : Meaning R) : Op R → Option (Meaning R)
  | .window v m nr nc r0 c0 =>
    if s.view v = none ∧ 0 < nr ∧ 0 < nc ∧ r0 + nr ≤ (s.dims m).1 ∧ c0 + nc ≤ (s.dims m).2 then
      some { s with view := put s.view v (some ⟨m, nr, nc, r0, c0, false⟩) }
    else none
  | .copyOf v u =>
    match s.view v, s.view u with
    | none, some w => some { s with view := put s.view v (some w) }
    | _, _ => none
  | .moveOf v u =>
    match s.view v, s.view u with
    | none, some w => some { s with view := put s.view v (some { w with narrow := !keeps || w.narrow }) }
    | _, _ => none
  | .assign v u =>
    match s.view v, s.view u with
    | some _, some w => some { s with view := put s.view v (some w) }
    | _, _ => none
  | .moveAssign v u =>
    match s.view v, s.view u with
    | some _, some w => some { s with view := put s.view v (some w) }
    | _, _ => none
  | .set v i j x =>
    match s.view v with
    | some w => if i < w.nr ∧ j < w.nc then some { s with elem := putElem s.elem w.mat (w.cell i j).1 (w.cell i j).2 x } else none
    | none => none
  | .fill v x =>
    match s.view v with
    | some w => some { s with elem := fun m I J => if m = w.mat ∧ w.has I J then x else s.elem m I J }
    | none => none
  | .setM m i j x =>
    if i < (s.dims m).1 ∧ j < (s.dims m).2 then some { s with elem := putElem s.elem m i j x } else none

/-- A program. -/
def run {R : Type} (keeps : Bool) : List (Op R) → Meaning R → Option (Meaning R)
  | [], s => some s
  | op :: ops, s =>
    match step keeps s op with
    | some s => run keeps ops s
    | none => none

end BB.VProg
