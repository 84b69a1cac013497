import Verif.SpecStored

/-!
# What programs over sparse matrix variables mean

Variables stand for tables of stored elements.  A statement replaces the value of its target by a function of the values its
operands have at that moment.  No memory, no temporaries.  `none` is a statement outside the language's rules: use of a variable
that is not alive, has no contents or was moved from, operands whose dimensions do not fit.
-/
namespace BB.SProg

variable {R : Type}

inductive Stmt (R : Type) where
  | decl (x : Nat)                                                        -- Matrix<Sparse,T> x;
  | new (x r c : Nat) (f : Nat → Nat → R) (chk : R → Bool)                 -- Matrix<Sparse,T> x(d, chk); with a dense r×c matrix d
  | resize (x r c n : Nat)                                                -- x.resize(r, c, n);
  | copyNew (x y : Nat)                                                   -- Matrix<Sparse,T> x(y);
  | moveNew (x y : Nat)                                                   -- Matrix<Sparse,T> x(std::move(y));
  | assign (x y : Nat)                                                    -- x = y;
  | move (x y : Nat)                                                      -- x = std::move(y);
  | bin (op : R → R → R) (un : R → R) (x y z : Nat)                        -- x = y + z; x = y - z;
  | mul (x y z : Nat)                                                     -- x = y * z;
  | trans (x y : Nat)                                                     -- x = transpose(y);
  | swap (x y : Nat)                                                      -- swap(x, y);
  | destroy (x : Nat)                                                     -- x goes out of scope

/-- The contents of a variable: the stored elements, nothing usable yet (default constructed or resized), or moved from. -/
inductive Data (R : Type) where
  | stored (f : Nat → Nat → Option R)
  | raw
  | hollow

/-- The value of a variable: dimensions, the size it reports, and contents. -/
structure Val (R : Type) where
  r : Nat
  c : Nat
  n : Nat
  d : Data R

/-- The variables that are alive. -/
abbrev Env (R : Type) := Nat → Option (Val R)

def Env.init : Env R := fun _ => none

def Env.put (E : Env R) (x : Nat) (v : Option (Val R)) : Env R := fun z => if z = x then v else E z

/-- The stored elements of a variable. -/
def Env.mat (E : Env R) (x : Nat) : Option (Nat × Nat × (Nat → Nat → Option R)) :=
  match E x with
  | some ⟨r, c, _, .stored f⟩ => some (r, c, f)
  | _ => none

/-- The value of a variable that was not moved from. -/
def Env.val (E : Env R) (x : Nat) : Option (Val R) :=
  match E x with
  | some ⟨_, _, _, .hollow⟩ => none
  | v => v

/-- A new variable. -/
def Env.new (E : Env R) (x : Nat) (v : Val R) : Option (Env R) := if (E x).isSome then none else some (E.put x (some v))

/-- Assignment to a variable that is alive. -/
def Env.assign (E : Env R) (x : Nat) (v : Val R) : Option (Env R) := if (E x).isSome then some (E.put x (some v)) else none

/-- A matrix with its true size. -/
def Val.ofStored (r c : Nat) (f : Nat → Nat → Option R) : Val R := ⟨r, c, r * c, .stored f⟩

variable [Zero R] [Add R] [Mul R] [DecidableEq R]

def specStep (E : Env R) : Stmt R → Option (Env R)
  | .decl x => E.new x ⟨0, 0, 0, .raw⟩
  | .new x r c f chk => E.new x (.ofStored r c fun i j => if chk (f i j) then some (f i j) else none)
  | .resize x r c _ =>
    match E.val x with
    | some _ => E.assign x ⟨r, c, r * c, .raw⟩
    | none => none
  | .copyNew x y =>
    match E.val y with
    | some v => E.new x v
    | none => none
  | .moveNew x y =>
    match E.val y with
    | some v => (E.new x v).map (·.put y (some { v with d := .hollow }))
    | none => none
  | .assign x y =>
    match E.val y with
    | some v => E.assign x v
    | none => none
  | .move x y =>
    match E.val y with
    | some v => if x = y then none else (E.assign x v).map (·.put y (some { v with d := .hollow }))
    | none => none
  | .bin op un x y z =>
    match E.mat y, E.mat z with
    | some (r, c, f), some (r', c', g) =>
      if r = r' ∧ c = c' then E.assign x (.ofStored r c fun i j => joinStored op un (f i j) (g i j)) else none
    | _, _ => none
  | .mul x y z =>
    match E.mat y, E.mat z with
    | some (r, k, f), some (k', c, g) =>
      if k = k' then E.assign x (.ofStored r c fun i j => if dotStored f g k i j = 0 then none else some (dotStored f g k i j)) else none
    | _, _ => none
  | .trans x y =>
    match E.mat y with
    | some (r, c, f) => if 0 < r then E.assign x (.ofStored c r fun j i => f i j) else none
    | none => none
  | .swap x y =>
    match E x, E y with
    | some v, some u => some ((E.put x (some { u with n := v.n })).put y (some { v with n := u.n }))
    | _, _ => none
  | .destroy x => if (E x).isSome then some (E.put x none) else none

def specRun : List (Stmt R) → Env R → Option (Env R)
  | [], E => some E
  | t :: ts, E => (specStep E t).bind (specRun ts)

end BB.SProg
