import Verif.Model.Threads

/-!
# What calls made by several threads should return
-/

namespace BB.Par

variable {R : Type}

/-- The elements of matrix `x` in the order of its array. -/
def elems (W : World R) (m : ∀ l, Obj R l) (x : Nat) : List R := (List.range (W.rows x * W.cols x)).map fun p => m (.elem x p)

/-- A norm that is marked as up to date is the norm of the elements. -/
def CacheValid (W : World R) (m : ∀ l, Obj R l) : Prop := ∀ x, m (.upToDate x) = true → m (.norm x) = W.nrm (elems W m x)

/-- What a call that only reads returns, by what the matrix contains. -/
def Call.answer [LT R] [DecidableLT R] (W : World R) (m : ∀ l, Obj R l) : Call R → Option (Ans R)
  | .get x p => some (.num (m (.elem x p)))
  | .norm x => some (.num (W.nrm (elems W m x)))
  | .normLarger x v => some (.bool (decide (v < W.nrm (elems W m x))))
  | .count _ _ => none
  | .mul _ _ _ _ => none

/-- Element reads and norm queries. -/
def Call.readOnly : Call R → Prop
  | .get _ _ => True
  | .norm _ => True
  | .normLarger _ _ => True
  | _ => False

/-- Thread `i` may make the call if every matrix has an owner or is shared (`own x = none`): it changes only matrices it
owns, and reads those and shared ones.  Norm queries change a matrix unless its norm is up to date, occupation queries
always do. -/
def Call.Respects (W : World R) (own : Nat → Option Nat) (m : ∀ l, Obj R l) (i : Nat) : Call R → Prop
  | .get x _ => own x = some i ∨ own x = none
  | .norm x => own x = some i ∨ (own x = none ∧ m (.upToDate x) = true)
  | .normLarger x _ => own x = some i ∨ (own x = none ∧ m (.upToDate x) = true)
  | .count x _ => own x = some i
  | .mul c a b _ => W.tracked = false ∧ own c = some i ∧ (own a = some i ∨ own a = none) ∧ (own b = some i ∨ own b = none)

/-- All threads at their beginning. -/
def start [Zero R] [Add R] [Mul R] [LT R] [DecidableLT R] (W : World R) (m : ∀ l, Obj R l) (ps : List (List (Call R))) : Cfg (Obj R) (List (Ans R)) :=
  ⟨m, ps.map (thread W)⟩

/-- All threads at their end, with these answers. -/
def Done (c : Cfg (Obj R) (List (Ans R))) (as : List (List (Ans R))) : Prop := c.threads = as.map .ret

end BB.Par
