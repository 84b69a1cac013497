/-!
# What saving objects to files means

A file is absent, holds an object, or is torn: the program was stopped while it wrote an object.  Nothing here refers to the model of
the code.
-/
namespace BB.Saved

/-- What a file is. -/
inductive File (T : Type) where
  | absent
  | holds (x : T)
  | torn
  deriving DecidableEq, Repr

/-- How a call ends: it returns, with the object for a call that loads; it reports an error; or the program is stopped. -/
inductive End (T : Type) where
  | saved
  | loaded (x : T)
  | reported
  | stopped
  deriving DecidableEq, Repr

/-- A call: save object `x` to file `p` (allowed to replace an existing file or not), or load file `p`. -/
inductive Call (T : Type) where
  | save (p : String) (x : T) (overwrite : Bool)
  | load (p : String)
  deriving DecidableEq, Repr

/-- `f` with the value `x` at `k`. -/
def put {α : Type} (f : String → α) (k : String) (x : α) : String → α := fun i => if i = k then x else f i

/-- What a call that is not stopped does. -/
def call {T : Type} [DecidableEq T] (s : String → File T) : Call T → (String → File T) × End T
  | .save p x ow => if !ow && s p ≠ .absent then (s, .reported) else (put s p (.holds x), .saved)
  | .load p =>
    match s p with
    | .holds x => (s, .loaded x)
    | _ => (s, .reported)

/-- What is left when the program is stopped somewhere in the call: the file as it was, a torn file, or the new file; all other files
as they were.  A call that would have been reported, or that loads, changes nothing. -/
def Stopped {T : Type} [DecidableEq T] (s : String → File T) (c : Call T) (s' : String → File T) : Prop :=
  s' = s ∨ match c with
    | .save p x ow => ¬(!ow && s p ≠ .absent) ∧ (s' = put s p .torn ∨ s' = put s p (.holds x))
    | .load _ => False

/-- A history of calls of one program that is started again whenever it was stopped; `true`: the program was stopped in the call.
`Allowed s h ends s'`: starting with the files `s`, the calls that were not stopped can have ended like `ends`, in order, leaving the
files `s'`. -/
inductive Allowed {T : Type} [DecidableEq T] : (String → File T) → List (Call T × Bool) → List (End T) → (String → File T) → Prop
  | nil (s) : Allowed s [] [] s
  | ended {s c h ends s'} : Allowed (call s c).1 h ends s' → Allowed s ((c, false) :: h) ((call s c).2 :: ends) s'
  | stopped {s c s1 h ends s'} : Stopped s c s1 → Allowed s1 h ends s' → Allowed s ((c, true) :: h) ends s'

end BB.Saved
