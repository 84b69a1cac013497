import Verif.SpecSaved
import Verif.Model.Base

/-!
# Saving objects to files

include/BlasBooster/Utilities/FileIO.h: `readXML`, `writeXML`, `readBinary`, `writeBinary`.  The two pairs are the same code with
different Boost archives, so they are modelled once.

The archive is a parameter, `enc`: the bytes it writes for an object, `dec`: what it makes of the bytes of a file (`none`: it throws).
The file system is a map from paths to contents.  A call is a sequence of small steps – the check, opening, one step per byte, closing
– so that a program can be stopped, or another program can run, between any two of them.

Simplifications: a file that exists can be opened and the disk is not full; reading a file is one step; bytes reach the file in
order (the stream may hold them back, so a stopped program leaves a prefix).
-/
namespace BB.Saved

variable {β : Type}

/-- What a program does at present. -/
inductive Proc (β : Type) where
  /-- nothing -/
  | idle
  /-- `write…(settings, name, p, overwrite)` was called (FileIO.h:25-26, 44-45) -/
  | write (p : String) (bytes : List β) (overwrite : Bool)
  /-- the check passed, the file is opened next (FileIO.h:29, 48) -/
  | opening (p : String) (bytes : List β)
  /-- `rest` is to be written from position `pos` on (FileIO.h:30-31, 49-50) -/
  | writing (p : String) (rest : List β) (pos : Nat)
  /-- `read…(settings, name, p)` was called (FileIO.h:16, 35) -/
  | read (p : String)
  /-- the check passed (FileIO.h:19, 38) -/
  | reading (p : String)
  /-- the call returned -/
  | wrote
  /-- the archive got these bytes (FileIO.h:20-21, 39-40) -/
  | got (bytes : List β)
  /-- the call threw `BlasBoosterException` (FileIO.h:18, 28, 37, 47) -/
  | threw
  deriving DecidableEq, Repr

/-- Files and programs. -/
structure Sys (β : Type) where
  fs : String → Option (List β)
  proc : Nat → Proc β

/-- A byte written at position `pos`; what lies between the end of the file and `pos` is filled. -/
def putAt [Inhabited β] (b : List β) (pos : Nat) (x : β) : List β :=
  (b ++ List.replicate (pos - b.length) default).take pos ++ x :: b.drop (pos + 1)

/-- Function update. -/
def upd {α γ : Type} [DecidableEq α] (f : α → γ) (k : α) (v : γ) : α → γ := fun i => if i = k then v else f i

/-- The next small step of program `i`. -/
def Sys.step [Inhabited β] (s : Sys β) (i : Nat) : Sys β :=
  match s.proc i with
  | .write p bytes ow =>
    -- `if (!overwrite and exists(filename)) throw …` (FileIO.h:28, 47)
    if !ow && (s.fs p).isSome then { s with proc := upd s.proc i .threw } else { s with proc := upd s.proc i (.opening p bytes) }
  | .opening p bytes =>
    -- `std::ofstream out(filename)`: the file is created or emptied (FileIO.h:29, 48)
    { fs := upd s.fs p (some []), proc := upd s.proc i (.writing p bytes 0) }
  | .writing p (x :: rest) pos => { fs := upd s.fs p (some (putAt ((s.fs p).getD []) pos x)), proc := upd s.proc i (.writing p rest (pos + 1)) }
  | .writing _ [] _ => { s with proc := upd s.proc i .wrote }
  | .read p =>
    -- `if (!exists(filename)) throw …` (FileIO.h:18, 37)
    if (s.fs p).isSome then { s with proc := upd s.proc i (.reading p) } else { s with proc := upd s.proc i .threw }
  | .reading p => { s with proc := upd s.proc i (.got ((s.fs p).getD [])) }
  | _ => s

/-- What happens: a program makes a call, makes a step, or is stopped. -/
inductive Event (β : Type) where
  | begin (i : Nat) (call : Proc β)
  | step (i : Nat)
  | stop (i : Nat)

/-- A program that is in the middle of a call does not begin another one. -/
def Proc.busy : Proc β → Bool
  | .idle | .wrote | .got _ | .threw => false
  | _ => true

/-- A call begins with `write` or `read`. -/
def Proc.isCall : Proc β → Bool
  | .write _ _ _ | .read _ => true
  | _ => false

def Sys.event [Inhabited β] (s : Sys β) : Event β → Sys β
  | .begin i c => if (s.proc i).busy || !c.isCall then s else { s with proc := upd s.proc i c }
  | .step i => s.step i
  | .stop i => { s with proc := upd s.proc i .idle }

/-- A schedule. -/
def Sys.run [Inhabited β] (s : Sys β) (es : List (Event β)) : Sys β := es.foldl Sys.event s

/-! ### One program -/

/-- `n` steps of program 0. -/
def Sys.steps [Inhabited β] (s : Sys β) (n : Nat) : Sys β := s.run (List.replicate n (.step 0))

/-- What the caller sees: the archive decodes what was read or throws (FileIO.h:20-21, 39-40). -/
def Proc.outcome {T : Type} (dec : List β → Option T) : Proc β → End T
  | .wrote => .saved
  | .got b =>
    match dec b with
    | some x => .loaded x
    | none => .reported
  | .threw => .reported
  | _ => .stopped

/-- The call as the program makes it. -/
def Call.begin {T : Type} (enc : T → List β) : Call T → Proc β
  | .save p x ow => .write p (enc x) ow
  | .load p => .read p

/-- A call by program 0 that is stopped after `n` small steps (or has ended before); the program is gone, or idle, afterwards. -/
def Sys.call [Inhabited β] {T : Type} (enc : T → List β) (dec : List β → Option T) (s : Sys β) (c : Call T) (n : Nat) : Sys β × End T :=
  let s' := (s.event (.begin 0 (c.begin enc))).steps n
  (s'.event (.stop 0), (s'.proc 0).outcome dec)

/-- The number of small steps after which every call has ended. -/
def Call.length {T : Type} (enc : T → List β) : Call T → Nat
  | .save _ x _ => (enc x).length + 3
  | .load _ => 2

/-- Calls of one program, each stopped after a number of small steps or not (`none`: it runs until the call has ended); how the calls that were not stopped ended, and the state afterwards. -/
def Sys.history [Inhabited β] {T : Type} (enc : T → List β) (dec : List β → Option T) : Sys β → List (Call T × Option Nat) → List (End T) × Sys β
  | s, [] => ([], s)
  | s, (c, none) :: h =>
    let r := s.call enc dec c (c.length enc)
    let t := Sys.history enc dec r.1 h
    (r.2 :: t.1, t.2)
  | s, (c, some n) :: h => Sys.history enc dec (s.call enc dec c n).1 h

end BB.Saved
