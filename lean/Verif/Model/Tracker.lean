import Verif.Model.Mat

/-!
# Enum parser and call tracker

include/BlasBooster/Utilities/EnumParser.h, Tracker.h (with `BLASBOOSTER_USE_TRACKER`), src/Utilities/tracker.cpp.
-/

namespace BB

/-! ### EnumParser.h -/

/-- `EnumParser<T>`: the two maps (EnumParser.h:18-19, 51-52); a `std::map` is the partial function it represents. -/
structure EnumParser (T : Type) where
  toEnum : String → Option T
  toName : T → Option String

namespace EnumParser

variable {T : Type}

/-- Default constructor (EnumParser.h:23). -/
def empty : EnumParser T := ⟨fun _ => none, fun _ => none⟩

/-- `map(s, e)` (EnumParser.h:41-45): `operator[]` inserts or overwrites in both maps. -/
def map [DecidableEq T] (P : EnumParser T) (s : String) (e : T) : EnumParser T :=
  ⟨fun s' => if s' = s then some e else P.toEnum s', fun e' => if e' = e then some s else P.toName e'⟩

/-- A constructor that registers a list of pairs one after the other (e.g. Tracker.h:45-72). -/
def register [DecidableEq T] (l : List (String × T)) : EnumParser T := l.foldl (fun P x => P.map x.1 x.2) empty

/-- What follows a failed `find`: the assertion, or without assertions the dereferencing of `end()`. -/
def notFound {α : Type} : Build → Res α
  | .release => .error .ub
  | _ => .error .assertFail

/-- `operator()(std::string)` (EnumParser.h:25-30). -/
def parse (b : Build) (P : EnumParser T) (s : String) : Res T :=
  match P.toEnum s with
  | some e => .ok e
  | none => notFound b

/-- `operator()(T)` (EnumParser.h:32-37). -/
def name (b : Build) (P : EnumParser T) (e : T) : Res String :=
  match P.toName e with
  | some s => .ok s
  | none => notFound b

end EnumParser

/-! ### Tracker.h -/

namespace Tracker

/-- `static_cast<size_t>(TrackerID::size)` (Tracker.h:13-40): number of tracked operations. -/
def nbIds : Nat := 25

/-- A `TrackerID` other than `size`, by its value. -/
abbrev Id := Fin nbIds

/-- The names in the order of the enumeration (Tracker.h:14-38). -/
def idNames : List String :=
  ["OpenBLAS_dgemm", "OpenBLAS_sgemm", "IntelMKL_dgemm", "IntelMKL_sgemm", "IntelMKL_dcsrmm", "IntelMKL_scsrmm",
   "IntelMKL_dcsrmultcsr", "IntelMKL_scsrmultcsr", "Eigen_dgemm", "Eigen_sgemm", "Eigen_sdgemm", "Eigen_dsgemm",
   "Blaze_dgemm", "Blaze_sgemm", "Blaze_sdgemm", "Blaze_dsgemm", "Native_GeneralDense", "Native_sparse",
   "Native_sparse_dense", "Native_dense_sparse", "Native_matrix_zero", "Native_zero_matrix", "Native_zero_zero",
   "get_detection_arrays", "get_block_size"]

/-- `EnumParser<TrackerID>()` (Tracker.h:45-72): every enumerator is registered under its own name. -/
def parser : EnumParser Id := EnumParser.register (List.zip idNames (List.finRange nbIds))

/-- `TrackerRegister` (Tracker.h:105-106, tracker.cpp:6-7): the two static arrays, zero-initialised. -/
structure Reg where
  time : List Int
  count : List Nat
  deriving DecidableEq, Repr

def Reg.init : Reg := ⟨List.replicate nbIds 0, List.replicate nbIds 0⟩

/-- `add(id, duration)` (Tracker.h:76-80): `count` is a `size_t` and wraps.  Simplification: the 64-bit sum of durations
does not overflow. -/
def Reg.add (r : Reg) (id : Id) (d : Int) : Reg :=
  ⟨r.time.modify id (· + d), r.count.modify id (fun n => (n + 1) % sizeMod)⟩

/-- What happens in a program, as far as the tracker sees it: a tracked function is entered (`Tracker<ID>` constructed,
Tracker.h:112) or left (destroyed, 114-118) at a clock reading.  Scopes of one thread are nested, so the object
destroyed is the one constructed last. -/
inductive Event where
  | enter (id : Id) (now : Int)
  | leave (now : Int)
  deriving DecidableEq, Repr

/-- Live `Tracker` objects (innermost first) and the register. -/
structure State where
  stack : List (Id × Int)
  reg : Reg
  deriving DecidableEq, Repr

def State.init : State := ⟨[], Reg.init⟩

/-- One event; leaving a scope that was not entered cannot happen in C++. -/
def step (s : State) : Event → Res State
  | .enter id now => .ok { s with stack := (id, now) :: s.stack }
  | .leave now =>
    match s.stack with
    | (id, start) :: rest => .ok ⟨rest, s.reg.add id (now - start)⟩
    | [] => .error .ub

def run : State → List Event → Res State
  | s, [] => .ok s
  | s, e :: es => do run (← step s e) es

/-- The rows printed by `TrackerRegister::print` (Tracker.h:82-103): name, count and time of every operation whose count
is not zero.  Heading and padding: Model/Table.lean. -/
def report (b : Build) (r : Reg) : Res (List (String × Nat × Int)) :=
  (List.finRange nbIds).foldlM (fun acc (id : Id) =>
    if r.count.getD id 0 = 0 then .ok acc
    else do
      let n ← parser.name b id
      return acc ++ [(n, r.count.getD id 0, r.time.getD id 0)]) []

end Tracker

end BB
