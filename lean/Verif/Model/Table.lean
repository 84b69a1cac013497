import Verif.Model.Tracker
import Verif.Model.Bench

/-!
# The text of the tables

src/Benchmark/benchmark.cpp:64-119, time.h, time.cpp, ActionBase.h:26-30, include/BlasBooster/Utilities/Tracker.h:82-100: what the
benchmark program writes to `std::cout`, with the state of the stream.  How a floating-point number is written is a
parameter (`Fmt`); texts are lists of characters.  `std::flush` and `std::endl` differ only in the newline.
-/

namespace BB.Table

variable {R : Type}

/-- `std::ios_base::floatfield`. -/
inductive FloatField where
  | general | scientific | fixed
  deriving DecidableEq, Repr

/-- How the standard library writes a floating-point number for a given format and precision. -/
abbrev Fmt (R : Type) := FloatField → Int → R → List Char

/-- An output stream: what was written, the adjustment, the format, the precision, the width for the next output and the word
of `duration_accuracy` (time.h:34-37: a new word is 0). -/
structure Stream where
  out : List Char
  left : Bool
  field : FloatField
  prec : Int
  width : Nat
  acc : Int

/-- `std::cout` at the beginning of the program. -/
def Stream.init : Stream := ⟨[], false, .general, 6, 0, 0⟩

/-- Formatted output of a text: filled with blanks up to the width, which is then reset to 0. -/
def Stream.put (s : Stream) (t : List Char) : Stream :=
  { s with
    out := s.out ++ (if s.left then t ++ List.replicate (s.width - t.length) ' ' else List.replicate (s.width - t.length) ' ' ++ t)
    width := 0 }

/-- `std::setw(n)`. -/
def Stream.setw (s : Stream) (n : Nat) : Stream := { s with width := n }

/-- `std::left`. -/
def Stream.setLeft (s : Stream) : Stream := { s with left := true }

/-- `os << x` for a floating-point number. -/
def Stream.num (F : Fmt R) (s : Stream) (x : R) : Stream := s.put (F s.field s.prec x)

/-- Decimal digits of an unsigned number. -/
def digits (n : Nat) : List Char := Nat.toDigits 10 n

/-- `os << set_duration_accuracy(digits)` (time.cpp:5-9). -/
def Stream.accuracy (s : Stream) (d : Int) : Stream := { s with acc := d }

/-- `os << duration` (time.cpp:11-19): the flags are saved and restored, the precision is not.  `x` is the time in seconds. -/
def Stream.duration (F : Fmt R) (s : Stream) (x : R) : Stream :=
  let f := (s.left, s.field)
  let s := { s with field := .fixed, prec := s.acc }
  let s := s.num F x
  { s with left := f.1, field := f.2 }

/-- `os << details` (ActionBase.h:26-30). -/
def Stream.details (F : Fmt R) : List (List Char × R) → Stream → Stream
  | [], s => s
  | (n, t) :: ds, s => Stream.details F ds ((((s.put n).put ": ".toList).duration F t).put " s ".toList)

/-- benchmark.cpp:64-73. -/
def header (d : Int) (s : Stream) : Stream :=
  let s := { s with field := .scientific }
  let s := (s.accuracy d).put "\n".toList
  let s := (s.setw 10).setLeft.put "matrix".toList
  let s := (s.setw 30).setLeft.put "name".toList
  let s := (s.setw 15).put "time/s".toList
  let s := (s.setw 15).put "max-norm".toList
  let s := (s.setw 15).put "2-norm".toList
  let s := s.put "details\n".toList
  (s.put (List.replicate 120 '-')).put ['\n']

/-- What an action returned, as far as it is printed: the time, the two norms, the details. -/
structure Result (R : Type) where
  time : R
  max : R
  two : R
  details : List (List Char × R)

/-- The beginning of a line, written before the action is executed (benchmark.cpp:85-86, 98-99). -/
def begin (i : Nat) (name : List Char) (s : Stream) : Stream :=
  (((s.setw 10).setLeft.put (digits i)).setw 30).setLeft.put name

/-- The rest of the line of the first action (benchmark.cpp:90-94). -/
def finishFirst [Zero R] (F : Fmt R) (r : Result R) (s : Stream) : Stream :=
  let s := (s.setw 15).duration F r.time
  let s := (s.setw 15).num F 0
  let s := (s.setw 15).num F 0
  (Stream.details F r.details s).put ['\n']

/-- The rest of the line of another action (benchmark.cpp:104-109). -/
def finish (F : Fmt R) (d : Int) (r : Result R) (s : Stream) : Stream :=
  let s := s.accuracy d
  let s := (s.setw 15).duration F r.time
  let s := (s.setw 15).num F r.max
  let s := (s.setw 15).num F r.two
  (Stream.details F r.details s).put ['\n']

/-- The actions after the first for one pair of matrices (benchmark.cpp:96-110); `none`: the action throws.  The second
component is false if the loop was left by an exception. -/
def others (F : Fmt R) (d : Int) (i : Nat) : List (List Char × Option (Result R)) → Stream → Stream × Bool
  | [], s => (s, true)
  | (name, none) :: _, s => (begin i name s, false)
  | (name, some r) :: as, s => others F d i as (finish F d r (begin i name s))

/-- All actions for one pair of matrices (benchmark.cpp:85-116). -/
def actions [Zero R] (F : Fmt R) (d : Int) (i : Nat) : List (List Char × Option (Result R)) → Stream → Stream × Bool
  | [], s => (s, true)
  | (name, none) :: _, s => (begin i name s, false)
  | (name, some r) :: as, s => others F d i as (finishFirst F r (begin i name s))

/-- The loop over the pairs of matrices (benchmark.cpp:83-116). -/
def matrices [Zero R] (F : Fmt R) (d : Int) : Nat → List (List (List Char × Option (Result R))) → Stream → Stream × Bool
  | _, [], s => (s, true)
  | i, as :: ms, s =>
    match actions F d i as s with
    | (s, true) => matrices F d (i + 1) ms s
    | (s, false) => (s, false)

/-- The table and what follows it: the catch block for standard exceptions (benchmark.cpp:127-130) or the last line (137). -/
def program [Zero R] (F : Fmt R) (d : Int) (what : List Char) (ms : List (List (List Char × Option (Result R)))) (s : Stream) : Stream :=
  match matrices F d 0 ms (header d s) with
  | (s, true) => (s.put "\n BlasBooster successfully finished. Have a nice day.\n".toList).put ['\n']
  | (s, false) => ((((s.put "Standard exception: ".toList).put what).put ['\n']).put "Program was aborted.".toList).put ['\n']

/-- An integer: a minus sign before the digits of a negative number. -/
def intText (n : Int) : List Char := if n < 0 then '-' :: digits n.natAbs else digits n.natAbs

/-- The rows of `TrackerRegister::print` (Tracker.h:92-98): name, count and time in nanoseconds of the operations with a count
other than 0 (`Tracker.report`). -/
def trackerRows : List (String × Nat × Int) → Stream → Stream
  | [], s => s
  | (name, count, time) :: rows, s =>
    let s := (s.setw 20).put name.toList
    let s := (s.setw 10).put (digits count)
    let s := (s.put (intText time)).put " ns".toList
    trackerRows rows (s.put ['\n'])

/-- `TrackerRegister::print` (Tracker.h:83-100). -/
def tracker (b : Build) (r : Tracker.Reg) (s : Stream) : Res Stream := do
  let s := s.put "\n".toList
  let s := (s.setw 20).put "tracker".toList
  let s := (s.setw 10).put "count".toList
  let s := s.put "time\n".toList
  let s := (s.put (List.replicate 60 '-')).put ['\n']
  return trackerRows (← Tracker.report b r) s

end BB.Table
