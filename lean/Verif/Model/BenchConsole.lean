import Verif.Model.BenchMain
import Verif.Model.Table

/-!
# The terminal of the benchmark program

src/Benchmark/benchmark.cpp:29-138, the whole of `main` with the command line and what is written to `std::cout` and `std::cerr`: the loops
of `BenchMain` interleaved with the output of `Table`.  Parameters: what the command line parser (clara) makes of the arguments and its
usage text, how floating-point numbers are written, the clock, the words of exceptions (the kind, benchmark.cpp:122-134, and `what()`).
The tracker (118-120) is not compiled in.
-/
namespace BB.BenchConsole

open Bench (With Routines Action)
open Files (Disk)
open Table (Stream Fmt)

variable {F : Type}

/-- The result of `cli.parse` (benchmark.cpp:40-45): rejected arguments, a request for help, or a run with a number of digits. -/
inductive Command where
  | wrong (message : List Char)
  | help
  | run (digits : Int)

/-- What the program is given by its surroundings: texts, format of numbers, duration and details of the `n`-th execution of an action. -/
structure Env where
  version : List Char
  usage : List Char
  fmt : Fmt ℝ
  clock : Nat → ℝ × List (List Char × ℝ)
  words : String → List Char

/-- The loops' state: the stream, and what `Bench` keeps. -/
structure State where
  cout : Stream
  out : Bench.Out

/-- benchmark.cpp:98-114: the beginning of the line, the action and its difference to the first, the rest of the line, the file.  The
norms are calculated between the parts of the line (106-107); they do not fail (`C35_dense`). -/
noncomputable def other (E : Env) (d : Int) (writeDiff : Bool) (i : Nat) (A B refC : Dense ℝ) (a : Action ℝ) (s : State) : State × Res Unit :=
  let cout := Table.begin i a.name.toList s.cout
  match (do
    let C ← a.execute A B
    let diff ← Dense.binop (· - ·) C refC (Dense.empty .col)
    let x ← (SMat.dense diff).norm .max
    let y ← (SMat.dense diff).norm .two
    return (diff, x, y)) with
  | .error e => (⟨cout, s.out⟩, .error e)
  | .ok (diff, x, y) =>
    let c := E.clock s.out.rows.length
    (⟨Table.finish E.fmt d ⟨c.1, x, y, c.2⟩ cout,
      ⟨s.out.rows ++ [⟨i, a.name, x, y⟩], if writeDiff then fun k => if k = i then some diff.data else s.out.files k else s.out.files⟩⟩, .ok ())

/-- The loop over the other actions (benchmark.cpp:96-115). -/
noncomputable def others (E : Env) (d : Int) (writeDiff : Bool) (i : Nat) (A B refC : Dense ℝ) : List (Action ℝ) → State → State × Res Unit
  | [], s => (s, .ok ())
  | a :: as, s =>
    match other E d writeDiff i A B refC a s with
    | (s, .ok ()) => others E d writeDiff i A B refC as s
    | (s, .error e) => (s, .error e)

/-- benchmark.cpp:85-115: the line of the first action, then the others. -/
noncomputable def pair (E : Env) (d : Int) (writeDiff : Bool) (a : Action ℝ) (as : List (Action ℝ)) (i : Nat) (A B : Dense ℝ) (s : State) : State × Res Unit :=
  let cout := Table.begin i a.name.toList s.cout
  match a.execute A B with
  | .error e => (⟨cout, s.out⟩, .error e)
  | .ok refC =>
    let c := E.clock s.out.rows.length
    others E d writeDiff i A B refC as
      ⟨Table.finishFirst E.fmt ⟨c.1, 0, 0, c.2⟩ cout, { s.out with rows := s.out.rows ++ [⟨i, a.name, 0, 0⟩] }⟩

/-- The loop over the pairs of matrices (benchmark.cpp:83-116). -/
noncomputable def pairs (E : Env) (d : Int) (writeDiff : Bool) (a : Action ℝ) (as : List (Action ℝ)) :
    Nat → List (Dense ℝ) → List (Dense ℝ) → State → State × Res Unit
  | i, A :: la, B :: lb, s =>
    match pair E d writeDiff a as i A B s with
    | (s, .ok ()) => pairs E d writeDiff a as (i + 1) la lb s
    | (s, .error e) => (s, .error e)
  | _, _, _, s => (s, .ok ())

/-- benchmark.cpp:75-116. -/
noncomputable def loops (E : Env) (d : Int) (writeDiff : Bool) (actions : List (Action ℝ)) (sets : Provider.Sets ℝ) (s : State) : State × Res Unit :=
  match sets.get "A" with
  | .error e => (s, .error e)
  | .ok la =>
    match sets.get "B" with
    | .error e => (s, .error e)
    | .ok lb =>
      if la.length = 0 then (s, .error (.throw "No matrices defined"))
      else if la.length ≠ lb.length then (s, .error (.throw "Number of matrices A and B not equal"))
      else match actions with
        | [] => (s, .error (.throw "No actions defined"))
        | a :: as => pairs E d writeDiff a as 0 la lb s

/-- What is left of a run: standard output, standard error, the files, the exit status. -/
structure Left where
  out : List Char
  err : List Char
  disk : Disk ℝ
  exit : Res Nat

/-- The catch blocks and the last line (benchmark.cpp:122-137).  After undefined behaviour nothing is known. -/
def finally' (E : Env) (s : Stream) : Res Unit → List Char × Res Nat
  | .ok () => (((s.put "\n BlasBooster successfully finished. Have a nice day.\n".toList).put ['\n']).out, .ok 0)
  | .error (.throw m) => ((((s.put (E.words m)).put ['\n']).put "Program was aborted.".toList).put ['\n'] |>.out, .ok 1)
  | .error e => (s.out, .error e)

/-- `main` (benchmark.cpp:29-138). -/
noncomputable def main [Zero F] [One F] (E : Env) (asserts : Bool) (w : With) (rt : Routines ℝ F) (block : Action ℝ) (reps : Nat) (cmd : Command)
    (c : BenchMain.Config ℝ) (d : Disk ℝ) : Left :=
  let hello := (Stream.init.put ("\nBlasBooster ".toList ++ E.version ++ " Benchmark\n".toList)).put ['\n']
  match cmd with
  | .wrong m => ⟨hello.out, E.usage ++ "\nError in command line: ".toList ++ m ++ "\n".toList, d, .ok 1⟩
  | .help => ⟨hello.out, E.usage ++ "\n".toList, d, .ok 0⟩
  | .run n =>
    match Provider.provider asserts (BenchMain.resolve d c.matrices) with
    | .error e =>
      let (out, exit) := finally' E hello (.error e)
      ⟨out, [], d, exit⟩
    | .ok sets =>
      let (s, r) := loops E n c.writeDiff (Bench.provide w rt block reps c.actions) sets ⟨Table.header n hello, ⟨[], fun _ => none⟩⟩
      let (out, exit) := finally' E s.cout r
      ⟨out, [], BenchMain.storeAll s.out.files d (sets.at' "A").length, exit⟩

end BB.BenchConsole
