import Verif.Model.Saved
import Verif.Model.Interrupted

/-!
# Programs that write files at the same time

src/Benchmark/generate_matrix.cpp:43-64 as a program among others: it computes its matrix, opens its file and writes it element by element,
and other programs run between any two of these steps.

Simplifications: those of `Interrupted` and `Saved`; all files can be opened; elements are written as a whole; a gap in a file is filled with
the value whose bytes are 0.
-/
namespace BB.Together

open Saved (Proc Sys)

variable {R : Type}

/-- A generate_matrix when it has computed its matrix (generate_matrix.cpp:43-62): it opens its file next, or has ended with an exception or
undefined behaviour. -/
def generator [Zero R] [Add R] (asserts : Bool) (x y : R) (o : Files.Options R) : Proc R :=
  match Files.matrixOf asserts x y o with
  | .error _ => .threw
  | .ok A =>
    match Files.dump A.data 0 A.dim.fullSize with
    | .error _ => .idle
    | .ok l => .opening o.file l

/-- Programs that are started with the options `os` on the files `w`. -/
def start [Zero R] [Add R] (asserts : Bool) (x y : R) (os : List (Files.Options R)) (w : Files.Disk R) : Sys R :=
  ⟨w.bin, fun i => match os[i]? with
    | some o => generator asserts x y o
    | none => .idle⟩

/-- The state after the schedule `es`: the program `i` makes its next step whenever `i` occurs in it. -/
def run [Inhabited R] (s : Sys R) (es : List Nat) : Sys R := es.foldl Sys.step s

/-- The programs one after the other. -/
def sequential [Zero R] [Add R] (asserts : Bool) (x y : R) (os : List (Files.Options R)) (w : Files.Disk R) : Files.Disk R :=
  os.foldl (fun w o => (Files.main asserts x y o w).1) w

end BB.Together
