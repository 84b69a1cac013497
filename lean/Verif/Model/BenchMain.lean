import Verif.Model.Bench
import Verif.Model.Files

/-!
# The whole benchmark program

src/Benchmark/benchmark.cpp, from the settings to the exit status.  Simplifications: the settings are given by the values
they parse to; the text of the table is left out (`Table`), the lines are those of `Bench`; files are modelled as in `Files`,
and those the program writes are put on the disk when the loops are over (all matrices are read before the first one is written).
-/
namespace BB.BenchMain

open Bench (With Routines Action)
open Files (Disk)

variable {R F : Type}

/-- An entry of a matrix set (MatrixProvider.cpp:19-45); a file by the name of its description. -/
inductive Entry (R : Type) where
  | band (dims bands : List Nat) (value : R)
  | equalTo (source : String)
  | file (path : String)
  | unknown (type : String)

/-- A file is read by the constructor of dense matrices (MatrixProvider.cpp:40-42). -/
def Entry.leaf (d : Disk R) : Entry R → Provider.Leaf R
  | .band dims bands value => .diagonalBand dims bands value
  | .equalTo source => .equalTo source
  | .file path => .file (Files.ofFile d path)
  | .unknown type => .unknown type

/-- The configuration of the matrix sets with the files on the disk `d`. -/
def resolve (d : Disk R) (tree : List (String × List (Entry R))) : List (String × List (Provider.Leaf R)) :=
  tree.map fun (n, es) => (n, es.map (Entry.leaf d))

/-- The settings (benchmark.cpp:23-27, 38-41): names of the actions, matrix sets, whether differences are written. -/
structure Config (R : Type) where
  actions : List String
  matrices : List (String × List (Entry R))
  writeDiff : Bool

/-- `std::string("diff_") + std::to_string(i) + ".dat"` (benchmark.cpp:112). -/
def diffName (i : Nat) : String := "diff_" ++ toString i ++ ".dat"

/-- Opening, truncating and writing a file (benchmark.cpp:112-113): the elements of `b`; nothing if the file cannot be opened. -/
def store (d : Disk R) (p : String) (b : Buf R) : Disk R :=
  match Files.dump b 0 b.length with
  | .ok l => if d.writable p then { d with bin := fun q => if q = p then some l else d.bin q } else d
  | .error _ => d

/-- The files of the first `n` pairs of matrices. -/
def storeAll (files : Nat → Option (Buf R)) (d : Disk R) : Nat → Disk R
  | 0 => d
  | n + 1 =>
    match files n with
    | some b => store (storeAll files d n) (diffName n) b
    | none => storeAll files d n

/-- What is left of a run: the files, the lines of the table and the exit status. -/
structure Left where
  disk : Disk ℝ
  rows : List Bench.Row
  exit : Res Nat

/-- The exit status: exceptions are caught (benchmark.cpp:122-134). -/
def status : Res Unit → Res Nat
  | .ok () => .ok 0
  | .error (.throw _) => .ok 1
  | .error e => .error e

/-- `main` (benchmark.cpp:29-138).  The matrices are read while the settings are built (60), before the head of the table (63-71). -/
noncomputable def main [Zero F] [One F] (asserts : Bool) (w : With) (rt : Routines ℝ F) (block : Action ℝ) (reps : Nat) (c : Config ℝ) (d : Disk ℝ) : Left :=
  match Provider.provider asserts (resolve d c.matrices) with
  | .error e => ⟨d, [], status (.error e)⟩
  | .ok sets =>
    let (o, r) := Bench.run c.writeDiff (Bench.provide w rt block reps c.actions) sets ⟨[], fun _ => none⟩
    ⟨storeAll o.files d (sets.at' "A").length, o.rows, status r⟩

end BB.BenchMain
