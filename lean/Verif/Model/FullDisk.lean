import Verif.Model.InterruptedBench

/-!
# Programs on a disk that is full

src/Benchmark/generate_matrix.cpp:63-64, include/BlasBooster/Core/PatternGenerator.h:47-106 and src/Benchmark/benchmark.cpp:112-113: the programs never ask for the state of their
streams, so a write that fails is not noticed.  `room`: the elements or characters a file can grow to.

Simplifications: those of `Interrupted` and `BenchMain`; the room is the same for all files a program writes; the elements of matrix files fit as a whole
or not at all.
-/
namespace BB.FullDisk

variable {R : Type}

/-- `main` of generate_matrix (generate_matrix.cpp:43-82): what does not fit is dropped (64), the exit status does not depend on it. -/
def generator [Zero R] [Add R] (room : Nat) (asserts : Bool) (x y : R) (o : Files.Options R) (w : Files.Disk R) : Files.Disk R × Res Nat :=
  match Files.matrixOf asserts x y o with
  | .error (.throw _) => (w, .ok 1)
  | .error e => (w, .error e)
  | .ok A =>
    match Files.dump A.data 0 A.dim.fullSize with
    | .error e => (w, .error e)
    | .ok l => (if w.writable o.file then { w with bin := fun p => if p = o.file then some (l.take room) else w.bin p } else w, .ok 0)

/-- `main` of show_pattern (show_pattern.cpp:30-150; PatternGenerator.h:47-106): what does not fit is dropped. -/
def pattern [Field R] [LinearOrder R] (room : Nat) (b : Build) (rnd ex : R → R) (sort : List R → List Nat) (pow : Nat → R) (S : Show.Settings R) (o : Show.Options)
    (w : Files.Disk R) (text : String → Option String) : (String → Option String) × Res Nat :=
  match Show.patternText b rnd ex sort pow S o w with
  | .error (.throw _) => (text, .ok 1)
  | .error e => (text, .error e)
  | .ok l =>
    (if w.writable o.patternFile then fun p => if p = o.patternFile then some (String.ofList ((String.join l).toList.take room)) else text p else text, .ok 0)

/-- Writing a difference (benchmark.cpp:112-113): what does not fit is dropped. -/
def store (room : Nat) (d : Files.Disk R) (p : String) (b : Buf R) : Files.Disk R :=
  match Files.dump b 0 b.length with
  | .ok l => if d.writable p then { d with bin := fun q => if q = p then some (l.take room) else d.bin q } else d
  | .error _ => d

/-- The files of the first `n` pairs of matrices (benchmark.cpp:83-116). -/
def storeAll (room : Nat) (files : Nat → Option (Buf R)) (d : Files.Disk R) : Nat → Files.Disk R
  | 0 => d
  | n + 1 =>
    match files n with
    | some b => store room (storeAll room files d n) (BenchMain.diffName n) b
    | none => storeAll room files d n

/-- `main` of the benchmark program (benchmark.cpp:29-138). -/
noncomputable def benchmark {F : Type} [Zero F] [One F] (room : Nat) (asserts : Bool) (w : Bench.With) (rt : Bench.Routines ℝ F) (block : Bench.Action ℝ) (reps : Nat)
    (c : BenchMain.Config ℝ) (d : Files.Disk ℝ) : BenchMain.Left :=
  match Provider.provider asserts (BenchMain.resolve d c.matrices) with
  | .error e => ⟨d, [], BenchMain.status (.error e)⟩
  | .ok sets =>
    let (o, r) := Bench.run c.writeDiff (Bench.provide w rt block reps c.actions) sets ⟨[], fun _ => none⟩
    ⟨storeAll room o.files d (sets.at' "A").length, o.rows, BenchMain.status r⟩

end BB.FullDisk
