import Verif.Model.Interrupted
import Verif.Model.BenchMain

/-!
# The benchmark program, stopped while it writes differences

src/Benchmark/benchmark.cpp:83-116 with `--diff`: the differences in the order in which they are written, and the small steps that
write them (opening, and one step per element, as in `Interrupted`).

Simplifications: those of `Interrupted` and `BenchMain`; the stream of a difference is closed before the next action is run (114), so
what the stream holds back is written before the next file is opened.
-/
namespace BB.Interrupted

open Bench (With Routines Action Out)

/-- The differences the loop over the other actions writes (benchmark.cpp:96-115), in order: `compare` puts them into the file `i`.  What follows
a failure is not run. -/
noncomputable def othersDiffs (writeDiff : Bool) (i : Nat) (A B refC : Dense ℝ) : List (Action ℝ) → Out → List (Nat × Buf ℝ)
  | [], _ => []
  | a :: as, o =>
    match Bench.compare writeDiff i A B refC a o with
    | .error _ => []
    | .ok o' => (if writeDiff then (o'.files i).toList.map (i, ·) else []) ++ othersDiffs writeDiff i A B refC as o'

/-- The differences of the matrices from number `i` on (benchmark.cpp:83-116). -/
noncomputable def matricesDiffs (writeDiff : Bool) (a : Action ℝ) (as : List (Action ℝ)) : Nat → List (Dense ℝ) → List (Dense ℝ) → Out → List (Nat × Buf ℝ)
  | i, A :: la, B :: lb, o =>
    match a.execute A B with
    | .error _ => []
    | .ok refC =>
      let o' := { o with rows := o.rows ++ [⟨i, a.name, 0, 0⟩] }
      othersDiffs writeDiff i A B refC as o' ++
        match Bench.others writeDiff i A B refC as o' with
        | (o'', .ok ()) => matricesDiffs writeDiff a as (i + 1) la lb o''
        | (_, .error _) => []
  | _, _, _, _ => []

/-- The differences a run of the program writes (benchmark.cpp:60, 76-116). -/
noncomputable def benchDiffs {F : Type} [Zero F] [One F] (asserts : Bool) (w : With) (rt : Routines ℝ F) (block : Action ℝ) (reps : Nat) (c : BenchMain.Config ℝ)
    (d : Files.Disk ℝ) : List (Nat × Buf ℝ) :=
  match Provider.provider asserts (BenchMain.resolve d c.matrices) with
  | .error _ => []
  | .ok sets =>
    match sets.get "A", sets.get "B", Bench.provide w rt block reps c.actions with
    | .ok la, .ok lb, a :: as => if la.length = 0 ∨ la.length ≠ lb.length then [] else matricesDiffs c.writeDiff a as 0 la lb ⟨[], fun _ => none⟩
    | _, _, _ => []

/-- Writing one difference (benchmark.cpp:112-113). -/
def diffSteps (x : Nat × Buf ℝ) : List (Effect ℝ) :=
  match Files.dump x.2 0 x.2.length with
  | .ok l => save (BenchMain.diffName x.1) l
  | .error _ => []

/-- The files when the benchmark program is stopped after `k` steps. -/
noncomputable def benchStopped {F : Type} [Zero F] [One F] (asserts : Bool) (w : With) (rt : Routines ℝ F) (block : Action ℝ) (reps : Nat) (c : BenchMain.Config ℝ)
    (d : Files.Disk ℝ) (k : Nat) : Files.Disk ℝ :=
  { d with bin := after d.writable [] (fun l v => l ++ [v]) ((benchDiffs asserts w rt block reps c d).flatMap diffSteps) k d.bin }

end BB.Interrupted
