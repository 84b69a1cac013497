import Verif.Model.Show
import Verif.Model.Print

/-!
# The terminals of show_pattern and generate_matrix

src/Benchmark/show_pattern.cpp:30-150, src/Benchmark/generate_matrix.cpp:10-82, include/BlasBooster/Utilities/ScopedTimer.h: the whole of
`main` with what is written to `std::cout` and `std::cerr`.  Parameters: what the command line parser (clara) makes of the arguments and its usage
text, the elapsed time as it is written (ScopedTimer.h:23-28: `std::fixed` and six digits, whatever the state of the stream), the words of
exceptions (the kind and `what()`).
-/
namespace BB.ShowConsole

variable {R : Type}

/-- The result of `cli.parse` (show_pattern.cpp:51-62, generate_matrix.cpp:32-41). -/
inductive Command where
  | wrong (message : List Char)
  | help
  | run

/-- What a program is given by its surroundings. -/
structure Env where
  version : List Char
  usage : List Char
  elapsed : List Char
  words : String → List Char

/-- What is left of a run: standard output, standard error, the files, the exit status. -/
structure Left (W : Type) where
  out : List Char
  err : List Char
  files : W
  exit : Res Nat

/-- A new stream. -/
def start : Print.Stream := ⟨[], false, 6, false⟩

/-- Numbers of types, written as decimal numbers. -/
def numbers : Print.Format Nat := Print.Format.number (fun _ _ n => Print.digits n)

/-- show_pattern.cpp:88-89. -/
def tables (T : Dense Nat) (D : Dense (Nat × Nat)) (s : Print.Stream) : Res Print.Stream := do
  let s ← Print.dense numbers "Matrix<Dense,int>".toList T.view T.data (s.text "type matrix: ".toList)
  let s := s.text ['\n']
  let s ← Print.dense Print.Format.dim "Matrix<Dense,Dimension>".toList D.view D.data (s.text "dimension matrix: ".toList)
  return s.text ['\n']

/-- show_pattern.cpp:82-86. -/
def found [Field R] [LinearOrder R] (b : Build) (rnd ex : R → R) (sort : List R → List Nat) (S : Show.Settings R) (A : Dense R) :
    Res (Dense Nat × Dense (Nat × Nat)) := do
  let (mn, mx) ← BlockSizeGenerator.mk? S.minBlock S.maxBlock
  let (rs, cs) ← blockSizes ex sort mn mx A
  let B ← Show.typedBlocks b rnd S.threshold A rs cs
  let T ← Info.typeMatrix typeList B.grid
  let D ← Info.dimMatrix b typeList (fun _ (M : Mat R) => (M.rows, M.cols)) B.grid
  return (T, D)

/-- show_pattern.cpp:64-132: the stream, and what is written to the pattern file.  `set`: the settings file, if it can be read (67-72). -/
def body [Field R] [LinearOrder R] (b : Build) (rnd ex : R → R) (sort : List R → List Nat) (pow : Nat → R) (set : Option (Show.Settings R))
    (o : Show.Options) (w : Files.Disk R) (s : Print.Stream) : Print.Stream × Res (List String) :=
  let s := (s.text ("matrix_file: ".toList ++ o.matrixFile.toList)).text ['\n']
  match Files.ofFile w o.matrixFile with
  | .error e => (s, .error e)
  | .ok A =>
    match set with
    | none => (s, .error (.throw "settings"))
    | some S =>
      if o.patternType = "elements" then (s, S.pattern.generate A.view A.data)
      else if o.patternType = "type-blocks" then
        match found b rnd ex sort S A with
        | .error e => (s, .error e)
        | .ok (T, D) =>
          match tables T D s with
          | .error e => (s, .error e)
          | .ok s =>
            (s, do
              let P ← Info.picture pow o.borderWidth A.dim.rows A.dim.cols T D
              S.pattern.generate P.view P.data)
      else (s, .error (.throw ("Unkown pattern_type: " ++ o.patternType)))

/-- The destructor of the timer (ScopedTimer.h:23-28): at the end of the block, while an exception is passed on, and on `return`. -/
def timer (E : Env) (s : Print.Stream) : Print.Stream := (s.text ("Total time: ".toList ++ E.elapsed ++ " s".toList)).text ['\n']

/-- The catch blocks (show_pattern.cpp:134-146, generate_matrix.cpp:66-78). -/
def caught (E : Env) (m : String) (s : Print.Stream) : Print.Stream := (((s.text (E.words m)).text ['\n']).text "Program was aborted.".toList).text ['\n']

/-- `main` of show_pattern.cpp (30-150). -/
def main [Field R] [LinearOrder R] (E : Env) (b : Build) (rnd ex : R → R) (sort : List R → List Nat) (pow : Nat → R) (cmd : Command)
    (set : Option (Show.Settings R)) (o : Show.Options) (w : Files.Disk R) (text : String → Option String) : Left (String → Option String) :=
  let s := (start.text ("\nBlasBooster ".toList ++ E.version ++ " ShowPattern\n".toList)).text ['\n']
  match cmd with
  | .wrong m => ⟨(timer E s).out, E.usage ++ "\nError in command line: ".toList ++ m ++ "\n".toList, text, .ok 1⟩
  | .help => ⟨(timer E s).out, E.usage ++ "\n".toList, text, .ok 0⟩
  | .run =>
    match body b rnd ex sort pow set o w s with
    | (s, .error (.throw m)) => ⟨(caught E m (timer E s)).out, [], text, .ok 1⟩
    | (s, .error e) => ⟨s.out, [], text, .error e⟩
    | (s, .ok l) =>
      ⟨(((timer E s).text "\nBlasBooster successfully finished. Have a nice day.\n".toList).text ['\n']).out, [],
        if w.writable o.patternFile then fun p => if p = o.patternFile then some (String.join l) else text p else text, .ok 0⟩

/-- `main` of generate_matrix.cpp (10-82). -/
def generate [Zero R] [Add R] (E : Env) (asserts : Bool) (x y : R) (cmd : Command) (o : Files.Options R) (w : Files.Disk R) : Left (Files.Disk R) :=
  let s := (start.text ("\nBlasBooster ".toList ++ E.version ++ " Matrix Generator\n".toList)).text ['\n']
  match cmd with
  | .wrong m => ⟨s.out, E.usage ++ "\nError in command line: ".toList ++ m ++ "\n".toList, w, .ok 1⟩
  | .help => ⟨s.out, E.usage ++ "\n".toList, w, .ok 0⟩
  | .run =>
    match Files.matrixOf asserts x y o with
    | .error (.throw m) => ⟨(caught E m s).out, [], w, .ok 1⟩
    | .error e => ⟨s.out, [], w, .error e⟩
    | .ok A =>
      match Files.dump A.data 0 A.dim.fullSize with
      | .error e => ⟨s.out, [], w, .error e⟩
      | .ok l =>
        ⟨((s.text "\n BlasBooster successfully finished. Have a nice day.\n".toList).text ['\n']).out, [],
          if w.writable o.file then { w with bin := fun p => if p = o.file then some l else w.bin p } else w, .ok 0⟩

end BB.ShowConsole
