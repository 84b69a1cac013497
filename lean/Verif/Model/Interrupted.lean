import Verif.Model.Show

/-!
# Programs that are stopped while they write a file

src/Benchmark/generate_matrix.cpp:63-64 and src/Benchmark/show_pattern.cpp with PatternGenerator.h:43-106: what reaches the files, in small
steps: opening, which creates or empties the file, and one step per element or character.  A program that is stopped has made
the first `k` of these steps.

Simplifications: bytes reach the file in order (the stream may hold them back, so a stopped program leaves a prefix); the elements
of matrix files are written as a whole (a fraction of an element at the end is not represented, as in `FileIO`); the picture is
computed before the file is opened, where the program opens it first and computes what it writes as it goes (PatternGenerator.h:47),
so the model has no step between opening and the first character that could fail.
-/
namespace BB.Interrupted

variable {β F : Type}

/-- A small step that changes the file `p`. -/
inductive Effect (β : Type) where
  /-- `std::ofstream os(p)` (generate_matrix.cpp:63; PatternGenerator.h:47) -/
  | open (p : String)
  /-- an element or character is appended (generate_matrix.cpp:64; PatternGenerator.h:49-104) -/
  | put (p : String) (x : β)

/-- The content `c` of file `q` after a step; `nil`: the empty content, `push`: content with one more element.  A stream that could not be
opened swallows what is written to it. -/
def Effect.apply (writable : String → Bool) (nil : F) (push : F → β → F) (fs : String → Option F) : Effect β → String → Option F
  | .open p => if writable p then fun q => if q = p then some nil else fs q else fs
  | .put p x => if writable p then fun q => if q = p then (fs p).map (push · x) else fs q else fs

/-- The files when the program is stopped after `k` steps. -/
def after (writable : String → Bool) (nil : F) (push : F → β → F) (es : List (Effect β)) (k : Nat) (fs : String → Option F) : String → Option F :=
  (es.take k).foldl (Effect.apply writable nil push) fs

/-- Opening a file and writing to it. -/
def save (p : String) (l : List β) : List (Effect β) := .open p :: l.map (.put p)

/-- The steps of generate_matrix (generate_matrix.cpp:43-64). -/
def matrixSteps {R : Type} [Zero R] [Add R] (asserts : Bool) (x y : R) (o : Files.Options R) : List (Effect R) :=
  match Files.matrixOf asserts x y o with
  | .error _ => []
  | .ok A =>
    match Files.dump A.data 0 A.dim.fullSize with
    | .error _ => []
    | .ok l => save o.file l

/-- The files when generate_matrix is stopped after `k` steps. -/
def matrixStopped {R : Type} [Zero R] [Add R] (asserts : Bool) (x y : R) (o : Files.Options R) (w : Files.Disk R) (k : Nat) : Files.Disk R :=
  { w with bin := after w.writable [] (fun l v => l ++ [v]) (matrixSteps asserts x y o) k w.bin }

/-- The steps of show_pattern (show_pattern.cpp:65-132). -/
def patternSteps {R : Type} [Field R] [LinearOrder R] (b : Build) (rnd ex : R → R) (sort : List R → List Nat) (pow : Nat → R) (S : Show.Settings R)
    (o : Show.Options) (w : Files.Disk R) : List (Effect Char) :=
  match Show.patternText b rnd ex sort pow S o w with
  | .error _ => []
  | .ok l => save o.patternFile (String.join l).toList

/-- The text files when show_pattern is stopped after `k` steps. -/
def patternStopped {R : Type} [Field R] [LinearOrder R] (b : Build) (rnd ex : R → R) (sort : List R → List Nat) (pow : Nat → R) (S : Show.Settings R)
    (o : Show.Options) (w : Files.Disk R) (text : String → Option String) (k : Nat) : String → Option String :=
  after w.writable "" String.push (patternSteps b rnd ex sort pow S o w) k text

end BB.Interrupted
