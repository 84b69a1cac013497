import Verif.Model.Files
import Verif.Model.Pattern
import Verif.Model.BlockSize
import Verif.Model.Info

/-!
# The program that shows the pattern of a matrix

src/Benchmark/show_pattern.cpp.  Simplifications: the command line and the settings file are given by the values they parse to (a negative
border width or block size is not modelled); what the program prints on the terminal is not modelled; the picture is written to its file
in one step; exact arithmetic except for the parameters `rnd` (conversion to `float`), `ex` (binary exponent) and `pow`
(`pow t` stands for `std::pow(10, -1.0 * t)`).
-/
namespace BB.Show

variable {R : Type}

/-- The options of the program (show_pattern.cpp:38-49). -/
structure Options where
  matrixFile : String
  patternFile : String
  patternType : String
  borderWidth : Nat

/-- The values of options that are not given (show_pattern.cpp:40-42). -/
def Options.default (matrixFile : String) : Options := ⟨matrixFile, "pattern.xpm", "elements", 0⟩

/-- The settings (show_pattern.cpp:19-28). -/
structure Settings (R : Type) where
  pattern : PatternSettings R
  minBlock : Nat
  maxBlock : Nat
  threshold : BB.Settings R

/-- The values of settings that are not given (show_pattern.cpp:19-28, PatternGenerator.h:25-29). -/
def Settings.default (t : BB.Settings R) : Settings R := ⟨⟨[], "", ""⟩, 200, 1000, t⟩

/-- The blocks with their types (`block_matrix`, show_pattern.cpp:84; BlockedMatrixGenerator.h:14-50). -/
def typedBlocks [LinearOrder R] [Zero R] [Neg R] [NatCast R] [Div R] (b : Build) (rnd : R → R) (t : BB.Settings R) (A : Dense R) (rs cs : List Nat) :
    Res (Blocks (Dispatch.Obj Kind (Mat R))) :=
  Blocks.generateWith (fun s => do
    let k ← convertMatrix b rnd t s
    return ⟨k.1, k.2⟩) A rs cs

/-- The picture of the type blocks (show_pattern.cpp:82-126). -/
def typePicture [Field R] [LinearOrder R] (b : Build) (rnd ex : R → R) (sort : List R → List Nat) (pow : Nat → R) (S : Settings R) (width : Nat)
    (A : Dense R) : Res (Dense R) := do
  let (mn, mx) ← BlockSizeGenerator.mk? S.minBlock S.maxBlock
  let (rs, cs) ← blockSizes ex sort mn mx A
  let B ← typedBlocks b rnd S.threshold A rs cs
  let T ← Info.typeMatrix typeList B.grid
  let D ← Info.dimMatrix b typeList (fun _ (M : Mat R) => (M.rows, M.cols)) B.grid
  Info.picture pow width A.dim.rows A.dim.cols T D

/-- What is written to the pattern file (show_pattern.cpp:65-132). -/
def patternText [Field R] [LinearOrder R] (b : Build) (rnd ex : R → R) (sort : List R → List Nat) (pow : Nat → R) (S : Settings R) (o : Options)
    (w : Files.Disk R) : Res (List String) := do
  let A ← Files.ofFile w o.matrixFile
  if o.patternType = "elements" then S.pattern.generate A.view A.data
  else if o.patternType = "type-blocks" then do
    let P ← typePicture b rnd ex sort pow S o.borderWidth A
    S.pattern.generate P.view P.data
  else .error (.throw ("Unkown pattern_type: " ++ o.patternType))

/-- `main` (show_pattern.cpp:30-150) after the command line was read: the text files afterwards and the exit status.  Exceptions are caught
(134-146).  The state of the stream of the picture is not examined: nothing is written if it could not be opened (PatternGenerator.h:47). -/
def main [Field R] [LinearOrder R] (b : Build) (rnd ex : R → R) (sort : List R → List Nat) (pow : Nat → R) (S : Settings R) (o : Options)
    (w : Files.Disk R) (text : String → Option String) : (String → Option String) × Res Nat :=
  match patternText b rnd ex sort pow S o w with
  | .error (.throw _) => (text, .ok 1)
  | .error e => (text, .error e)
  | .ok l => (if w.writable o.patternFile then fun p => if p = o.patternFile then some (String.join l) else text p else text, .ok 0)

end BB.Show
