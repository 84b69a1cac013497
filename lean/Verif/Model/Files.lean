import Verif.Model.Provider
import Verif.Model.BlockedList

/-!
# The program that writes matrix files, and matrices constructed from files

src/Benchmark/generate_matrix.cpp; the constructor by a file of DenseMatrix.h:671-677.

Files are modelled as in `FileIO`: an XML file by the settings and the name of the data file it parses to, a data file by its
elements.  Simplifications: the command line is given by the values of the options; writing a file is one step (`Saved` models
programs that are stopped while they write); a file that can be opened for writing can be written.
-/
namespace BB.Files

variable {R : Type}

/-- The options of the program (generate_matrix.cpp:17-30). -/
structure Options (R : Type) where
  file : String
  type : String
  rows : Nat
  cols : Nat
  bandWidth : Nat
  value : R

/-- The values of options that are not given (generate_matrix.cpp:17-22). -/
def Options.default [One R] : Options R := ⟨"matrix.dat", "band", 1000, 1000, 1, 1⟩

/-- The files, and which of them can be opened for writing. -/
structure Disk (R : Type) where
  /-- `none`: there is no such file; `some none`: it is not the description of a matrix file -/
  xml : String → Option (Option (FileIO.Settings × String))
  bin : String → Option (List R)
  writable : String → Bool

/-- The blocked matrix of diagonal, full and zero blocks, converted to a dense matrix (generate_matrix.cpp:55-60); `n`: the size of the blocks (1000),
`x`: 0.1, `y`: 1e-8. -/
def blockMatrix [Zero R] [Add R] (n : Nat) (x y : R) : Res (Dense R) := do
  let d ← (Dense.new .col n n).fillDiagonal x
  let f ← (Dense.new .col n n).fillAll y
  let z ← (Dense.new .col n n).fillAll 0
  let D : Mat R := .one (.dense d)
  let F : Mat R := .one (.dense f)
  let Z : Mat R := .one (.dense z)
  let block ← Blocked.ofLists [[D, Z, Z, Z], [Z, F, Z, Z], [Z, Z, D, Z], [Z, Z, Z, D]]
  block.toDense

/-- The matrix (generate_matrix.cpp:43-61). -/
def matrixOf [Zero R] [Add R] (asserts : Bool) (x y : R) (o : Options R) : Res (Dense R) :=
  if o.type = "band" then Provider.bandMatrix asserts o.rows o.cols o.bandWidth o.value
  else blockMatrix 1000 x y

/-- The elements `os.write` reads from memory (generate_matrix.cpp:64): `n` elements from address `p` on. -/
def dump (b : Buf R) (p : Nat) : Nat → Res (List R)
  | 0 => .ok []
  | n + 1 => do
    let v ← b.read p
    return v :: (← dump b (p + 1) n)

/-- `main` (generate_matrix.cpp:10-82) after the command line was read: the files afterwards and the exit status.  Exceptions are
caught (66-78).  The state of the stream is not examined: nothing is written if the file could not be opened (63-64). -/
def main [Zero R] [Add R] (asserts : Bool) (x y : R) (o : Options R) (w : Disk R) : Disk R × Res Nat :=
  match matrixOf asserts x y o with
  | .error (.throw _) => (w, .ok 1)
  | .error e => (w, .error e)
  | .ok A =>
    match dump A.data 0 A.dim.fullSize with
    | .error e => (w, .error e)
    | .ok l => (if w.writable o.file then { w with bin := fun p => if p = o.file then some l else w.bin p } else w, .ok 0)

/-- Construction by a file (DenseMatrix.h:671-677; MatrixFileIO.h:25-54). -/
def ofFile (w : Disk R) (p : String) : Res (Dense R) :=
  match w.xml p with
  | none => .error (.throw ("Can't open file " ++ p))
  | some none => .error (.throw "xml")
  | some (some (s, name)) =>
    match FileIO.readWindow s (w.bin name) (Dense.empty .col) with
    | (B, .ok _) => .ok B
    | (_, .error e) => .error e

end BB.Files
