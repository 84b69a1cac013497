import Verif.Model.Dense

/-!
# Matrix files

include/BlasBooster/Core/MatrixFileIO.h and src/MatrixFactory/MatrixFileImporter.cpp.

A binary file is a list of elements: the model works at the granularity of one element, so a trailing fraction of
an element is not represented, and file positions are not reduced modulo 2^64.  The XML header (property tree)
is represented by the settings it parses to.
-/

namespace BB.FileIO

variable {R : Type}

/-- `MatrixFileSettings` (MatrixFileIO.h:14-22); all fields are `size_t`. -/
structure Settings where
  nbRows : Nat
  nbCols : Nat
  rowLD : Nat
  colLD : Nat
  rowOffset : Nat
  colOffset : Nat

/-- A `std::ifstream` on a binary file: its elements, the position, the failbit. -/
structure Stream (R : Type) where
  data : List R
  pos : Nat
  fail : Bool

/-- `is.read(p, n * sizeof(T))`: does nothing on a failed stream; delivers what there is and sets failbit if that
is less than asked for. -/
def Stream.read (s : Stream R) (n : Nat) : Stream R × List R :=
  if s.fail then (s, [])
  else
    let got := (s.data.drop s.pos).take n
    if got.length = n then ({ s with pos := s.pos + n }, got)
    else ({ s with pos := s.data.length, fail := true }, got)

/-- `is.seekg(n * sizeof(T), cur)`: does nothing on a failed stream; seeking beyond the end is allowed. -/
def Stream.skip (s : Stream R) (n : Nat) : Stream R := if s.fail then s else { s with pos := s.pos + n }

/-- Storing the elements a read delivered from address `p` on. -/
def writeAt (b : Buf R) (p : Nat) : List R → Res (Buf R)
  | [] => .ok b
  | v :: vs => do
    let b ← b.write p v
    writeAt b (p + 1) vs

/-- One column of the window (MatrixFileIO.h:46-50); the state is the stream, the matrix array and
`dataPointer`.  Simplification: the difference `rowLD - nbRows` wraps in C++ if it is negative, which happens only for
windows that do not fit and are accepted because the check wraps (`C70_wrapped_window_accepted_iff`); the model seeks by 0
then, and no theorem speaks about the elements read in that case. -/
def readColumn (s : Settings) (x : Stream R × Buf R × Nat) : Res (Stream R × Buf R × Nat) := do
  let r := x.1.read s.nbRows
  let b ← writeAt x.2.1 x.2.2 r.2
  return (r.1.skip (s.rowLD - s.nbRows), b, x.2.2 + s.nbRows)

/-- The reading part of `operator >>` (MatrixFileIO.h:40-51).  The stream state is not examined. -/
def readBody (s : Settings) (data : List R) (b : Buf R) : Res (Buf R) := do
  let st : Stream R := ⟨data, 0, false⟩
  if s.nbCols = s.colLD ∧ s.nbRows = s.rowLD then
    let (_, got) := st.read (s.nbRows * s.nbCols)
    writeAt b 0 got
  else
    let st := st.skip (s.colOffset * s.rowLD + s.rowOffset)
    let x ← loopN s.nbCols (fun _ => readColumn s) (st, b, 0)
    return x.2.1

/-- `is >> matrix` (MatrixFileIO.h:25-54): the target object afterwards and how the call ended.  `file` is
`none` if it cannot be opened.  The additions of the checks are `size_t` additions. -/
def readWindow (s : Settings) (file : Option (List R)) (A : Dense R) : Dense R × Res Unit :=
  let A := A.resize s.nbRows s.nbCols
  if (s.nbRows + s.rowOffset) % sizeMod > s.rowLD then (A, .error (.throw ""))
  else if (s.nbCols + s.colOffset) % sizeMod > s.colLD then (A, .error (.throw ""))
  else match file with
    | none => (A, .error (.throw "Can't open file "))
    | some data => match readBody s data A.data with
      | .ok b => ({ A with data := b }, .ok ())
      | .error e => (A, .error e)

/-- `MatrixFileImporter::operator()` (MatrixFileImporter.cpp:18-30) with the dimensions and file name read by the
constructor (8-16): the state of the stream is examined after the read. -/
def importFile (nbRows nbCols : Nat) (file : Option (List R)) : Res (Dense R) := do
  let A := Dense.new .col nbRows nbCols
  match file with
  | none => .error (.throw "Can't open file ")
  | some data =>
    let (st, got) := (⟨data, 0, false⟩ : Stream R).read (nbRows * nbCols)
    let b ← writeAt A.data 0 got
    if st.fail then .error (.throw "Error reading file ")
    else return { A with data := b }

end BB.FileIO
