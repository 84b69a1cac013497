import Verif.Model.Sparse
import Verif.Model.Mat

/-!
# Printing of matrices

include/BlasBooster/Core/MatrixIO.h.  The output of a stream is a list of characters; of the stream's formatting state
only what MatrixIO.h touches is modelled: `std::scientific`, the precision, and the word set by the manipulators
`fullprint`/`shortprint`.  `std::flush` has no effect on the text.
-/

namespace BB.Print

variable {R : Type}

/-- An output stream. -/
structure Stream where
  out : List Char
  sci : Bool
  prec : Nat
  full : Bool

/-- `stream << text`. -/
def Stream.text (s : Stream) (t : List Char) : Stream := { s with out := s.out ++ t }

/-- `fullprint` (MatrixIO.h:15-19) and `shortprint` (22-26). -/
def fullprint (s : Stream) : Stream := { s with full := true }

@[inherit_doc fullprint]
def shortprint (s : Stream) : Stream := { s with full := false }

/-- Output of a field narrower than `w`: blanks on the left (the default adjustment). -/
def pad (w : Nat) (t : List Char) : List Char := List.replicate (w - t.length) ' ' ++ t

/-- How an element type is written: `str sci prec x` is `stream << x` for a stream with that state, `cell sci prec w x`
is `stream << std::setw(w) << x`. -/
structure Format (R : Type) where
  str : Bool → Nat → R → List Char
  cell : Bool → Nat → Nat → R → List Char

/-- A number: `setw` pads the whole number. -/
def Format.number (str : Bool → Nat → R → List Char) : Format R := ⟨str, fun sci prec w x => pad w (str sci prec x)⟩

/-- Decimal digits of an unsigned number. -/
def digits (n : Nat) : List Char := Nat.toDigits 10 n

/-- A dimension, `os << first << "x" << second` (GenerateTypeMatrix.h:70-73): `setw` applies to the next output only,
which is `first`. -/
def Format.dim : Format (Nat × Nat) :=
  ⟨fun _ _ d => digits d.1 ++ 'x' :: digits d.2, fun _ _ w d => pad w (digits d.1) ++ 'x' :: digits d.2⟩

/-- Loop body of MatrixIO.h:65-70: the width of a column becomes the maximum.  State: `widthCur`, the widths. -/
def widthStep (F : Format R) (b : Buf R) (p : Nat) (s : Nat × Buf Nat) : Res (Nat × Buf Nat) := do
  let x ← b.read p
  let w ← s.2.read s.1
  let d ← s.2.write s.1 (Max.max w (F.str true 10 x).length)
  return (s.1 + 1, d)

/-- Loop body of MatrixIO.h:81-85. -/
def cellStep (F : Format R) (b : Buf R) (widths : Buf Nat) (p : Nat) (s : Nat × Stream) : Res (Nat × Stream) := do
  let w ← widths.read s.1
  let x ← b.read p
  return (s.1 + 1, s.2.text (F.cell s.2.sci s.2.prec w x))

/-- `++(*widthCur)` for all columns (MatrixIO.h:73). -/
def widen (widths : Buf Nat) : Res (Buf Nat) :=
  ptrLoop 0 widths.length 1 (fun p (d : Buf Nat) => do
    let w ← d.read p
    d.write p (w + 1)) widths

/-- `MatrixPrintFunctor<Dense,T,P>` (MatrixIO.h:38-91) for a matrix or submatrix. -/
def dense (F : Format R) (name : List Char) (v : View) (b : Buf R) (s : Stream) : Res Stream :=
  if 100 < v.rows ∨ 100 < v.cols then .ok (s.text ("Matrix too large for printing.\n".toList))
  else do
    let s := if s.full then s.text (name ++ '\n' :: "Dimension = ".toList ++ digits v.rows ++ " x ".toList ++ digits v.cols ++ ['\n']) else s
    let widths ← ptrLoop 0 v.rows 1 (fun i (d : Buf Nat) => do
      let (_, d) ← ptrLoop (v.rowBegin i) (v.rowEnd i) v.rowStride (widthStep F b) (0, d)
      return d) (List.replicate v.cols (some 0))
    let widths ← widen widths
    let s := { s with sci := true, prec := 10 }
    let s := s.text ['\n']
    let s ← ptrLoop 0 v.rows 1 (fun i (s : Stream) => do
      let (_, s) ← ptrLoop (v.rowBegin i) (v.rowEnd i) v.rowStride (cellStep F b widths) (0, s)
      return s.text ['\n']) s
    return s.text ['\n']

/-- The loops that print one array (MatrixIO.h:111-117, 119-125, 127-132): every element followed by a blank. -/
def array {α : Type} (str : Bool → Nat → α → List Char) (b : Buf α) (s : Stream) : Res Stream :=
  ptrLoop 0 b.length 1 (fun p (s : Stream) => do
    let x ← b.read p
    return s.text (str s.sci s.prec x ++ [' '])) s

/-- `MatrixPrintFunctor<Sparse,T,P>` (MatrixIO.h:93-134). -/
def sparse (str : Bool → Nat → R → List Char) (name : List Char) (S : Sparse R) (s : Stream) : Res Stream :=
  if 100 < S.dim.fullSize then
    .ok (s.text ("SparseMatrix (Size = ".toList ++ digits S.dim.fullSize ++ ") too large for printing.\n".toList))
  else do
    let s := s.text (name ++ "\nSize = ".toList ++ digits S.dim.fullSize ++ "\nDimension = ".toList ++ digits S.dim.rows ++ " x ".toList
      ++ digits S.dim.cols ++ ['\n'])
    let s ← array str S.value (s.text "Value array = ".toList)
    let s ← array (fun _ _ => digits) S.key (s.text "\nKey array = ".toList)
    array (fun _ _ => digits) S.offset (s.text "\nOffset array = ".toList)

/-- `MatrixPrintFunctor<Zero,NullType,P>` (MatrixIO.h:136-144). -/
def zero (name : List Char) (d : Dim) (s : Stream) : Stream :=
  s.text (name ++ "\nSize = ".toList ++ digits d.fullSize ++ "\nDimension = ".toList ++ digits d.rows ++ " x ".toList ++ digits d.cols ++ ['\n'])

/-- What is written to a stream with `<<`. -/
inductive Cmd (R : Type) where
  | full
  | short
  | matrix (name : List Char) (v : View) (b : Buf R)

/-- `stream << c1 << c2 << …` (MatrixIO.h:15-26, 38-91). -/
def session (F : Format R) : List (Cmd R) → Stream → Res Stream
  | [], s => .ok s
  | .full :: cs, s => session F cs (fullprint s)
  | .short :: cs, s => session F cs (shortprint s)
  | .matrix name v b :: cs, s => do
    let s ← dense F name v b s
    session F cs s

end BB.Print
