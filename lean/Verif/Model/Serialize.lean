import Verif.Model.Dense

/-!
# Serialisation of dense matrices

`serialize` of the dimension (Dimension.h:120-128), `save`/`load` of the variable-size heap storage
(Storage.h:478-492) and `serialize` of the matrix (DenseMatrix.h:311-316).

An archive is the sequence of primitive values written through `ar <<`.  Simplification: the header, the class
version numbers and the textual form that Boost adds are left out; they are written and read in the same order
by the library itself.  Reading past the end throws `archive_exception` (what `boost::archive::text_iarchive`
does); so does a value of the wrong sort.  The allocation in `load` succeeds.  Sparse storage has its serialisation
compiled out (SparseStorage.h:158-175), fixed-size dimensions have none.
-/

namespace BB

variable {R : Type}

/-- One primitive value in an archive: a `size_t` or an element. -/
inductive Tok (R : Type) where
  | size (n : Nat)
  | elem (v : R)
  deriving DecidableEq, Repr

/-- The part of an archive that was not read yet. -/
abbrev Archive (R : Type) := List (Tok R)

/-- What Boost throws when the input is exhausted or malformed. -/
def inputError : Fault := .throw "input stream error"

/-- `for (i != size_) ar << data_[i]` (Storage.h:482): copying an element that was never written is undefined. -/
def saveElems : Buf R → Res (Archive R)
  | [] => .ok []
  | some v :: b => do
    let rest ← saveElems b
    return .elem v :: rest
  | none :: _ => .error .ub

/-- `ar << A` (DenseMatrix.h:311-316): dimension (Dimension.h:123-128), then storage (Storage.h:479-483). -/
def Dense.save (A : Dense R) : Res (Archive R) := do
  let es ← saveElems A.data
  return .size A.dim.rows :: .size A.dim.cols :: .size A.dim.fullSize :: .size A.data.length :: es

/-- `for (i != size_) ar >> data_[i]` (Storage.h:490), `n` steps starting at index `i`.  The array is returned in the
state it has when the loop ends or an exception leaves it. -/
def loadElems : Nat → Nat → Buf R → Archive R → Buf R × Res (Archive R)
  | 0, _, b, ar => (b, .ok ar)
  | n + 1, i, b, .elem v :: ar => loadElems n (i + 1) (b.set i (some v)) ar
  | _ + 1, _, b, _ => (b, .error inputError)

/-- `ar >> A` (DenseMatrix.h:311-316, Dimension.h:123-128, Storage.h:486-492).  The first component is the state of the
target afterwards, also when an exception is thrown. -/
def Dense.load (A : Dense R) : Archive R → Dense R × Res (Archive R)
  | .size r :: .size c :: .size s :: .size n :: ar =>
    let (b, res) := loadElems n 0 (Buf.alloc n) ar
    ({ A with dim := ⟨r, c, s⟩, data := b }, res)
  | .size r :: .size c :: .size s :: _ => ({ A with dim := ⟨r, c, s⟩ }, .error inputError)
  | .size r :: .size c :: _ => ({ A with dim := ⟨r, c, A.dim.fullSize⟩ }, .error inputError)
  | .size r :: _ => ({ A with dim := ⟨r, A.dim.cols, A.dim.fullSize⟩ }, .error inputError)
  | _ => (A, .error inputError)

/-- Several matrices saved into one archive, one after the other. -/
def saveAll : List (Dense R) → Res (Archive R)
  | [] => .ok []
  | A :: As => do
    let a ← A.save
    let rest ← saveAll As
    return a ++ rest

/-- Loading into several existing objects, one after the other. -/
def loadAll : List (Dense R) → Archive R → Res (List (Dense R) × Archive R)
  | [], ar => .ok ([], ar)
  | B :: Bs, ar => do
    let ar1 ← (B.load ar).2
    let (rest, ar2) ← loadAll Bs ar1
    return ((B.load ar).1 :: rest, ar2)

end BB
