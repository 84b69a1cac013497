import Verif.Model.FileIO

/-!
# Band matrices and the matrix sets of the benchmark

src/Benchmark/MatrixProvider.cpp and .h, src/Benchmark/generate_matrix.cpp.
-/

namespace BB.Provider

variable {R : Type}

/-- `matrix(i,j) = value` of a column-major matrix with (`asserts`) or without (`NDEBUG`) the assertions of `getPosition`
(DenseMatrix.h:712-716, 742-751). -/
def setElem (asserts : Bool) (A : Dense R) (i j : Nat) (x : R) : Res (Dense R) :=
  if asserts then A.set i j x
  else do
    let d ← A.data.write (A.view.pos i j) x
    return { A with data := d }

/-- Body of the inner loop (MatrixProvider.cpp:29-30, generate_matrix.cpp:49-50): `size_t` additions. -/
def bandCell (asserts : Bool) (value : R) (b i : Nat) (A : Dense R) : Res (Dense R) := do
  let A ← setElem asserts A ((i + b) % sizeMod) i value
  setElem asserts A i ((i + b) % sizeMod) value

/-- Body of the outer loop (MatrixProvider.cpp:28-31, generate_matrix.cpp:48-51): the bound `rows-b` is a `size_t`
subtraction. -/
def bandDiag (asserts : Bool) (rows : Nat) (value : R) (b : Nat) (A : Dense R) : Res (Dense R) :=
  loopN ((rows + sizeMod - b) % sizeMod) (bandCell asserts value b) A

/-- generate_matrix.cpp:45-53: a rows×cols matrix of zeros with a band. -/
def bandMatrix [Zero R] (asserts : Bool) (rows cols bandWidth : Nat) (value : R) : Res (Dense R) := do
  let A ← (Dense.new .col rows cols).fillAll 0
  loopN bandWidth (bandDiag asserts rows value) A

/-- MatrixProvider.cpp:26-32: the same with `dim` rows and columns. -/
def bandSquare [Zero R] (asserts : Bool) (dim bandWidth : Nat) (value : R) : Res (Dense R) := bandMatrix asserts dim dim bandWidth value

/-- A leaf of the configuration, by its type (MatrixProvider.cpp:19-45).  A file is given by the matrix that reading it
yields (`FileIO`). -/
inductive Leaf (R : Type) where
  | diagonalBand (dims bands : List Nat) (value : R)
  | equalTo (source : String)
  | file (read : Res (Dense R))
  | unknown (type : String)

/-- `matrix_set` (MatrixProvider.h:17, 33): an `unordered_map`, as the partial function it represents. -/
abbrev Sets (R : Type) := String → Option (List (Dense R))

/-- `matrix_set[name]` (creates an empty list) and a store to it. -/
def Sets.put (s : Sets R) (name : String) (l : List (Dense R)) : Sets R := fun n => if n = name then some l else s n
def Sets.at' (s : Sets R) (name : String) : List (Dense R) := (s name).getD []

/-- The inner loop over the band widths (MatrixProvider.cpp:25-34). -/
def pushBands [Zero R] (asserts : Bool) (name : String) (dim : Nat) (value : R) : List Nat → Sets R → Res (Sets R)
  | [], s => .ok s
  | w :: ws, s => do
    let A ← bandSquare asserts dim w value
    pushBands asserts name dim value ws (s.put name (s.at' name ++ [A]))

/-- The loop over the dimensions (MatrixProvider.cpp:24-35). -/
def pushDims [Zero R] (asserts : Bool) (name : String) (bands : List Nat) (value : R) : List Nat → Sets R → Res (Sets R)
  | [], s => .ok s
  | d :: ds, s => do pushDims asserts name bands value ds (← pushBands asserts name d value bands s)

/-- One leaf (MatrixProvider.cpp:19-45).  `matrix_set.at` throws for an unknown source.  The exception object for an
unknown type is constructed but not thrown (44).  Assigning a list to itself from its own iterators is undefined. -/
def leaf [Zero R] (asserts : Bool) (name : String) (s : Sets R) : Leaf R → Res (Sets R)
  | .diagonalBand dims bands value => pushDims asserts name bands value dims s
  | .equalTo source =>
    match s source with
    | none => .error (.throw "out_of_range")
    | some l => if source = name then .error .ub else .ok (s.put name l)
  | .file r => do
    let A ← r
    return s.put name (s.at' name ++ [A])
  | .unknown _ => .ok s

def leaves [Zero R] (asserts : Bool) (name : String) : Sets R → List (Leaf R) → Res (Sets R)
  | s, [] => .ok s
  | s, l :: ls => do leaves asserts name (← leaf asserts name s l) ls

def build [Zero R] (asserts : Bool) : Sets R → List (String × List (Leaf R)) → Res (Sets R)
  | s, [] => .ok s
  | s, (n, ls) :: rest => do build asserts (← leaves asserts n s ls) rest

/-- Constructor (MatrixProvider.cpp:16-48). -/
def provider [Zero R] (asserts : Bool) (tree : List (String × List (Leaf R))) : Res (Sets R) := build asserts (fun _ => none) tree

/-- `get(name)` (MatrixProvider.h:29): `find(name)->second`, undefined if there is no such set. -/
def Sets.get (s : Sets R) (name : String) : Res (List (Dense R)) :=
  match s name with
  | some l => .ok l
  | none => .error .ub

end BB.Provider
