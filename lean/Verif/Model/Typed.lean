import Verif.Model.Blocked

/-!
# Element types: matrices of `float` and of `double`

The other model files use one element type.  Here `F` stands for `float` and `D` for `double`: a matrix of
`DynamicMatrixTypeList` (DynamicMatrixTypeList.h:27-35) has elements of type `F` or `D`, `up` is the
conversion `float → double`, `rnd` the conversion `double → float`.

The result of an operation has the element type `decltype(T1() * T2())` or `decltype(T1() + T2())`
(MatrixMultExp.h:40-46, BinaryFunctors.h:450-462): `float` if both operands are `float` matrices, else
`double`; a zero matrix has the element type `NullType`, whose sum with `T` is `T` and whose product with `T`
is `NullType` (BinaryFunctors.h:443-448, Multiplication.h:19-21).  The functors evaluate `a * b` and `a + b` on
the elements themselves, so a `float` operand of a mixed operation is converted to `double` element by element
when it is read (usual arithmetic conversions).  Simplification: the model converts all cells of the `float`
operand first (those never written stay so) and then applies the operation on `double` matrices; each element is
converted in the same way.
-/

namespace BB

variable {F D : Type}

/-- The elements of a dense matrix, read as another number type. -/
def Dense.mapE (g : F → D) (A : Dense F) : Dense D := ⟨A.ori, A.dim, A.data.map (Option.map g)⟩

/-- The elements of a sparse matrix, read as another number type. -/
def Sparse.mapE (g : F → D) (A : Sparse F) : Sparse D := ⟨A.ori, A.dim, A.value.map (Option.map g), A.key, A.offset⟩

/-- A dense, sparse or zero matrix with its element type. -/
inductive TSMat (F D : Type) where
  | denseF (A : Dense F)
  | sparseF (A : Sparse F)
  | denseD (A : Dense D)
  | sparseD (A : Sparse D)
  | zero (d : Dim)

/-- A matrix of one of the types of `DynamicMatrixTypeList`, or a two-part matrix of two other parts. -/
inductive TMat (F D : Type) where
  | one (A : TSMat F D)
  | two (X1 X2 : TSMat F D)

namespace TSMat

/-- `getNbRows()`. -/
def rows : TSMat F D → Nat
  | .denseF A => A.dim.rows
  | .sparseF A => A.dim.rows
  | .denseD A => A.dim.rows
  | .sparseD A => A.dim.rows
  | .zero d => d.rows

/-- `getNbColumns()`. -/
def cols : TSMat F D → Nat
  | .denseF A => A.dim.cols
  | .sparseF A => A.dim.cols
  | .denseD A => A.dim.cols
  | .sparseD A => A.dim.cols
  | .zero d => d.cols

/-- A matrix of `float`s as an operand. -/
def ofF : SMat F → TSMat F D
  | .dense A => .denseF A
  | .sparse A => .sparseF A
  | .zero d => .zero d

/-- A matrix of `double`s as an operand. -/
def ofD : SMat D → TSMat F D
  | .dense A => .denseD A
  | .sparse A => .sparseD A
  | .zero d => .zero d

/-- The operand if its elements are not `double` (`decltype` then yields `float` or `NullType`). -/
def asF : TSMat F D → Option (SMat F)
  | .denseF A => some (.dense A)
  | .sparseF A => some (.sparse A)
  | .zero d => some (.zero d)
  | _ => none

/-- The operand with its elements converted to `double`; see the comment at the top of this file. -/
def toD (up : F → D) : TSMat F D → SMat D
  | .denseF A => .dense (A.mapE up)
  | .sparseF A => .sparse (A.mapE up)
  | .denseD A => .dense A
  | .sparseD A => .sparse A
  | .zero d => .zero d

/-- `operator +` (BinaryFunctors.h:450-462 with the functors 142-323). -/
def add [Add F] [Add D] (up : F → D) (A B : TSMat F D) : Res (TSMat F D) :=
  match A.asF, B.asF with
  | some a, some b => do return ofF (← SMat.binop (· + ·) id a b)
  | _, _ => do return ofD (← SMat.binop (· + ·) id (A.toD up) (B.toD up))

/-- `operator -` (BinaryFunctors.h:472-484 with the functors 142-323). -/
def sub [Sub F] [Sub D] [Neg F] [Neg D] (up : F → D) (A B : TSMat F D) : Res (TSMat F D) :=
  match A.asF, B.asF with
  | some a, some b => do return ofF (← SMat.binop (· - ·) (- ·) a b)
  | _, _ => do return ofD (← SMat.binop (· - ·) (- ·) (A.toD up) (B.toD up))

/-- `A * B` with the native interface (MatrixMultExp.h:28-52, Multiplication_Native.h). -/
def mul [Zero F] [Add F] [Mul F] [DecidableEq F] [Zero D] [Add D] [Mul D] [DecidableEq D] (up : F → D)
    (A B : TSMat F D) : Res (TSMat F D) :=
  match A.asF, B.asF with
  | some a, some b => do return ofF (← SMat.mul a b)
  | _, _ => do return ofD (← SMat.mul (A.toD up) (B.toD up))

/-- Conversion to a dense matrix of `double`s (DenseMatrix.h:455-465, 591-650). -/
def denseOf [Zero D] (up : F → D) : TSMat F D → Res (Dense D)
  | .denseF A => A.convert up .col
  | .sparseF S => S.toDense up .col
  | .denseD A => A.convert id .col
  | .sparseD S => S.toDense id .col
  | .zero d => (Dense.new .col d.rows d.cols).fillAll 0

end TSMat

namespace TMat

/-- `getNbRows()` (MultipleMatrix.h:63): of the first part. -/
def rows : TMat F D → Nat
  | .one A => A.rows
  | .two X _ => X.rows

/-- `getNbColumns()` (MultipleMatrix.h:64). -/
def cols : TMat F D → Nat
  | .one A => A.cols
  | .two X _ => X.cols

/-- The `MultipleMatrix` constructor (MultipleMatrix.h:28-38) for two non-null parts. -/
def mkTwo (X1 X2 : TSMat F D) : Res (TMat F D) := do
  assertThat (X1.rows == X2.rows)
  assertThat (X1.cols == X2.cols)
  return .two X1 X2

/-- `operator +` on all kinds (BinaryFunctors.h:490-514). -/
def add [Add F] [Add D] (up : F → D) : TMat F D → TMat F D → Res (TSMat F D)
  | .one A, .one B => TSMat.add up A B
  | .one A, .two B1 B2 => do TSMat.add up (← TSMat.add up A B1) B2
  | .two A1 A2, .one B => do TSMat.add up (← TSMat.add up A1 A2) B
  | .two A1 A2, .two B1 B2 => do TSMat.add up (← TSMat.add up (← TSMat.add up A1 A2) B1) B2

/-- `(A * B).execute<Native>()` on all kinds (MatrixMultExp.h:28-148). -/
def mul [Zero F] [Add F] [Mul F] [DecidableEq F] [Zero D] [Add D] [Mul D] [DecidableEq D] (up : F → D) :
    TMat F D → TMat F D → Res (TSMat F D)
  | .one A, .one B => TSMat.mul up A B
  | .one A, .two B1 B2 => do
    TSMat.add up (← TSMat.mul up A B1) (← TSMat.mul up A B2)
  | .two A1 A2, .one B => do
    TSMat.add up (← TSMat.mul up A1 B) (← TSMat.mul up A2 B)
  | .two A1 A2, .two B1 B2 => do
    TSMat.add up
      (← TSMat.add up
        (← TSMat.add up (← TSMat.mul up A1 B1) (← TSMat.mul up A1 B2))
        (← TSMat.mul up A2 B1))
      (← TSMat.mul up A2 B2)

/-- Conversion to a dense matrix of `double`s; of a two-part matrix (DenseMatrix.h:652-659): `*this = m1;
*this += m2`, where the elements of `m2` are converted to `double`. -/
def toDense [Zero D] [Add D] (up : F → D) : TMat F D → Res (Dense D)
  | .one A => A.denseOf up
  | .two X1 X2 => do
    let C ← X1.denseOf up
    match ← SMat.binassign (· + ·) (.dense C) (X2.toD up) with
    | .dense C => return C
    | _ => .error .ub

/-- `ConversionFunctor` (MatrixConverter.h:58-114). -/
def convertTo [LinearOrder D] [Zero D] [Neg D] (rnd : D → F) (t : Settings D) (s : Src D) : Kind → Res (TMat F D)
  | .zero => .ok (.one (.zero (Dim.mk' s.rows s.cols)))
  | .denseF => do return .one (.denseF (← s.toDense (.above 0) rnd))
  | .denseD => do return .one (.denseD (← s.toDense (.above 0) id))
  | .sparseD => do
    let c ← Checker.mkAbove (t.sig .single)
    return .one (.sparseD (← s.toSparse c id))
  | .sparseF => do
    let c ← Checker.mkExIn (t.sig .double) (t.sig .single)
    return .one (.sparseF (← s.toSparse c rnd))
  | .multSS => do
    let c1 ← Checker.mkAbove (t.sig .single)
    let X1 ← s.toSparse c1 id
    let c2 ← Checker.mkExIn (t.sig .double) (t.sig .single)
    let X2 ← s.toSparse c2 rnd
    mkTwo (.sparseD X1) (.sparseF X2)
  | .multSD => do
    let c1 ← Checker.mkAbove (t.sig .single)
    let X1 ← s.toSparse c1 id
    let c2 ← Checker.mkExIn (t.sig .double) (t.sig .single)
    let X2 ← s.toDense c2 rnd
    mkTwo (.sparseD X1) (.denseF X2)

/-- `MatrixConverter::operator()` (MatrixConverter.h:138-150). -/
def convertMatrix [LinearOrder D] [Zero D] [Neg D] [NatCast D] [Div D] (b : Build) (rnd : D → F) (t : Settings D)
    (s : Src D) : Res (TMat F D) :=
  execIf b (isConvertible t s) (convertTo rnd t s) typeList

end TMat

/-- A blocked matrix with the element types of its blocks. -/
abbrev TBlocked (F D : Type) := Blocks (TMat F D)

namespace TBlocked

/-- `BlockedMatrixGenerator::operator()` (BlockedMatrixGenerator.h:14-50). -/
def generate [LinearOrder D] [Zero D] [Neg D] [NatCast D] [Div D] (b : Build) (rnd : D → F) (t : Settings D)
    (A : Dense D) (rs cs : List Nat) : Res (TBlocked F D) :=
  Blocks.generateWith (TMat.convertMatrix b rnd t) A rs cs

/-- Conversion of a blocked matrix to a dense one of `double`s (DenseMatrix.h:524-561). -/
def toDense [Zero D] [Add D] (up : F → D) (B : TBlocked F D) : Res (Dense D) :=
  Blocks.toDenseWith (TMat.toDense up) TMat.rows TMat.cols B

/-- Product of two blocked matrices (Multiplication_Native.h:107-152). -/
def mul [Zero F] [Add F] [Mul F] [DecidableEq F] [Zero D] [Add D] [Mul D] [DecidableEq D] (up : F → D)
    (A B : TBlocked F D) : Res (TBlocked F D) :=
  Blocks.mulWith (fun X Y => do return .one (← TMat.mul up X Y)) (fun X Y => do return .one (← TMat.add up X Y)) A B

end TBlocked
end BB
