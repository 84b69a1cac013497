import Verif.Model.Converter

/-!
# Blocked matrices

`BlockedDenseMatrix = Matrix<Dense, DynamicMatrix, BlockedDenseMatrixParameter>`
(include/BlasBooster/Core/BlockedMatrix.h): a column-major dense matrix of shared pointers to matrices.
A cell that is `none` is a null pointer (default constructed `std::shared_ptr`); dereferencing it is
undefined.  Blocks are never modified through the pointers by the code modelled here, so a pointer is
modelled by the matrix it points to.
-/

namespace BB

variable {R : Type}

/-- A dense matrix of matrix objects of type `α` with unblocked dimensions (BlockedMatrix.h,
Dimension.h:151-177). -/
structure Blocks (α : Type) where
  grid : Dense α
  ubRows : Nat
  ubCols : Nat

/-- A blocked matrix: the grid and the unblocked dimensions (Dimension.h:151-177). -/
abbrev Blocked (R : Type) := Blocks (Mat R)

/-- Dereferencing the `i`-th iterator of a `std::vector`. -/
def vecRead {α : Type} (l : List α) (i : Nat) : Res α :=
  match l[i]? with
  | some x => .ok x
  | none => .error .ub

/-- `copy(source, dest)` with cursors (Copy.h:10-29): `dest` is the view `v` of array `d`. -/
def copyInto (S : Dense R) (v : View) (d : Buf R) : Res (Buf R) :=
  ptrLoop 0 S.dim.rows 1 (fun i (d : Buf R) => do
    let (_, d) ← ptrLoop (S.view.rowBegin i) (S.view.rowEnd i) S.view.rowStride
      (fun p (t : Nat × Buf R) => do
        let x ← S.data.read p
        let d ← t.2.write t.1 x
        return (t.1 + v.rowStride, d)) (v.rowBegin i, d)
    return d) d

namespace Blocks

variable {α : Type}

/-- `BlockedMatrixGenerator::operator()` (BlockedMatrixGenerator.h:14-50); `conv` is the conversion of a
submatrix.  State of the outer loop: `subRowOffset` and the grid; of the inner loop: the column iterator,
`subColumnOffset` and the grid. -/
def generateWith (conv : Src R → Res α) (A : Dense R) (rs cs : List Nat) : Res (Blocks α) := do
  let G : Dense α := Dense.new .col rs.length cs.length
  let (_, d) ← ptrLoop 0 G.dim.rows 1 (fun i (s : Nat × Buf α) => do
    let h ← vecRead rs i
    let (_, _, d) ← ptrLoop (G.view.rowBegin i) (G.view.rowEnd i) G.view.rowStride
      (fun p (u : Nat × Nat × Buf α) => do
        let w ← vecRead cs u.1
        let M ← conv (.sub A h w s.1 u.2.1)
        let d ← u.2.2.write p M
        return (u.1 + 1, u.2.1 + w, d)) (0, 0, s.2)
    return (s.1 + h, d)) (0, G.data)
  return ⟨{ G with data := d }, A.dim.rows, A.dim.cols⟩

/-- Conversion of a blocked matrix to a dense one (DenseMatrix.h:524-561); `dense` is the conversion of a
block.  State of the outer loop: `subRowOffset`, `subRowOffsetTmp`, the result's storage; of the inner
loop: `subColumnOffset`, `subRowOffsetTmp`, storage. -/
def toDenseWith (dense : α → Res (Dense R)) (rows cols : α → Nat) (B : Blocks α) : Res (Dense R) := do
  let D : Dense R := Dense.new .col B.ubRows B.ubCols
  let (_, _, d) ← ptrLoop 0 B.grid.dim.rows 1 (fun i (s : Nat × Nat × Buf R) => do
    let (_, tmp, d) ← ptrLoop (B.grid.view.rowBegin i) (B.grid.view.rowEnd i) B.grid.view.rowStride
      (fun p (u : Nat × Nat × Buf R) => do
        let M ← B.grid.data.read p
        let S ← dense M
        let d ← copyInto S (D.view.sub (rows M) (cols M) s.1 u.1) u.2.2
        return (u.1 + cols M, rows M, d)) (0, s.2.1, s.2.2)
    return (s.1 + tmp, tmp, d)) (0, 0, D.data)
  return { D with data := d }

/-- Product of two blocked matrices (Multiplication_Native.h:107-152) into a default constructed `C`; `mul`
and `add` are the product and the sum of two blocks.  `C.resize` (DenseMatrix.h:699-710) does not update
the size.  The pointers `curColumnC`, `curColumnA`, `curRowB` are explicit. -/
def mulWith (mul add : α → α → Res α) (A B : Blocks α) : Res (Blocks α) := do
  let G : Dense α := ⟨.col, ⟨A.grid.dim.rows, B.grid.dim.cols, 0⟩, Buf.alloc (A.grid.dim.rows * B.grid.dim.cols)⟩
  let d ← ptrLoop 0 A.grid.dim.rows 1 (fun i (d : Buf α) => do
    let (_, d) ← ptrLoop 0 B.grid.dim.cols 1 (fun j (u : Nat × Buf α) => do
      let a0 := A.grid.view.rowBegin i
      let aE := A.grid.view.rowEnd i
      let b0 := B.grid.view.colBegin j
      if a0 = aE then return (u.1 + G.view.rowStride, u.2)
      else
        let MA ← A.grid.data.read a0
        let MB ← B.grid.data.read b0
        let P ← mul MA MB
        let d ← u.2.write u.1 P
        let (_, d) ← ptrLoop (a0 + A.grid.view.rowStride) aE A.grid.view.rowStride
          (fun pa (w : Nat × Buf α) => do
            let cur ← w.2.read u.1
            let MA ← A.grid.data.read pa
            let MB ← B.grid.data.read w.1
            let P ← mul MA MB
            let S ← add cur P
            let d ← w.2.write u.1 S
            return (w.1 + B.grid.view.colStride, d)) (b0 + B.grid.view.colStride, d)
        return (u.1 + G.view.rowStride, d)) (G.view.rowBegin i, d)
    return d) G.data
  return ⟨{ G with data := d }, A.ubRows, B.ubCols⟩

end Blocks

namespace Blocked

/-- `BlockedMatrixGenerator::operator()` (BlockedMatrixGenerator.h:14-50): every submatrix is converted by
`MatrixConverter`. -/
def generate [LinearOrder R] [Zero R] [Neg R] [NatCast R] [Div R] (b : Build) (rnd : R → R) (t : Settings R) (A : Dense R)
    (rs cs : List Nat) : Res (Blocked R) :=
  Blocks.generateWith (fun s => do return (← convertMatrix b rnd t s).2) A rs cs

/-- Conversion of a blocked matrix to a dense one (DenseMatrix.h:524-561). -/
def toDense [Zero R] [Add R] (B : Blocked R) : Res (Dense R) :=
  Blocks.toDenseWith Mat.toDense Mat.rows Mat.cols B

/-- Product of two blocked matrices (Multiplication_Native.h:107-152): `TheBestPolicy` products of the
blocks (DynamicMultFunctor, MatrixMultExp.h:148-165), added with `operator +`. -/
def mul [Zero R] [Add R] [Mul R] [DecidableEq R] (A B : Blocked R) : Res (Blocked R) :=
  Blocks.mulWith (fun X Y => do return .one (← Mat.mul X Y)) (fun X Y => do return .one (← Mat.add (· + ·) X Y)) A B

end Blocked
end BB
