import Verif.Model.Blocked
import Verif.Model.Dispatch
import Verif.Model.Alias
import Verif.Model.Norm


/-!
# Information about blocked matrices

include/BlasBooster/Core/GenerateTypeMatrix.h, DynamicMatrixFunctions.h and the type-block picture of
src/Benchmark/show_pattern.cpp.  A block is an object with a dynamic type (`Dispatch.Obj`).
-/

namespace BB.Info

variable {R α β T : Type}

/-- Loop body of GenerateTypeMatrix.h:19-22, 41-45, 62-65: `*targetCur = f(*blockCur)`, both iterators advance. -/
def mapStep (f : α → Res β) (src : Buf α) (p : Nat) (s : Nat × Buf β) : Res (Nat × Buf β) := do
  let o ← src.read p
  let x ← f o
  let d ← s.2.write s.1 x
  return (s.1 + 1, d)

/-- The common shape of generateTypeMatrix, generateDimensionMatrix and generateNormMatrix
(GenerateTypeMatrix.h:12-25, 34-48, 55-68): a new column-major matrix of the dimensions of the grid, filled by running
through both storages. -/
def mapGrid (f : α → Res β) (G : Dense α) : Res (Dense β) := do
  let D : Dense β := Dense.new .col G.dim.rows G.dim.cols
  let (_, d) ← ptrLoop 0 G.data.length 1 (mapStep f G.data) (0, D.data)
  return { D with data := d }

/-- `generateTypeMatrix` (GenerateTypeMatrix.h:12-25); the conversion of the index to `int` keeps it. -/
def typeMatrix [DecidableEq T] (L : List T) (G : Dense (Dispatch.Obj T α)) : Res (Dense Nat) :=
  mapGrid (fun o => .ok (Dispatch.getIndex o.ty L)) G

/-- `generateDimensionMatrix` (GenerateTypeMatrix.h:34-48) with `getNbRows`, `getNbColumns` of a DynamicMatrix
(DynamicMatrixFunctions.h:10-48); `dims t x` are the dimensions of an object of type `t`. -/
def dimMatrix [DecidableEq T] (b : Build) (L : List T) (dims : T → α → Nat × Nat) (G : Dense (Dispatch.Obj T α)) :
    Res (Dense (Nat × Nat)) :=
  mapGrid (fun o => do
    let r ← Dispatch.execIfIndex b L (fun t x => .ok (dims t x).1) o
    let c ← Dispatch.execIfIndex b L (fun t x => .ok (dims t x).2) o
    return (r, c)) G

/-- `generateNormMatrix` (GenerateTypeMatrix.h:55-68) with `getNorm` of a DynamicMatrix
(DynamicMatrixFunctions.h:70-88); `nrm t x` is the norm of an object of type `t`. -/
def normMatrix [DecidableEq T] (b : Build) (L : List T) (nrm : T → α → Res R) (G : Dense (Dispatch.Obj T α)) : Res (Dense R) :=
  mapGrid (fun o => Dispatch.execIfIndex b L nrm o) G

/-- `getNorm()` of a block: the 2-norm (Parameter.h, NormPolicy.h:20-24), 0 for a zero matrix (ZeroMatrix.h:111-114),
"not implemented yet" for a two-part matrix (MultipleMatrix.h:85-90): a failure where failures are enabled, else 0.
Computed afresh (caching is C34). -/
noncomputable def blockNorm (b : Build) : Mat ℝ → Res ℝ
  | .one A => A.norm .two
  | .two _ _ => do
    coreFailure b "not implemented yet"
    return 0

/-- Loop body of `get_type_counting` (GenerateTypeMatrix.h:30): `++type_counting[index]`. -/
def countStep [DecidableEq T] (L : List T) (src : Buf (Dispatch.Obj T α)) (p : Nat) (cnt : Buf Nat) : Res (Buf Nat) := do
  let o ← src.read p
  let n ← cnt.read (Dispatch.getIndex o.ty L)
  cnt.write (Dispatch.getIndex o.ty L) (n + 1)

/-- `get_type_counting` (GenerateTypeMatrix.h:27-32): the `std::array` is not initialised. -/
def typeCounting [DecidableEq T] (L : List T) (G : Dense (Dispatch.Obj T α)) : Res (Buf Nat) :=
  ptrLoop 0 G.data.length 1 (countStep L G.data) (Buf.alloc (Dispatch.getSize L))

/-! ### The picture of the block types (show_pattern.cpp:84-125) -/

/-- `AllFiller<double>(x)(sub_matrix)` for a submatrix (MatrixFiller.h:20-28, Storage.h:588-610), `fuel` bounds the
number of steps. -/
def fillStriped (s : Striped) (fuel : Nat) (x : R) (d : Buf R) : Res (Buf R) :=
  s.begin.loop fuel s.endPtr (fun p d => Alias.writeI d p x) d

/-- The loops over `border_width` (show_pattern.cpp:106-109) for the submatrix `v`; `w` is not negative. -/
def border [Zero R] (v : View) (w : Nat) (d : Buf R) : Res (Buf R) :=
  ptrLoop 0 w 1 (fun i d => do
    let d ← ptrLoop 0 v.rows 1 (fun j d => v.set d j i 0) d
    ptrLoop w v.cols 1 (fun j d => v.set d i j 0) d) d

/-- Body of the inner loop (show_pattern.cpp:98-117).  State: the cursor of the dimension matrix,
`sub_column_offset`, `sub_row_offset_tmp`, the storage of the picture. -/
def pictureStep [Zero R] (pow : Nat → R) (w : Nat) (types : Dense Nat) (dims : Dense (Nat × Nat)) (P : View) (ro : Nat) (p : Nat)
    (u : Nat × Nat × Nat × Buf R) : Res (Nat × Nat × Nat × Buf R) := do
  let nm ← dims.data.read u.1
  let t ← types.data.read p
  let d ← fillStriped (P.subStriped nm.1 nm.2 ro u.2.1) (u.2.2.2.length + 1) (pow t) u.2.2.2
  let d ← border (P.sub nm.1 nm.2 ro u.2.1) w d
  return (u.1 + dims.view.rowStride, u.2.1 + nm.2, nm.1, d)

/-- Body of the outer loop (show_pattern.cpp:93-120).  State: `sub_row_offset`, `sub_row_offset_tmp`, storage. -/
def pictureRow [Zero R] (pow : Nat → R) (w : Nat) (types : Dense Nat) (dims : Dense (Nat × Nat)) (P : View) (i : Nat)
    (s : Nat × Nat × Buf R) : Res (Nat × Nat × Buf R) := do
  let (_, _, tmp, d) ← ptrLoop (types.view.rowBegin i) (types.view.rowEnd i) types.view.rowStride
    (pictureStep pow w types dims P s.1) (dims.view.rowBegin i, 0, s.2.1, s.2.2)
  return (s.1 + tmp, tmp, d)

/-- The matrix `type_block_matrix` (show_pattern.cpp:81-120) of a matrix with `rows` x `cols` elements.
`pow t` stands for `std::pow(10, -1.0 * t)`. -/
def picture [Zero R] (pow : Nat → R) (w : Nat) (rows cols : Nat) (types : Dense Nat) (dims : Dense (Nat × Nat)) : Res (Dense R) := do
  let D : Dense R := Dense.new .col rows cols
  let (_, _, d) ← ptrLoop 0 types.dim.rows 1 (pictureRow pow w types dims D.view) (0, 0, D.data)
  return { D with data := d }

end BB.Info
