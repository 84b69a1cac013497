import Verif.Model.Wrapper

/-!
The reference signatures of the BLAS routines, written down from the BLAS reference (netlib, plus
the `axpby`, `amin` and `gemm3m` extensions) and MKL's sparse BLAS manual, family by family and
independently of the wrapper tables.  A family gives, for each name prefix, the element type `T`.

Letters of a parameter list: `h` character, `i` integer, `t` / `T` pointer to `T` that is read /
written, `r` / `R` the same for the real type belonging to `T`, `I` an integer that is written.
-/
namespace BB.SpecBlas
open BB.Wrap

/-- The real type belonging to an element type. -/
def real : Ty → Ty
  | .cfloat => .float
  | .cdouble => .double
  | t => t

def param (T : Ty) : Char → Par
  | 'h' => ⟨true, .char⟩
  | 'i' => ⟨true, .int⟩
  | 'I' => ⟨false, .int⟩
  | 't' => ⟨true, T⟩
  | 'T' => ⟨false, T⟩
  | 'r' => ⟨true, real T⟩
  | 'R' => ⟨false, real T⟩
  | _ => ⟨false, .void⟩

def result (T : Ty) : Char → Ty
  | 'T' => T
  | 'R' => real T
  | 'i' => .int
  | _ => .void

/-- A family of routines: name prefixes with their element types, the rest of the name, the result
and the parameters. -/
structure Family where
  prefixes : List (String × Ty)
  stem : String
  res : Char
  params : String

def Family.sigs (f : Family) : List Sig :=
  f.prefixes.map fun p =>
    { name := p.1 ++ f.stem, ret := result p.2 f.res, params := f.params.toList.map (param p.2) }

def sd : List (String × Ty) := [("s", .float), ("d", .double)]
def cz : List (String × Ty) := [("c", .cfloat), ("z", .cdouble)]
def sdcz : List (String × Ty) := sd ++ cz
/-- real results of complex vectors -/
def scdz : List (String × Ty) := [("sc", .cfloat), ("dz", .cdouble)]
/-- complex vectors with real scalars -/
def cszd : List (String × Ty) := [("cs", .cfloat), ("zd", .cdouble)]
def indexed : List (String × Ty) := [("is", .float), ("id", .double), ("ic", .cfloat), ("iz", .cdouble)]

def families : List Family := [
  -- level 1
  ⟨[("s", .cfloat), ("d", .cdouble)], "cabs1", 'R', "t"⟩,
  ⟨sd ++ scdz, "asum", 'R', "iti"⟩,
  ⟨sd ++ scdz, "nrm2", 'R', "iti"⟩,
  ⟨sdcz, "axpy", 'v', "ittiTi"⟩,
  ⟨sdcz, "axpby", 'v', "ittitTi"⟩,
  ⟨sdcz, "copy", 'v', "itiTi"⟩,
  ⟨sdcz, "swap", 'v', "iTiTi"⟩,
  ⟨sdcz, "scal", 'v', "itTi"⟩,
  ⟨cszd, "scal", 'v', "irTi"⟩,
  ⟨sd, "dot", 'T', "ititi"⟩,
  ⟨[("sds", .float)], "dot", 'T', "ittiti"⟩,
  ⟨cz, "dotc", 'T', "ititi"⟩,
  ⟨cz, "dotu", 'T', "ititi"⟩,
  ⟨sd ++ cszd, "rot", 'v', "iTiTirr"⟩,
  ⟨sd, "rotg", 'v', "TTTT"⟩,
  ⟨cz, "rotg", 'v', "TtRT"⟩,
  ⟨sd, "rotm", 'v', "iTiTit"⟩,
  ⟨sd, "rotmg", 'v', "TTTtT"⟩,
  ⟨indexed, "amax", 'i', "iti"⟩,
  ⟨indexed, "amin", 'i', "iti"⟩,
  -- level 2
  ⟨sdcz, "gbmv", 'v', "hiiiittititTi"⟩,
  ⟨sdcz, "gemv", 'v', "hiittititTi"⟩,
  ⟨sd, "ger", 'v', "iittitiTi"⟩,
  ⟨cz, "gerc", 'v', "iittitiTi"⟩,
  ⟨cz, "geru", 'v', "iittitiTi"⟩,
  ⟨sd, "sbmv", 'v', "hiittititTi"⟩,
  ⟨cz, "hbmv", 'v', "hiittititTi"⟩,
  ⟨sd, "spmv", 'v', "hitttitTi"⟩,
  ⟨cz, "hpmv", 'v', "hitttitTi"⟩,
  ⟨sd, "symv", 'v', "hittititTi"⟩,
  ⟨cz, "hemv", 'v', "hittititTi"⟩,
  ⟨sd, "spr", 'v', "hittiT"⟩,
  ⟨cz, "hpr", 'v', "hirtiT"⟩,
  ⟨sd, "spr2", 'v', "hittitiT"⟩,
  ⟨cz, "hpr2", 'v', "hittitiT"⟩,
  ⟨sd, "syr", 'v', "hittiTi"⟩,
  ⟨cz, "her", 'v', "hirtiTi"⟩,
  ⟨sd, "syr2", 'v', "hittitiTi"⟩,
  ⟨cz, "her2", 'v', "hittitiTi"⟩,
  ⟨sdcz, "tbmv", 'v', "hhhiitiTi"⟩,
  ⟨sdcz, "tbsv", 'v', "hhhiitiTi"⟩,
  ⟨sdcz, "tpmv", 'v', "hhhitTi"⟩,
  ⟨sdcz, "tpsv", 'v', "hhhitTi"⟩,
  ⟨sdcz, "trmv", 'v', "hhhitiTi"⟩,
  ⟨sdcz, "trsv", 'v', "hhhitiTi"⟩,
  -- level 3
  ⟨sdcz, "gemm", 'v', "hhiiittititTi"⟩,
  ⟨cz, "gemm3m", 'v', "hhiiittititTi"⟩,
  ⟨sdcz, "symm", 'v', "hhiittititTi"⟩,
  ⟨cz, "hemm", 'v', "hhiittititTi"⟩,
  ⟨sdcz, "syrk", 'v', "hhiittitTi"⟩,
  ⟨cz, "herk", 'v', "hhiirtirTi"⟩,
  ⟨sdcz, "syr2k", 'v', "hhiittititTi"⟩,
  ⟨cz, "her2k", 'v', "hhiittitirTi"⟩,
  ⟨sdcz, "trmm", 'v', "hhhhiittiTi"⟩,
  ⟨sdcz, "trsm", 'v', "hhhhiittiTi"⟩]

/-- `dsdot`: the dot product of two single precision vectors in double precision. -/
def dsdot : Sig := ⟨"dsdot", .double, [⟨true, .int⟩, ⟨true, .float⟩, ⟨true, .int⟩, ⟨true, .float⟩, ⟨true, .int⟩]⟩

/-- All BLAS routines. -/
def blas : List Sig := dsdot :: families.flatMap Family.sigs

/-- MKL's sparse routines: product of a CSR matrix with a dense one, product of two CSR matrices. -/
def sparse : List Sig := [
  (⟨sd, "csrmm", 'v', "hiiithtiiititTi"⟩ : Family),
  ⟨sd, "csrmultcsr", 'v', "hiiiiiTIITIITIIiI"⟩].flatMap Family.sigs

/-- The routines that return a complex number. -/
def complexDots : List String := ["cdotc", "cdotu", "zdotc", "zdotu"]

/-- The name of the routine in the library: Fortran's trailing underscore; MKL's prefix for the
sparse routines. -/
def symbol (name : String) : String :=
  if name ∈ sparse.map Sig.name then "mkl_" ++ name else name ++ "_"

end BB.SpecBlas
