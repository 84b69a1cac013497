import Verif.Model.Base

/-!
The BLAS interface layer: `BlasInterface<OpenBLAS, f>` and `BlasInterface<IntelMKL, f>` for the 158
BLAS routines `f` (and four MKL sparse routines).  A wrapper receives pointers, calls the extern
"C" routine and returns what it returns; the wrappers of the four complex dot products hand the
routine the address of a local `result` and return that.

The rows themselves are in `Verif/Model/WrapperTable.lean`, extracted from the source text.
-/
namespace BB.Wrap

/-- The types that occur in /repo/include/BlasBooster/BlasInterface/Blas.h. -/
inductive Ty | float | double | cfloat | cdouble | int | char | void
deriving DecidableEq, Repr

/-- A pointer parameter: pointee type and whether the pointee is const (Blas.h:7-165). -/
structure Par where
  const : Bool
  ty : Ty
deriving DecidableEq, Repr

/-- How `tools/gen_wrappers.py` writes a pointer type: lower case for pointer to const. -/
def par : Char → Par
  | 's' => ⟨true, .float⟩ | 'd' => ⟨true, .double⟩ | 'c' => ⟨true, .cfloat⟩ | 'z' => ⟨true, .cdouble⟩
  | 'i' => ⟨true, .int⟩ | 'h' => ⟨true, .char⟩
  | 'S' => ⟨false, .float⟩ | 'D' => ⟨false, .double⟩ | 'C' => ⟨false, .cfloat⟩ | 'Z' => ⟨false, .cdouble⟩
  | 'I' => ⟨false, .int⟩ | 'H' => ⟨false, .char⟩
  | _ => ⟨false, .void⟩

/-- A parameter list from its letters. -/
def sig (s : String) : List Par := s.toList.map par

/-- A function signature: a call operator of BlasInterface_OpenBLAS.h:12-957 /
BlasInterface_IntelMKL.h:12-981, or a prototype of Blas.h:7-165 / IntelMKL_SpBlas.h:5-8. -/
structure Sig where
  name : String
  ret : Ty
  params : List Par
deriving DecidableEq, Repr

/-- An actual argument of the inner call: a parameter of the wrapper (by position), or `&result`
(BlasInterface_OpenBLAS.cpp:937-967). -/
inductive Arg | v (i : Nat) | res
deriving DecidableEq, Repr

/-- One wrapper: /repo/src/Interfaces/OpenBLAS/BlasInterface_OpenBLAS.cpp:13-967,
/repo/src/Interfaces/IntelMKL/BlasInterface_IntelMKL.cpp:20-998. -/
structure Wrapper where
  name : String
  ret : Ty
  params : List Par
  callee : String
  args : List Arg
  /-- the result is read from a local variable whose address was passed -/
  hidden : Bool
deriving DecidableEq, Repr

/-- A pointer: into the caller's memory, or to the wrapper's local `result`. -/
inductive Ptr | user (a : Nat) | loc
deriving DecidableEq, Repr

/-- Memory: the value behind a pointer, `none` where nothing was stored.  One value stands for the
whole object a pointer designates (a scalar, a character, an array). -/
abbrev Mem (V : Type) := Ptr → Option V

/-- Store a value / start or end the life of an object. -/
def Mem.put {V : Type} (m : Mem V) (p : Ptr) (v : Option V) : Mem V := fun q => if q = p then v else m q

/-- A BLAS library: what each extern "C" symbol does with the pointers it gets, and the value it
returns (`none` for void). -/
abbrev Lib (V : Type) := String → List Ptr → Mem V → Res (Mem V × Option V)

/-- The inner call's argument list: `::f(v0, v2, ...)`, `::f(&result, v1, ...)`. -/
def actuals (given : List Ptr) : List Arg → Res (List Ptr)
  | [] => .ok []
  | .res :: as => do let r ← actuals given as; return .loc :: r
  | .v i :: as => do
      match given[i]? with
      | none => .error .ub
      | some p => let r ← actuals given as; return p :: r

/-- `BlasInterface<…, f>::operator()(given…)`.
BlasInterface_OpenBLAS.cpp:13-17 (forwarding form) and :937-943 (`result` form: the local
`std::complex<…> result` is value-initialised to `zero`, is read after the call and dies with the
return). -/
def Wrapper.call {V : Type} (zero : V) (w : Wrapper) (lib : Lib V) (given : List Ptr) (m : Mem V) :
    Res (Mem V × Option V) := do
  let as ← actuals given w.args
  if w.hidden then
    let (m', _) ← lib w.callee as (m.put .loc (some zero))
    match m' .loc with
    | none => .error .ub
    | some v => return (m'.put .loc none, some v)
  else
    lib w.callee as m

/-- The wrapper a tag selects: template specialisation `BlasInterface<Lib, name>`. -/
def select (table : List Wrapper) (name : String) : Option Wrapper := table.find? (·.name = name)

/-- The thread settings of the two libraries: OpenBLAS' count, MKL's dynamic flag and count. -/
structure Threads where
  openblas : Int
  mklDynamic : Bool
  mkl : Int
deriving DecidableEq, Repr

/-- BlasInterface_OpenBLAS.cpp:8-11. -/
def setOpenBLAS (n : Int) (t : Threads) : Threads := { t with openblas := n }

/-- `MKL_Set_Dynamic`, `MKL_Set_Num_Threads` (extern, BlasInterface_IntelMKL.cpp:7-10). -/
def mklSetDynamic (flag : Int) (t : Threads) : Threads := { t with mklDynamic := flag ≠ 0 }
def mklSetNum (n : Int) (t : Threads) : Threads := { t with mkl := n }

/-- BlasInterface_IntelMKL.cpp:14-18. -/
def setIntelMKL (n : Int) (t : Threads) : Threads := mklSetNum n (mklSetDynamic 0 t)

end BB.Wrap
