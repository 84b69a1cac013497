/-!
# Outcomes, buffers and loops

The semantic domain of the whole model.  Nothing here is specific to one file of /repo; the
definitions give meaning to the C++ constructs used there.
-/

namespace BB

/-- Abnormal outcomes of a C++ call.  `ub`: undefined behaviour (out-of-range access, read of an
uninitialised object, run-away pointer loop, double free ...).  `throw`: a C++ exception.
`assertFail`: a failing `assert` (include/BlasBooster/Core/CoreException.h:12-16 makes
`BLASBOOSTER_CORE_FAILURE` an `assert` in the default configuration). -/
inductive Fault where
  | ub
  | throw (what : String)
  | assertFail
  deriving DecidableEq, Repr

/-- Result of a C++ call: a value or a fault. -/
abbrev Res (α : Type) := Except Fault α

/-- `assert(c)` (C library, debug build). -/
def assertThat (c : Bool) : Res Unit := if c then .ok () else .error .assertFail

/-- A heap array of a numeric type: `none` marks a cell that was allocated by `new T[n]` but never
written (include/BlasBooster/Core/Storage.h:311-319 allocates without initialising). -/
abbrev Buf (R : Type) := List (Option R)

/-- A freshly allocated array `new T[n]` of a numeric type (Storage.h:311-319). -/
def Buf.alloc {R : Type} (n : Nat) : Buf R := List.replicate n none

/-- `*(p + i)` as an rvalue. -/
def Buf.read {R : Type} (b : Buf R) (i : Nat) : Res R :=
  match b[i]? with
  | some (some v) => .ok v
  | _ => .error .ub

/-- `*(p + i) = v`. -/
def Buf.write {R : Type} (b : Buf R) (i : Nat) (v : R) : Res (Buf R) :=
  if i < b.length then .ok (b.set i (some v)) else .error .ub

/-- `for (size_t i = 0; i != n; ++i) body(i)`. -/
def loopN {σ : Type} : Nat → (Nat → σ → Res σ) → σ → Res σ
  | 0, _, s => .ok s
  | n + 1, f, s => (loopN n f s).bind (f n)

/-- Fuelled version of `ptrLoop`. -/
def ptrLoopAux {σ : Type} : Nat → Nat → Nat → Nat → (Nat → σ → Res σ) → σ → Res σ
  | 0, _, _, _, _, _ => .error .ub
  | fuel + 1, cur, stop, stride, f, s =>
    if cur = stop then .ok s
    else (f cur s).bind (ptrLoopAux fuel (cur + stride) stop stride f)

/-- `for (p = cur; p != stop; p += stride) body(p)` for a pointer/iterator `p` (offsets in one array).
A loop that never meets `stop` exactly runs away over memory: `ub`.  `stop + 1` steps are enough for
every loop that terminates properly (with `stride ≥ 1`). -/
def ptrLoop {σ : Type} (cur stop stride : Nat) (f : Nat → σ → Res σ) (s : σ) : Res σ :=
  ptrLoopAux (stop + 1) cur stop stride f s

/-- Storage orientation: include/BlasBooster/Core/Dimension.h:10-14. -/
inductive Ori where
  | col  -- ColumnMajor
  | row  -- RowMajor
  deriving DecidableEq, Repr

end BB
