import Verif.Model.Blocked
import Mathlib.Analysis.Real.Sqrt

/-!
# Norms

include/BlasBooster/Core/Norm.h.  Element values and results are real numbers (`double` arithmetic without
rounding, overflow and NaN).
-/

namespace BB

variable {R : Type}

/-- The loop shape of all norms: `for (iterCur = m.begin(); iterCur != m.end(); ++iterCur) s = step(s,*iterCur)`
(Norm.h:43-50, 88-95, 129-136).  The iterators run over the whole storage array. -/
def foldBuf {V : Type} (step : V → R → V) (b : Buf R) (s : V) : Res V :=
  ptrLoop 0 b.length 1 (fun p s => do
    let x ← b.read p
    return step s x) s

/-- The template parameter `NormType`. -/
inductive NormKind where
  | one
  | two
  | max
  deriving DecidableEq, Repr

/-- `NormFunctor<NormOne/NormTwo/NormMax, Matrix<M,T,P>>` for numeric elements: Norm.h:36-52, 80-97, 122-138. -/
noncomputable def normBuf : NormKind → Buf ℝ → Res ℝ
  | .one, b => foldBuf (fun s x => s + |x|) b 0
  | .two, b => do return Real.sqrt (← foldBuf (fun s x => s + x ^ 2) b 0)
  | .max, b => foldBuf (fun s x => Max.max s |x|) b 0

/-- `norm<NormType>(m)` of a dense, sparse or zero matrix.  A dense matrix iterates over its elements, a
sparse one over its value array.  For zero matrices only NormTwo is specialised (Norm.h:20-27); the general
functors need `begin()`, which `Matrix<Zero>` lacks, so the other calls do not compile – the model's `throw`
stands for that. -/
noncomputable def SMat.norm (k : NormKind) : SMat ℝ → Res ℝ
  | .dense A => normBuf k A.data
  | .sparse S => normBuf k S.value
  | .zero _ => match k with
    | .two => .ok 0
    | _ => .error (.throw "does not compile")

/-- `norm<NormType>(m)` of a matrix of any kind; two-part matrices: Norm.h:70-78 (NormOne: `getMatrix1()`
twice), 111-120, 152-160. -/
noncomputable def Mat.norm (k : NormKind) : Mat ℝ → Res ℝ
  | .one A => A.norm k
  | .two X1 X2 => do
    let S ← SMat.binop (· + ·) id X1 (match k with | .one => X1 | _ => X2)
    S.norm k

/-- `norm<NormType>` of a blocked matrix: Norm.h:54-68, 99-109, 140-150; the block norms go through
`exec_dyn` (Norm.h:162-182) to the functor of the block's kind. -/
noncomputable def Blocked.norm (k : NormKind) (B : Blocked ℝ) : Res ℝ :=
  match k with
  | .one => ptrLoop 0 B.grid.data.length 1 (fun p s => do
      let x ← (← B.grid.data.read p).norm .one
      return s + x) 0
  | .two => do
      let s ← ptrLoop 0 B.grid.data.length 1 (fun p s => do
        let x ← (← B.grid.data.read p).norm .two
        return s + x ^ 2) 0
      return Real.sqrt s
  | .max => ptrLoop 0 B.grid.data.length 1 (fun p s => do
      let x ← (← B.grid.data.read p).norm .max
      return Max.max s x) 0

end BB
