import Verif.Model.Typed
import Verif.Model.Compare

/-!
# Norms and deviations in rounding arithmetic

include/BlasBooster/Core/Norm.h and StatisticalErrorInformation.h once more, with the operations on `double` as parameters
instead of exact real arithmetic (Model/Norm.lean, Model/Compare.lean), and with the element types of Model/Typed.lean.
-/

namespace BB

/-- The operations on `double` that the norm and deviation functions use besides `+`: `std::abs(x)`, `std::pow(x,2)`,
`std::sqrt(x)`, `std::max(x,y)`, `x - y`, `x / y` and the conversion of a `size_t` to `double`. -/
structure FOps (D : Type) where
  abs : D → D
  sq : D → D
  sqrt : D → D
  max : D → D → D
  sub : D → D → D
  div : D → D → D
  count : Nat → D

variable {F D : Type}

/-- `NormFunctor<NormOne/NormTwo/NormMax, Matrix<M,T,P>>` for numeric elements: Norm.h:36-52, 80-97, 122-138.  The
accumulator is a `double`. -/
def fnormBuf [Zero D] [Add D] (o : FOps D) : NormKind → Buf D → Res D
  | .one, b => foldBuf (fun s x => s + o.abs x) b 0
  | .two, b => do return o.sqrt (← foldBuf (fun s x => s + o.sq x) b 0)
  | .max, b => foldBuf (fun s x => o.max s (o.abs x)) b 0

/-- `norm<NormType>(m)` of a dense, sparse or zero matrix with its element type.  `std::abs` of a `float` is a `float` and
`std::pow(float,int)` a `double`; so both convert the element to `double` at no loss.  `std::max(norm, std::abs(x))`
(Norm.h:132) does not compile for `float` elements, and for zero matrices only NormTwo does (Norm.h:20-27): the model's
`throw` stands for that. -/
def TSMat.fnorm [Zero D] [Add D] (o : FOps D) (up : F → D) (k : NormKind) : TSMat F D → Res D
  | .denseF A => if k = .max then .error (.throw "does not compile") else fnormBuf o k (A.mapE up).data
  | .sparseF S => if k = .max then .error (.throw "does not compile") else fnormBuf o k (S.mapE up).value
  | .denseD A => fnormBuf o k A.data
  | .sparseD S => fnormBuf o k S.value
  | .zero _ => if k = .two then .ok 0 else .error (.throw "does not compile")

/-- `norm<NormType>(m)` of a matrix of any kind; two-part matrices: Norm.h:70-78 (NormOne: `getMatrix1()` twice),
111-120, 152-160. -/
def TMat.fnorm [Zero D] [Add F] [Add D] (o : FOps D) (up : F → D) (k : NormKind) : TMat F D → Res D
  | .one A => A.fnorm o up k
  | .two X1 X2 => do
    let S ← TSMat.add up X1 (match k with | .one => X1 | _ => X2)
    S.fnorm o up k

/-- `norm<NormTwo>` of a blocked matrix: Norm.h:99-109.  (The other two do not compile: `exec_dyn`, Norm.h:162-182,
instantiates them for zero matrices.) -/
def TBlocked.fnorm [Zero D] [Add F] [Add D] (o : FOps D) (up : F → D) (B : TBlocked F D) : Res D := do
  let s ← ptrLoop 0 B.grid.data.length 1 (fun p s => do
    let x ← (← B.grid.data.read p).fnorm o up .two
    return s + o.sq x) 0
  return o.sqrt s

/-- `getMaximalDeviation(A,B)` (StatisticalErrorInformation.h:5-16) of dense matrices of `double`s. -/
def Dense.fmaxDeviation [Zero D] (o : FOps D) (A B : Dense D) : Res D :=
  foldBuf2 (fun s x y => o.max s (o.abs (o.sub x y))) A.data B.data 0

/-- `getRootMeanSquareDeviation(A,B)` (StatisticalErrorInformation.h:18-29) of dense matrices of `double`s.  For an empty
matrix the code evaluates `0.0/0`; what `div` gives then is left open. -/
def Dense.frmsDeviation [Zero D] [Add D] (o : FOps D) (A B : Dense D) : Res D := do
  let m ← foldBuf2 (fun s x y => s + o.sq (o.sub x y)) A.data B.data 0
  return o.sqrt (o.div m (o.count (A.dim.rows * A.dim.cols)))

/-- Exact real arithmetic. -/
noncomputable def realOps : FOps ℝ where
  abs x := |x|
  sq x := x ^ 2
  sqrt := Real.sqrt
  max := Max.max
  sub x y := x - y
  div x y := x / y
  count n := n

end BB
