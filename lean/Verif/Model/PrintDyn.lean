import Verif.Model.Print
import Verif.Model.Typed

/-!
# Printing of dynamic matrices

include/BlasBooster/Core/MatrixIO.h:146-200.  `FF` and `FD` say how `float` and `double` numbers are written.
-/

namespace BB.Print

variable {F D : Type}

/-- `operator << (std::ostream&, Matrix<M,T,P> const&)` (MatrixIO.h:146-151) with the functors of MatrixIO.h:38-144; the names
are those of DenseMatrix.h:299, SparseMatrix.h:137, ZeroMatrix.h:76 with TypeName.h:14-24. -/
def single (FF : Format F) (FD : Format D) : TSMat F D → Stream → Res Stream
  | .denseF A, s => dense FF "Matrix<Dense,float>".toList A.view A.data s
  | .sparseF A, s => sparse FF.str "Matrix<Sparse,float>".toList A s
  | .denseD A, s => dense FD "Matrix<Dense,double>".toList A.view A.data s
  | .sparseD A, s => sparse FD.str "Matrix<Sparse,double>".toList A s
  | .zero d, s => .ok (zero "Matrix<Zero>".toList d s)

/-- `operator << (std::ostream&, MultipleMatrix<X1,X2> const&)` (MatrixIO.h:153-157) and the single matrices. -/
def matrix (FF : Format F) (FD : Format D) : TMat F D → Stream → Res Stream
  | .one A, s => single FF FD A s
  | .two X1 X2, s => do
    let s ← single FF FD X1 s
    single FF FD X2 s

/-- `operator << (std::ostream&, DynamicMatrix const&)` (MatrixIO.h:187-195 with the functor 167-185): `none` is a null
pointer, the dispatch on the type index is the case distinction of `matrix` (C37 is about the dispatch). -/
def dynamic (FF : Format F) (FD : Format D) : Option (TMat F D) → Stream → Res Stream
  | none, s => .ok (s.text "No Matrix found.".toList)
  | some M, s => matrix FF FD M s

/-- `stream << A1 << A2 << …`. -/
def printAll (FF : Format F) (FD : Format D) : List (Option (TMat F D)) → Stream → Res Stream
  | [], s => .ok s
  | A :: l, s => do
    let s ← dynamic FF FD A s
    printAll FF FD l s

end BB.Print
