import Verif.Model.Typed

/-!
# Expressions over dynamic matrices

`operator +` on `DynamicMatrix` (BinaryFunctors.h:592-613) and `(A * B).execute<Native>()` (MatrixMultExp.h:142-183)
return a new `DynamicMatrix`, which can be used as an operand again; a product is not an operand before `execute` has been
called.  The dispatch of both through `exec_dyn_2dim` is modelled in `Dispatch.lean`; here the call has arrived at the
operator for the runtime types of the operands.
-/

namespace BB

variable {F D : Type}

/-- An expression: a matrix of the program, the sum of two expressions, or their executed product. -/
inductive TExpr (F D : Type) where
  | leaf (A : TMat F D)
  | add (a b : TExpr F D)
  | mul (a b : TExpr F D)

/-- What the expression evaluates to.  The operands are evaluated first (in one of the orders C++ allows; they do not
influence each other), `*ptrC = …` (BinaryFunctors.h:603, MatrixMultExp.h:152) stores the result in a new matrix of the
static type of the result. -/
def TExpr.eval [Zero F] [Add F] [Mul F] [DecidableEq F] [Zero D] [Add D] [Mul D] [DecidableEq D] (up : F → D) :
    TExpr F D → Res (TMat F D)
  | .leaf A => .ok A
  | .add a b => do return .one (← TMat.add up (← a.eval up) (← b.eval up))
  | .mul a b => do return .one (← TMat.mul up (← a.eval up) (← b.eval up))

end BB
