import Verif.Model.Converter

/-!
# Type lists and dynamic dispatch

include/BlasBooster/Utilities/TypeList.h, TypeChecker.h, exec_if.h, exec_if_2dim.h, exec_dyn.h,
exec_dyn_2dim.h; the result types of the dynamic operators (BinaryFunctors.h:423-560, Multiplication.h:8-21,
MatrixMultExp.h:37-143, 150-163).

C++ types are elements of a type `T` with decidable equality; template instantiation over a `TypeList` is
recursion over a list.
-/

namespace BB.Dispatch

variable {T α β : Type} [DecidableEq T]

/-- `GetIndex<T, TypeList<...>>::value` (TypeList.h:11-28): the partial specialisations for a matching head, any
other head and the empty list. -/
def getIndex (t : T) : List T → Nat
  | [] => 0
  | u :: us => if t = u then 0 else getIndex t us + 1

/-- `GetType<I, TypeList<...>>::type` (TypeList.h:30-44); `none`: no specialisation, does not compile. -/
def getType : Nat → List T → Option T
  | _, [] => none
  | 0, u :: _ => some u
  | i + 1, _ :: us => getType i us

/-- `GetSize<TypeList<...>>::value` (TypeList.h:46-58). -/
def getSize : List T → Nat
  | [] => 0
  | _ :: us => getSize us + 1

/-- `TypeChecker(i)` (TypeChecker.h:7-19) asked about the type `t`: `T::typeIndex_ == typeIndex_`, where
`typeIndex_` is `GetIndex<self, L>` (DenseMatrix.h:297, SparseMatrix.h:135, ZeroMatrix.h:74,
MultipleMatrix.h:103). -/
def typeChecker (L : List T) (i : Nat) (t : T) : Res Bool := .ok (getIndex t L == i)

/-- A `DynamicMatrix`: an object whose dynamic type is `ty`.  `static_pointer_cast<U>` of it, followed by a
use, is defined only for `U = ty`. -/
structure Obj (T X : Type) where
  ty : T
  val : X

/-- `e(static_cast<U*>(0))` for an executor that casts the object to `U` and calls the implementation for `U`
(e.g. DynamicMatrixFunctions.h:11-28). -/
def asType (f : T → α → Res β) (o : Obj T α) (u : T) : Res β :=
  if u = o.ty then f u o.val else .error .ub

/-- `exec_if<L>(TypeChecker(p->getTypeIndex()), executor)` (DynamicMatrixFunctions.h:27, 47, ...). -/
def execIfIndex (b : Build) (L : List T) (f : T → α → Res β) (o : Obj T α) : Res β :=
  execIf b (typeChecker L (getIndex o.ty L)) (asType f o) L

/-- `exec_if_1dim_impl` (exec_if_2dim.h:7-30).  After a failure macro compiled to nothing the function ends
without a return value. -/
def execIf1 (b : Build) (p : T → Res Bool) (e : T → Res β) : List T → Res β
  | [] => .error .ub
  | [u] => do
    if ← p u then e u
    else
      coreFailure b "type not found"
      .error .ub
  | u :: u' :: us => do
    if ← p u then e u
    else execIf1 b p e (u' :: us)

/-- `exec_if_2dim_impl` (exec_if_2dim.h:32-55): `M` is the list being searched for the first type, `L` the whole
list used for the second. -/
def execIf2 (b : Build) (L : List T) (p1 p2 : T → Res Bool) (e : T → T → Res β) : List T → Res β
  | [] => .error .ub
  | [u] => do
    if ← p1 u then execIf1 b p2 (e u) L
    else
      coreFailure b "type not found"
      .error .ub
  | u :: u' :: us => do
    if ← p1 u then execIf1 b p2 (e u) L
    else execIf2 b L p1 p2 e (u' :: us)

/-! ### The tables of exec_dyn and exec_dyn_2dim -/

/-- `DynFuncGenerator<...>::dynFunc[i](a)` (exec_dyn.h:6-23): an array of `std::function`s, entry `i` made from
`Executor<L_i>`; `std::array::operator[]` is unchecked. -/
def execDyn (L : List T) (f : T → α → Res β) (o : Obj T α) : Res β :=
  match (L.map fun u => asType f o u)[getIndex o.ty L]? with
  | some r => r
  | none => .error .ub

/-- The static data members of exec_dyn_2dim.h for one operation: `row t` is `DynFuncGenerator1<..,t,L>::dynFunc`
(9-18), `square` is `DynFuncGenerator2<..>::dynFunc` (23-33). -/
inductive Var (T : Type) where
  | row (t : T)
  | square
  deriving DecidableEq

/-- Their contents; an entry names the executor instance stored in the `std::function`, `none` is storage whose
`std::function` has not been constructed from an executor yet. -/
structure Statics (T : Type) where
  row : T → List (Option (T × T))
  square : List (List (Option (T × T)))

/-- Before dynamic initialisation. -/
def Statics.zero (L : List T) : Statics T :=
  ⟨fun _ => List.replicate L.length none, List.replicate L.length (List.replicate L.length none)⟩

/-- Dynamic initialisation of one of the variables: a row is made from the executors, the square copies the rows
as they are at this moment. -/
def initVar (L : List T) (s : Statics T) : Var T → Statics T
  | .row t => { s with row := fun u => if u = t then L.map (fun v => some (t, v)) else s.row u }
  | .square => { s with square := L.map s.row }

/-- The whole initialisation, in the given order. -/
def initAll (L : List T) (order : List (Var T)) : Statics T := order.foldl (initVar L) (.zero L)

/-- An order of initialisation the language allows: static data members of template specialisations have
unordered initialisation, each is initialised once. -/
def IsInitOrder (L : List T) (order : List (Var T)) : Prop :=
  order.Nodup ∧ .square ∈ order ∧ ∀ t ∈ L, .row t ∈ order

/-- `exec_dyn_2dim` (exec_dyn_2dim.h:35-39): two unchecked subscripts, then the call.  Calling through an entry
that was copied before its construction is undefined (with the usual library it throws bad_function_call). -/
def execDyn2 (L : List T) (s : Statics T) (f : T → T → α → α → Res β) (a b : Obj T α) : Res β :=
  match s.square[getIndex a.ty L]? with
  | none => .error .ub
  | some r => match r[getIndex b.ty L]? with
    | some (some (u, v)) => if u = a.ty ∧ v = b.ty then f u v a.val b.val else .error .ub
    | _ => .error .ub

/-! ### Result types -/

/-- Matrix formats with their `NullType`/`float`/`double` element type. -/
inductive STy where
  | zero | sparse (p : Prec) | dense (p : Prec)
  deriving DecidableEq, Repr

/-- The matrix types that can occur in or result from operations on `DynamicMatrixTypeList`. -/
inductive MTy where
  | one (a : STy)
  | two (a b : STy)
  deriving DecidableEq, Repr

/-- `DynamicMatrixTypeList` (DynamicMatrixTypeList.h:27-35). -/
def listed : List MTy :=
  [.one .zero, .one (.sparse .single), .one (.dense .single), .one (.sparse .double),
   .two (.sparse .double) (.sparse .single), .two (.sparse .double) (.dense .single), .one (.dense .double)]

/-- `decltype(T1() + T2())` of float and double. -/
def wider : Prec → Prec → Prec
  | .single, .single => .single
  | _, _ => .double

/-- `Matrix<decltype(M1() + M2()), decltype(T1() + T2()), P>`, the same for minus (BinaryFunctors.h:423-448). -/
def STy.add : STy → STy → STy
  | .zero, b => b
  | a, .zero => a
  | .sparse p, .sparse q => .sparse (wider p q)
  | .sparse p, .dense q => .dense (wider p q)
  | .dense p, .sparse q => .dense (wider p q)
  | .dense p, .dense q => .dense (wider p q)

/-- `Matrix<decltype(M1() * M2()), decltype(T1() * T2()), ...>` (Multiplication.h:8-21). -/
def STy.mul : STy → STy → STy
  | .zero, _ => .zero
  | _, .zero => .zero
  | .sparse p, .sparse q => .sparse (wider p q)
  | .sparse p, .dense q => .dense (wider p q)
  | .dense p, .sparse q => .dense (wider p q)
  | .dense p, .dense q => .dense (wider p q)

/-- Result type of `+` (and `-`) (BinaryFunctors.h:450-452, 488-509, 539-560). -/
def MTy.add : MTy → MTy → MTy
  | .one a, .one b => .one (a.add b)
  | .one a, .two x y => .one ((a.add x).add y)
  | .two x y, .one b => .one ((x.add y).add b)
  | .two x y, .two z w => .one (((x.add y).add z).add w)

/-- Result type of `*` (MatrixMultExp.h:37-143). -/
def MTy.mul : MTy → MTy → MTy
  | .one a, .one b => .one (a.mul b)
  | .one a, .two x y => .one ((a.mul x).add (a.mul y))
  | .two x y, .one b => .one ((x.mul b).add (y.mul b))
  | .two x y, .two z w => .one ((((x.mul z).add (x.mul w)).add (y.mul z)).add (y.mul w))

/-- Expressions a program can build from dynamic matrices with the binary operators. -/
inductive Expr where
  | leaf (t : MTy)
  | add (a b : Expr)
  | mul (a b : Expr)

/-- The types of the matrices an expression starts from. -/
def Expr.HasLeaf (t : MTy) : Expr → Prop
  | .leaf u => u = t
  | .add a b => a.HasLeaf t ∨ b.HasLeaf t
  | .mul a b => a.HasLeaf t ∨ b.HasLeaf t

/-- Evaluation of an expression as far as types go: each operator dispatches on the types of its operands
through its tables and produces an object of the result type of the instance it reached. -/
def Expr.eval (sAdd sMul : Statics MTy) : Expr → Res (Obj MTy Unit)
  | .leaf t => .ok ⟨t, ()⟩
  | .add a b => do
    let x ← a.eval sAdd sMul
    let y ← b.eval sAdd sMul
    execDyn2 listed sAdd (fun u v _ _ => .ok ⟨u.add v, ()⟩) x y
  | .mul a b => do
    let x ← a.eval sAdd sMul
    let y ← b.eval sAdd sMul
    execDyn2 listed sMul (fun u v _ _ => .ok ⟨u.mul v, ()⟩) x y

end BB.Dispatch
