import Verif.SpecTyped
import Verif.Model.Expr

/-!
# Specification vocabulary for expressions over dynamic matrices
-/

namespace BB

variable {F D : Type}

/-- The number of parts of what the expression evaluates to: 2 only for a two-part matrix itself. -/
def TExpr.parts : TExpr F D → Nat
  | .leaf (.two _ _) => 2
  | _ => 1

/-- `a.Denotes valD up r c e w n`: the dimensions in `a` match, its value in exact arithmetic is the r×c matrix `e` of
rational numbers, its value with all numbers in the matrices of `a` replaced by their absolute values is `w`, and `n`
bounds the number of roundings any one element goes through. -/
inductive TExpr.Denotes [Zero F] [Zero D] (valD : D → ℚ) (up : F → D) : TExpr F D → Nat → Nat → (e w : Nat → Nat → ℚ) → Nat → Prop
  | leaf {A r c e p q} : A.Stands valD up r c e p q → Denotes valD up (.leaf A) r c e (fun i j => p i j + q i j) 0
  | add {a b r c e w n e' w' n'} : Denotes valD up a r c e w n → Denotes valD up b r c e' w' n' →
      Denotes valD up (.add a b) r c (fun i j => e i j + e' i j) (fun i j => w i j + w' i j) (max n n' + (a.parts + b.parts - 1))
  | mul {a b r k c e w n e' w' n'} : Denotes valD up a r k e w n → Denotes valD up b k c e' w' n' →
      Denotes valD up (.mul a b) r c (fun i j => ∑ l ∈ Finset.range k, e i l * e' l j)
        (fun i j => ∑ l ∈ Finset.range k, w i l * w' l j) (n + n' + (k + a.parts * b.parts - 1))

/-- The runtime type of the value of an expression over matrices of the type list. -/
def TExpr.kind : TExpr F D → Option Kind
  | .leaf A => A.kind
  | .add a b => do return Kind.sum (← a.kind) (← b.kind)
  | .mul a b => do return Kind.product (← a.kind) (← b.kind)

/-- The type has `double` elements only. -/
def Kind.onlyDouble : Kind → Bool
  | .sparseD => true
  | .denseD => true
  | _ => false

/-- Every sum in the expression has a term with `double` elements, every product a factor with `double` elements only. -/
def TExpr.InDouble : TExpr F D → Prop
  | .leaf _ => True
  | .add a b => a.InDouble ∧ b.InDouble ∧ ∃ ka kb, a.kind = some ka ∧ b.kind = some kb ∧ (ka.hasDouble ∨ kb.hasDouble)
  | .mul a b => a.InDouble ∧ b.InDouble ∧ ∃ ka kb, a.kind = some ka ∧ b.kind = some kb ∧ (ka.onlyDouble ∨ kb.onlyDouble)

end BB
