import Verif.SpecFloat
import Verif.Model.Checker
import Verif.Model.NormFp

/-!
# Numbers with infinities and NaN

The values of an IEEE 754 type and what the operations `+ - * /`, `<`, `<=`, `std::abs`, `std::max` and `std::sqrt` do with
infinities and NaN.  +0 and -0 are one number, the payloads of NaNs are not distinguished.  The operations on finite numbers
are a parameter (`FinArith`): they may round in any way and overflow.
-/

namespace BB

/-- A finite number, an infinity (`inf true` is -∞) or NaN. -/
inductive Ieee (F : Type) where
  | fin (x : F)
  | inf (neg : Bool)
  | nan
  deriving DecidableEq, Repr

/-- The finite numbers of a floating point type with their operations, of which little is assumed: 0 is neutral and absorbing,
sums commute, no operation on finite numbers gives NaN, and rounding does not change signs.  A result that is too large is an
infinity. -/
class FinArith (F : Type) extends LinearOrder F, Zero F, Neg F where
  add : F → F → Ieee F
  mul : F → F → Ieee F
  div : F → F → Ieee F
  ofNat : Nat → Ieee F
  add_zero : ∀ x, add x 0 = .fin x
  zero_add : ∀ x, add 0 x = .fin x
  add_comm : ∀ x y, add x y = add y x
  add_ne_nan : ∀ x y, add x y ≠ .nan
  add_neg : ∀ x, add x (-x) = .fin 0
  add_nonneg : ∀ x y, 0 ≤ x → 0 ≤ y → add x y = .inf false ∨ ∃ z, 0 ≤ z ∧ add x y = .fin z
  mul_zero : ∀ x, mul x 0 = .fin 0
  zero_mul : ∀ x, mul 0 x = .fin 0
  mul_ne_nan : ∀ x y, mul x y ≠ .nan
  mul_self_nonneg : ∀ x, mul x x = .inf false ∨ ∃ z, 0 ≤ z ∧ mul x x = .fin z
  neg_zero : (-0 : F) = 0
  neg_nonneg : ∀ x : F, 0 ≤ -x ↔ x ≤ 0
  zero_div : ∀ y, y ≠ 0 → div 0 y = .fin 0
  ofNat_zero : ofNat 0 = .fin 0
  ofNat_pos : ∀ n, n ≠ 0 → ofNat n = .inf false ∨ ∃ x, 0 < x ∧ ofNat n = .fin x

namespace Ieee

variable {F : Type} [FinArith F]

instance : Zero (Ieee F) := ⟨.fin 0⟩

/-- ∞ + (-∞) is NaN. -/
instance : Add (Ieee F) where
  add
    | .fin x, .fin y => FinArith.add x y
    | .inf a, .inf b => if a = b then .inf a else .nan
    | .inf a, .fin _ => .inf a
    | .fin _, .inf b => .inf b
    | _, _ => .nan

/-- 0 * ∞ is NaN. -/
instance : Mul (Ieee F) where
  mul
    | .fin x, .fin y => FinArith.mul x y
    | .inf a, .inf b => .inf (a ^^ b)
    | .inf a, .fin y => if y = 0 then .nan else .inf (a ^^ decide (y < 0))
    | .fin x, .inf b => if x = 0 then .nan else .inf (decide (x < 0) ^^ b)
    | _, _ => .nan

instance : Neg (Ieee F) where
  neg
    | .fin x => .fin (-x)
    | .inf a => .inf (!a)
    | .nan => .nan

instance : Sub (Ieee F) := ⟨fun x y => x + -y⟩

/-- 0/0 and ∞/∞ are NaN. -/
instance : Div (Ieee F) where
  div
    | .fin x, .fin y => if y = 0 then (if x = 0 then .nan else .inf (decide (x < 0))) else FinArith.div x y
    | .inf a, .fin y => .inf (a ^^ decide (y < 0))
    | .fin _, .inf _ => .fin 0
    | _, _ => .nan

instance : NatCast (Ieee F) := ⟨FinArith.ofNat⟩

/-- Comparisons with NaN are false. -/
def ltb : Ieee F → Ieee F → Bool
  | .fin x, .fin y => decide (x < y)
  | .fin _, .inf b => !b
  | .inf a, .fin _ => a
  | .inf a, .inf b => a && !b
  | _, _ => false

def leb : Ieee F → Ieee F → Bool
  | .fin x, .fin y => decide (x ≤ y)
  | .fin _, .inf b => !b
  | .inf a, .fin _ => a
  | .inf a, .inf b => a || !b
  | _, _ => false

instance : LT (Ieee F) := ⟨fun x y => ltb x y = true⟩
instance : LE (Ieee F) := ⟨fun x y => leb x y = true⟩
instance : DecidableLT (Ieee F) := fun x y => inferInstanceAs (Decidable (ltb x y = true))
instance : DecidableLE (Ieee F) := fun x y => inferInstanceAs (Decidable (leb x y = true))

/-- `std::abs`. -/
instance : HasAbs (Ieee F) where
  absv
    | .fin x => .fin (Max.max x (-x))
    | .inf _ => .inf false
    | .nan => .nan

/-- `std::max(a, b)` is `a < b ? b : a`: with a NaN it returns its first argument. -/
instance : Max (Ieee F) := ⟨fun a b => if a < b then b else a⟩

/-- `std::sqrt`; `root` is the square root of finite numbers, rounded in some way. -/
def sqrt (root : F → F) : Ieee F → Ieee F
  | .fin x => if x < 0 then .nan else .fin (root x)
  | .inf a => if a then .nan else .inf false
  | .nan => .nan

/-- The operations on `double` that the norm and deviation functions use (`std::pow(x,2)` is `x * x`). -/
def ops (root : F → F) : FOps (Ieee F) where
  abs := absv
  sq x := x * x
  sqrt := sqrt root
  max := Max.max
  sub x y := x - y
  div x y := x / y
  count n := n

/-- Neither infinite nor NaN. -/
def Finite : Ieee F → Prop
  | .fin _ => True
  | _ => False

end Ieee

/-- The finite numbers of a binary format: significands of `p` bits and absolute values up to `M` (`double`: p = 53,
M = (2 - 2^-52)·2^1023).  Underflow is excluded: there is no smallest positive number. -/
structure FpB (p : Nat) (md : Mode) (M : ℚ) where
  val : ℚ
  rep : HasBits p val
  bound : |val| ≤ M

end BB
