import Verif.Model.Dense
import Mathlib.Analysis.SpecialFunctions.Pow.Real

/-!
# The random matrix generator

include/BlasBooster/MatrixFactory/MatrixGenerator.h, src/MatrixFactory/MatrixGenerator.cpp.
-/

namespace BB.Generator

variable {E : Type}

/-- `std::default_random_engine` with the two distributions of MatrixGenerator.cpp:10-12.  A distribution may keep a
state of its own; it is part of `E`.  `expo a b` draws from [a,b], `sign` from {0,1}. -/
structure Engine (E : Type) where
  seed : Nat → E
  sign : E → Bool × E
  expo : ℝ → ℝ → E → ℝ × E

/-- The documented contract of `std::uniform_real_distribution` (in floating point the upper bound can be returned). -/
def Engine.Conforms (G : Engine E) : Prop := ∀ a b e, a ≤ b → a ≤ (G.expo a b e).1 ∧ (G.expo a b e).1 ≤ b

/-- `MatrixGenerator::Settings` (MatrixGenerator.h:12-17). -/
structure Settings where
  seed : Nat
  occupation : ℝ
  minValue : ℝ
  maxValue : ℝ

/-- The defaults (MatrixGenerator.h:13-16). -/
def Settings.default : Settings := ⟨0, 1, 0, 9⟩

/-- `(d2(e) ? -1 : 1) * pow(10,-d1(e))` (MatrixGenerator.cpp:17).  The order of evaluation of the two factors is
unspecified in C++: `signFirst` says which one the compiler chose. -/
noncomputable def value (G : Engine E) (s : Settings) (signFirst : Bool) (e : E) : ℝ × E :=
  if signFirst then
    let (b, e) := G.sign e
    let (d, e) := G.expo s.minValue s.maxValue e
    ((if b then -1 else 1) * (10:ℝ) ^ (-d), e)
  else
    let (d, e) := G.expo s.minValue s.maxValue e
    let (b, e) := G.sign e
    ((if b then -1 else 1) * (10:ℝ) ^ (-d), e)

/-- Loop body (MatrixGenerator.cpp:15-18).  State: engine, storage. -/
noncomputable def step (G : Engine E) (s : Settings) (signFirst : Bool) (p : Nat) (u : E × Buf ℝ) : Res (E × Buf ℝ) := do
  let v := value G s signFirst u.1
  let d ← u.2.write p v.1
  return (v.2, d)

/-- `MatrixGenerator::operator()` (MatrixGenerator.cpp:6-21).  Constructing the distribution with `max < min` is
undefined (precondition of `std::uniform_real_distribution`). -/
noncomputable def generate (G : Engine E) (s : Settings) (signFirst : Bool) (rows cols : Nat) : Res (Dense ℝ) := do
  let D : Dense ℝ := Dense.new .col rows cols
  if s.maxValue < s.minValue then .error .ub
  else do
    let (_, d) ← ptrLoop 0 D.data.length 1 (step G s signFirst) (G.seed s.seed, D.data)
    return { D with data := d }

end BB.Generator
