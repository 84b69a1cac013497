import Verif.Model.Dense
import Mathlib.Algebra.Order.Group.Unbundled.Abs
import Mathlib.Order.Defs.LinearOrder

/-!
# Pattern generator

include/BlasBooster/Core/PatternGenerator.h: writes an XPM image of a dense matrix.  The output is the sequence of
strings passed to `<<` (`std::endl` is "\n").  Simplifications: the stream accepts all output (an output file that
cannot be opened is silently ignored by the code), exact arithmetic.
-/

namespace BB

variable {R : Type}

/-- `PatternGenerator::Color` (PatternGenerator.h:19-23). -/
structure Color (R : Type) where
  index : String
  color : String
  threshold : R

/-- `PatternGenerator::Settings` (PatternGenerator.h:25-29). -/
structure PatternSettings (R : Type) where
  palette : List (Color R)
  backgroundIndex : String
  backgroundColor : String

namespace PatternSettings

/-- The range-for loop with `break` (PatternGenerator.h:91-98), `pixel` being the current value of the variable. -/
def pixelLoop [LE R] [DecidableLE R] (absValue : R) : List (Color R) → String → String
  | [], pixel => pixel
  | c :: cs, pixel => if c.threshold ≤ absValue then c.index else pixelLoop absValue cs pixel

/-- Heading (PatternGenerator.h:50-75). -/
def heading (S : PatternSettings R) (rows cols : Nat) : List String :=
  ["/* XPM */\nstatic char * matrix_xpm[] = {\n\"", toString cols, " ", toString rows, " ", toString (S.palette.length + 1), " ", "1\",", "\n"]
  ++ S.palette.flatMap (fun c => ["\"", c.index, "\tc #", c.color, "\",", "\n"])
  ++ ["\"", S.backgroundIndex, "\tc #", S.backgroundColor, "\",", "\n"]
  ++ ["/* Data section */", "\n"]

/-- Body of the inner loop (PatternGenerator.h:85-99). -/
def cellStep [LinearOrder R] [AddGroup R] (S : PatternSettings R) (b : Buf R) (p : Nat) (out : List String) : Res (List String) := do
  let x ← b.read p
  return out ++ [pixelLoop |x| S.palette S.backgroundIndex]

/-- Body of the outer loop (PatternGenerator.h:80-103); `rowLast` is `nbRows - 1` in `size_t` arithmetic (78-79). -/
def rowStep [LinearOrder R] [AddGroup R] (S : PatternSettings R) (v : View) (b : Buf R) (i : Nat) (out : List String) : Res (List String) := do
  let out ← ptrLoop (v.rowBegin i) (v.rowEnd i) v.rowStride (S.cellStep b) (out ++ ["\""])
  if i = (v.rows + (sizeMod - 1)) % sizeMod then return out ++ ["\""]
  else return out ++ ["\",", "\n"]

/-- `operator()` (PatternGenerator.h:43-106) for any dense matrix or submatrix. -/
def generate [LinearOrder R] [AddGroup R] (S : PatternSettings R) (v : View) (b : Buf R) : Res (List String) := do
  let out ← ptrLoop 0 v.rows 1 (S.rowStep v b) (S.heading v.rows v.cols)
  return out ++ ["};", "\n"]

end PatternSettings

end BB
