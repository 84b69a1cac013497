import Verif.Model.Mat
import Mathlib.Algebra.Order.Field.Basic
import Mathlib.Algebra.Order.Group.Abs

/-!
# Value checkers, counting of significant elements, occupation

include/BlasBooster/Core/AbsoluteValueRangeChecker.h, Occupation.h, OccupationPolicy.h.  Thresholds and
values are elements of one linearly ordered type `R` (no NaN).
-/

namespace BB

variable {R : Type}

/-- `std::abs` of an element type. -/
class HasAbs (R : Type) where
  absv : R → R

export HasAbs (absv)

/-- `std::abs` of numbers that are linearly ordered. -/
instance (priority := 100) HasAbs.ofLinearOrder [LinearOrder R] [Neg R] : HasAbs R := ⟨fun x => max x (-x)⟩

/-- The four specialisations of `AbsoluteValueRangeChecker` (AbsoluteValueRangeChecker.h:47-187). -/
inductive Checker (R : Type) where
  | above (t : R)       -- <T, ExclusiveBound, NoBound>
  | exIn (lo hi : R)    -- <T, ExclusiveBound, InclusiveBound>
  | inIn (lo hi : R)    -- <T, InclusiveBound, InclusiveBound>
  | exEx (lo hi : R)    -- <T, ExclusiveBound, ExclusiveBound>
  deriving DecidableEq, Repr

namespace Checker

/-- Constructor, lines 54-58. -/
def mkAbove [Zero R] [LT R] [DecidableLT R] (t : R) : Res (Checker R) :=
  if t < 0 then .error (.throw "AbsoluteValueRangeChecker: threshold < 0.0") else .ok (.above t)

/-- Constructor, lines 95-101. -/
def mkExIn [Zero R] [LT R] [DecidableLT R] [LE R] [DecidableLE R] (lo hi : R) : Res (Checker R) :=
  if lo < 0 then .error (.throw "AbsoluteValueRangeChecker: lowerThreshold < 0.0")
  else if hi < 0 then .error (.throw "AbsoluteValueRangeChecker: upperThreshold < 0.0")
  else if lo ≥ hi then .error (.throw "AbsoluteValueRangeChecker: lowerThreshold >= upperThreshold")
  else .ok (.exIn lo hi)

/-- Constructor, lines 141-147. -/
def mkInIn [Zero R] [LT R] [DecidableLT R] [LE R] [DecidableLE R] (lo hi : R) : Res (Checker R) :=
  if lo < 0 then .error (.throw "AbsoluteValueRangeChecker: lowerThreshold < 0.0")
  else if hi < 0 then .error (.throw "AbsoluteValueRangeChecker: upperThreshold < 0.0")
  else if lo > hi then .error (.throw "AbsoluteValueRangeChecker: lowerThreshold > upperThreshold")
  else .ok (.inIn lo hi)

/-- Constructor, lines 187-193. -/
def mkExEx [Zero R] [LT R] [DecidableLT R] [LE R] [DecidableLE R] (lo hi : R) : Res (Checker R) :=
  if lo < 0 then .error (.throw "AbsoluteValueRangeChecker: lowerThreshold < 0.0")
  else if hi < 0 then .error (.throw "AbsoluteValueRangeChecker: upperThreshold < 0.0")
  else if lo ≥ hi then .error (.throw "AbsoluteValueRangeChecker: lowerThreshold >= upperThreshold")
  else .ok (.exEx lo hi)

/-- `operator()(value)`, lines 60-64, 103-108, 149-154, 195-200. -/
def accepts [LT R] [DecidableLT R] [LE R] [DecidableLE R] [HasAbs R] : Checker R → R → Bool
  | .above t, v => decide (absv v > t)
  | .exIn lo hi, v => decide (absv v > lo) && decide (absv v ≤ hi)
  | .inIn lo hi, v => decide (absv v ≥ lo) && decide (absv v ≤ hi)
  | .exEx lo hi, v => decide (absv v > lo) && decide (absv v < hi)

/-- Position of the checker type in `ValueCheckerTypeList` (lines 40-45) – the static `id_` of the
checkers for `double`. -/
def kind : Checker R → Nat
  | .above _ => 0
  | .exIn _ _ => 1
  | .inIn _ _ => 2
  | .exEx _ _ => 3

/-- The thresholds in the order in which `operator <` compares them. -/
def bounds : Checker R → List R
  | .above t => [t]
  | .exIn lo hi => [lo, hi]
  | .inIn lo hi => [lo, hi]
  | .exEx lo hi => [lo, hi]

end Checker

/-- `std::tuple` comparison `<` of the threshold parts. -/
def lexLt [LT R] [DecidableLT R] : List R → List R → Bool
  | a :: as, b :: bs => decide (a < b) || (!decide (b < a) && lexLt as bs)
  | _, _ => false

/-- A checker object together with its template parameter `ThresholdType`: `double` (in
`ValueCheckerTypeList`) or another type such as `float` (not in it; `GetIndex` then yields the length 4 of
the list, TypeList.h:15-28). -/
structure TChecker (R : Type) where
  isDouble : Bool
  c : Checker R
  deriving DecidableEq, Repr

namespace TChecker

/-- `getID()`, lines 74, 83-85, 119 etc. -/
def id (k : TChecker R) : Nat := if k.isDouble then k.c.kind else 4

/-- `operator <` (lines 66-72, 110-117, 156-163, 202-209): `std::tie(id_, thresholds...)` compared with
the id and, after a `static_cast` to the *own* type, the thresholds of the other checker.  With equal ids
and different types the cast makes the comparison read another object layout: UB. -/
def less [LT R] [DecidableLT R] (a b : TChecker R) : Res Bool :=
  if a.id < b.id then .ok true
  else if b.id < a.id then .ok false
  else if a.isDouble = b.isDouble ∧ a.c.kind = b.c.kind then .ok (lexLt a.c.bounds b.c.bounds)
  else .error .ub

end TChecker

/-- `getNbOfSignificantElements` without its cache: `CountDesiredElementsFunctor` (Occupation.h:9-25) on a
dense matrix that is no view: all of its storage.  (`Sparse.countBuf` in Model/Sparse.lean.) -/
def Dense.countSig [LT R] [DecidableLT R] [LE R] [DecidableLE R] [HasAbs R] (chk : Checker R) (A : Dense R) : Res Nat :=
  Sparse.countBuf chk.accepts A.data

/-- The same on a sparse matrix: the value array (begin()..end() of the value storage), whatever part of it
the runs use. -/
def Sparse.countSig [LT R] [DecidableLT R] [LE R] [DecidableLE R] [HasAbs R] (chk : Checker R) (S : Sparse R) : Res Nat :=
  Sparse.countBuf chk.accepts S.value

/-- `getOccupation`: count / size in `double` arithmetic (OccupationPolicy.h:33-38).  `none` is NaN, the
value of 0.0/0. -/
def occupationOf [NatCast R] [Div R] (cnt size : Nat) : Option R :=
  if size = 0 then none else some ((cnt : R) / (size : R))

/-- `getOccupation` of a dense matrix. -/
def Dense.occupation [LT R] [DecidableLT R] [LE R] [DecidableLE R] [HasAbs R] [NatCast R] [Div R] (chk : Checker R)
    (A : Dense R) : Res (Option R) := do
  let n ← A.countSig chk
  return occupationOf n A.dim.fullSize

/-- `getOccupation` of a sparse matrix. -/
def Sparse.occupation [LT R] [DecidableLT R] [LE R] [DecidableLE R] [HasAbs R] [NatCast R] [Div R] (chk : Checker R)
    (S : Sparse R) : Res (Option R) := do
  let n ← S.countSig chk
  return occupationOf n S.dim.fullSize

/-- `x <= t` of doubles: false for NaN. -/
def leNaN [LE R] [DecidableLE R] : Option R → R → Bool
  | none, _ => false
  | some x, t => decide (x ≤ t)

end BB
