import Verif.SpecFloat
import Verif.Model.Typed

/-!
# Specification vocabulary for matrices with element types
-/

namespace BB

variable {F D : Type}

/-- What is assumed of the two number types: `valF`, `valD` are the rational numbers that `float` and `double` numbers
stand for; their sums and products are rounded with relative errors `uF` and `uD`; converting a `float` to `double` is
exact. -/
structure Formats [Arith F] [Arith D] (valF : F → ℚ) (valD : D → ℚ) (up : F → D) (uF uD : ℚ) : Prop where
  single : Rounding valF uF
  double : Rounding valD uD
  finer : uD ≤ uF
  up_val : ∀ x, valD (up x) = valF x
  up_zero : up 0 = 0

/-- Moreover: converting a `double` to `float` is rounded; the order and the sign of `double` numbers are those of the
rationals; the quotient of two counts is positive if both are, and not above 1 if the first is not above the second. -/
structure Numbers [Arith F] [Arith D] [LinearOrder D] [Neg D] [NatCast D] [Div D]
    (valF : F → ℚ) (valD : D → ℚ) (up : F → D) (rnd : D → F) (uF uD : ℚ) : Prop extends Formats valF valD up uF uD where
  rnd_val : ∀ x, |valF (rnd x) - valD x| ≤ uF * |valD x|
  rnd_zero : rnd 0 = 0
  le_iff : ∀ x y, x ≤ y ↔ valD x ≤ valD y
  neg_val : ∀ x, valD (-x) = -valD x
  ratio_pos : ∀ n m : Nat, 0 < n → 0 < m → 0 < valD ((n : D) / (m : D))
  ratio_le : ∀ n m : Nat, n ≤ m → 0 < m → valD ((n : D) / (m : D)) ≤ 1

/-- The element type: `some .single` for `float`, `some .double` for `double`, none for zero matrices. -/
def TSMat.prec : TSMat F D → Option Prec
  | .denseF _ => some .single
  | .sparseF _ => some .single
  | .denseD _ => some .double
  | .sparseD _ => some .double
  | .zero _ => none

/-- The storage: dense (`some true`), sparse (`some false`) or nothing. -/
def TSMat.stored : TSMat F D → Option Bool
  | .denseF _ => some true
  | .sparseF _ => some false
  | .denseD _ => some true
  | .sparseD _ => some false
  | .zero _ => none

/-- The element type of a product: none if a factor is a zero matrix, `float` if both are matrices of `float`s. -/
def productPrec : Option Prec → Option Prec → Option Prec
  | none, _ => none
  | _, none => none
  | some .single, some .single => some .single
  | _, _ => some .double

/-- The element type of a sum: that of the other term if one is a zero matrix, `float` if both are matrices of `float`s. -/
def sumPrec : Option Prec → Option Prec → Option Prec
  | none, x => x
  | x, none => x
  | some .single, some .single => some .single
  | _, _ => some .double

/-- The storage of a product: sparse if both factors are. -/
def productStored : Option Bool → Option Bool → Option Bool
  | none, _ => none
  | _, none => none
  | some false, some false => some false
  | _, _ => some true

/-- The storage of a sum: sparse if no term is dense. -/
def sumStored : Option Bool → Option Bool → Option Bool
  | none, x => x
  | x, none => x
  | some false, some false => some false
  | _, _ => some true

/-- The matrix denotes the r×c matrix of `double` numbers `f`: its elements, converted to `double` if they are `float`s. -/
def TSMat.Is [Zero F] [Zero D] (up : F → D) : TSMat F D → Nat → Nat → (Nat → Nat → D) → Prop
  | .denseF A, r, c, f => A.ori = .col ∧ ∃ g, A.Is r c g ∧ ∀ i j, i < r → j < c → f i j = up (g i j)
  | .sparseF A, r, c, f => A.ori = .col ∧ ∃ g, A.Is r c g ∧ ∀ i j, i < r → j < c → f i j = up (g i j)
  | .denseD A, r, c, f => A.ori = .col ∧ A.Is r c f
  | .sparseD A, r, c, f => A.ori = .col ∧ A.Is r c f
  | .zero d, r, c, f => d.rows = r ∧ d.cols = c ∧ ∀ i j, i < r → j < c → f i j = 0

/-- The runtime type of a matrix: one of the types of the type list, or none of them. -/
def TMat.kind : TMat F D → Option Kind
  | .one (.zero _) => some .zero
  | .one (.sparseF _) => some .sparseF
  | .one (.denseF _) => some .denseF
  | .one (.sparseD _) => some .sparseD
  | .one (.denseD _) => some .denseD
  | .two (.sparseD _) (.sparseF _) => some .multSS
  | .two (.sparseD _) (.denseF _) => some .multSD
  | _ => none

/-- The type has `double` elements, in one of its parts at least. -/
def Kind.hasDouble : Kind → Bool
  | .sparseD => true
  | .multSS => true
  | .multSD => true
  | .denseD => true
  | _ => false

/-- The type stores all elements, in one of its parts at least. -/
def Kind.hasDense : Kind → Bool
  | .denseF => true
  | .multSD => true
  | .denseD => true
  | _ => false

/-- The type with the given element type and storage. -/
def Kind.mk (double dense : Bool) : Kind :=
  match double, dense with
  | false, false => .sparseF
  | false, true => .denseF
  | true, false => .sparseD
  | true, true => .denseD

/-- The type of a product: zero if a factor is zero, `double` if a factor has `double` elements, dense if a factor has a
dense part. -/
def Kind.product (a b : Kind) : Kind :=
  if a = .zero ∨ b = .zero then .zero else Kind.mk (a.hasDouble || b.hasDouble) (a.hasDense || b.hasDense)

/-- The type of a sum: zero if both terms are, `double` if a term has `double` elements, dense if a term has a dense
part. -/
def Kind.sum (a b : Kind) : Kind :=
  if a = .zero ∧ b = .zero then .zero else Kind.mk (a.hasDouble || b.hasDouble) (a.hasDense || b.hasDense)

/-- A dense, sparse or zero matrix stands for the matrix `e` of rational numbers; `p` are the absolute values of what it
stores in `double`s, `q` of what it stores in `float`s. -/
def TSMat.Stands [Zero F] [Zero D] (valD : D → ℚ) (up : F → D) (A : TSMat F D) (r c : Nat) (e p q : Nat → Nat → ℚ) : Prop :=
  ∃ f, A.Is up r c f ∧ ∀ i j, i < r → j < c → e i j = valD (f i j) ∧
      p i j = (if A.prec = some .double then |valD (f i j)| else 0) ∧
      q i j = (if A.prec = some .double then 0 else |valD (f i j)|)

/-- The same for matrices of any kind; a two-part matrix stands for the exact sum of its parts. -/
def TMat.Stands [Zero F] [Zero D] (valD : D → ℚ) (up : F → D) : TMat F D → Nat → Nat → (e p q : Nat → Nat → ℚ) → Prop
  | .one A, r, c, e, p, q => A.Stands valD up r c e p q
  | .two X Y, r, c, e, p, q => ∃ e1 p1 q1 e2 p2 q2, X.Stands valD up r c e1 p1 q1 ∧ Y.Stands valD up r c e2 p2 q2 ∧
      ∀ i j, i < r → j < c → e i j = e1 i j + e2 i j ∧ p i j = p1 i j + p2 i j ∧ q i j = q1 i j + q2 i j

/-- The blocked matrix `B` with the given row and column block sizes stands for `e`, with `p` in `double`s and `q` in
`float`s. -/
structure TBlocked.Stands [Zero F] [Zero D] (valD : D → ℚ) (up : F → D) (B : TBlocked F D) (rs cs : List Nat)
    (e p q : Nat → Nat → ℚ) : Prop where
  ori : B.grid.ori = .col
  rows : B.grid.dim.rows = rs.length
  cols : B.grid.dim.cols = cs.length
  alloc : B.grid.data.length = rs.length * cs.length
  ubRows : B.ubRows = rs.sum
  ubCols : B.ubCols = cs.sum
  blocks : ∀ i j, i < rs.length → j < cs.length → ∃ M, B.grid.get i j = .ok M ∧
    M.Stands valD up (rs.getD i 0) (cs.getD j 0) (fun a b => e (offs rs i + a) (offs cs j + b))
      (fun a b => p (offs rs i + a) (offs cs j + b)) (fun a b => q (offs rs i + a) (offs cs j + b))

/-- The `double` part of the matrix is `d`, its `float` part `s` (0 if there is no such part). -/
def TMat.Parts [Zero F] [Zero D] (up : F → D) : TMat F D → Nat → Nat → (d : Nat → Nat → D) → (s : Nat → Nat → F) → Prop
  | .one A, r, c, d, s =>
    (A.prec = some .double ∧ A.Is up r c d ∧ ∀ i j, i < r → j < c → s i j = 0) ∨
    (A.prec ≠ some .double ∧ A.Is up r c (fun i j => up (s i j)) ∧ ∀ i j, i < r → j < c → d i j = 0)
  | .two X Y, r, c, d, s => X.prec = some .double ∧ X.Is up r c d ∧ Y.prec = some .single ∧ Y.Is up r c (fun i j => up (s i j))

/-- What is stored as `double` of the element `v` of a block of type `k`. -/
def storedD [LinearOrder D] [Zero D] [Neg D] (t : Settings D) : Kind → D → D
  | .denseD, v => v
  | .sparseD, v => if t.sigSingle < max v (-v) then v else 0
  | .multSS, v => if t.sigSingle < max v (-v) then v else 0
  | .multSD, v => if t.sigSingle < max v (-v) then v else 0
  | _, _ => 0

/-- What is stored as `float` of the element `v` of a block of type `k`. -/
def storedF [LinearOrder D] [Zero F] [Neg D] (rnd : D → F) (t : Settings D) : Kind → D → F
  | .denseF, v => rnd v
  | .sparseF, v => if t.sigDouble < max v (-v) ∧ max v (-v) ≤ t.sigSingle then rnd v else 0
  | .multSS, v => if t.sigDouble < max v (-v) ∧ max v (-v) ≤ t.sigSingle then rnd v else 0
  | .multSD, v => if t.sigDouble < max v (-v) ∧ max v (-v) ≤ t.sigSingle then rnd v else 0
  | _, _ => 0

/-- Threshold settings with which no element above the single-precision significance is rounded or dropped: those of the
default policy, with 0 ≤ σ(double) < σ(single). -/
structure Settings.Safe [LinearOrder D] [Zero D] (valD : D → ℚ) (t : Settings D) : Prop where
  sigPos : 0 ≤ t.sigDouble
  sigLt : t.sigDouble < t.sigSingle
  denseD1 : 1 ≤ valD t.denseDDouble
  denseD2 : 1 ≤ valD t.denseDSingle
  zero : valD t.zeroDouble ≤ 0
  sparseF : valD t.sparseFSingle ≤ 0
  denseF : valD t.denseFSingle ≤ 0

/-- The element `v` is stored exactly, or as a `float`, or dropped; the latter two only if |v| is at most the
single-precision significance. -/
def StoredAs [LinearOrder D] [Zero D] [Zero F] [Neg D] (rnd : D → F) (t : Settings D) (v d : D) (s : F) : Prop :=
  (d = v ∧ s = 0) ∨ (d = 0 ∧ s = rnd v ∧ max v (-v) ≤ t.sigSingle) ∨ (d = 0 ∧ s = 0 ∧ max v (-v) ≤ t.sigSingle)

end BB
