import Verif.Model.Iterator
import Verif.Model.Alias

/-!
# Cursors as objects (include/BlasBooster/Core/Cursor.h, CursorBase.h, StridedCursorBase.h, Direction.h)

`Layout.lean` models the loops of the library, which only step forwards.  Here a cursor is an object that the caller moves in
both directions, compares, dereferences and subscripts.  Pointer arithmetic beyond the array is taken as integer arithmetic: the
`end()` of a strided cursor lies beyond the array in the library's own loops already.
-/

namespace BB.Cur

variable {R : Type}

/-- `Direction::Row`, `Column`, `Major`, `Minor` (Direction.h:5-11). -/
inductive Direction | row | column | major | minor
deriving DecidableEq, Repr

/-- `directionMatchOrientation` (Cursor.h:22-27) as it is used in the overloads (Cursor.h:57-111, 172-194): does the direction
select the overloads of `Row`?  In row-major matrices `Minor` goes with `Row`, in column-major ones `Major`. -/
def Direction.isRow : Direction → Ori → Bool
  | .row, _ => true
  | .column, _ => false
  | .major, .col => true
  | .major, .row => false
  | .minor, .col => false
  | .minor, .row => true

/-- `Cursor<M,D>` (Cursor.h:29-55): the index of a row or a column, a `size_t`. -/
structure Outer where
  key : Nat
deriving DecidableEq, Repr

/-- `++` and `--` (CursorBase.h:28-38) of a `size_t`. -/
def Outer.move (c : Outer) : Move → Outer
  | .fwd => ⟨(c.key + 1) % sizeMod⟩
  | .bwd => ⟨(c.key + (sizeMod - 1)) % sizeMod⟩

/-- `operator ==` (CursorBase.h:16-20) compares the keys only. -/
def Outer.eq (a b : Outer) : Bool := a.key == b.key

/-- `begin()` (Cursor.h:57-83). -/
def Outer.begin (c : Outer) (v : View) (d : Direction) : Int := if d.isRow v.ori then v.rowBegin c.key else v.colBegin c.key

/-- `end()` (Cursor.h:85-111). -/
def Outer.end (c : Outer) (v : View) (d : Direction) : Int := if d.isRow v.ori then v.rowEnd c.key else v.colEnd c.key

/-- `Cursor<Cursor<M,D1>,D>` (Cursor.h:140-207): a pointer and the stride of its base class; `CursorBase` has stride 1. -/
structure Inner where
  key : Int
  stride : Nat
deriving DecidableEq, Repr

/-- The constructors (Cursor.h:172-194): the overload is selected by the cursor's own direction and the orientation of the
matrix, `D1` plays no part. -/
def Inner.mk' (v : View) (d : Direction) (ptr : Int) : Inner := ⟨ptr, if d.isRow v.ori then v.colStride else v.rowStride⟩

/-- `++` and `--` (StridedCursorBase.h:22-32, CursorBase.h:28-38). -/
def Inner.move (c : Inner) : Move → Inner
  | .fwd => { c with key := c.key + c.stride }
  | .bwd => { c with key := c.key - c.stride }

/-- `operator ==` (CursorBase.h:16-20). -/
def Inner.eq (a b : Inner) : Bool := a.key == b.key

/-- `*c` (Cursor.h:200). -/
def Inner.deref (c : Inner) (b : Buf R) : Res R := b.readI c.key

/-- `*c = x`. -/
def Inner.assign (c : Inner) (b : Buf R) (x : R) : Res (Buf R) := Alias.writeI b c.key x

/-- `c[n]` (Cursor.h:202): `*(key_ + nb)`, without the stride. -/
def Inner.sub (c : Inner) (b : Buf R) (n : Nat) : Res R := b.readI (c.key + n)

/-- `c[n] = x`. -/
def Inner.subAssign (c : Inner) (b : Buf R) (n : Nat) (x : R) : Res (Buf R) := Alias.writeI b (c.key + n) x

end BB.Cur
