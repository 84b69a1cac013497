import Verif.Model.Base

/-!
# Reading an array in the wrong orientation
-/
namespace BB

/-- The matrix one sees if the array of the r×c matrix `f`, stored in orientation `o` (column after column or row after row), is read
as if it were stored in orientation `o'`. -/
def reread {R : Type} (o o' : Ori) (r c : Nat) (f : Nat → Nat → R) : Nat → Nat → R := fun i j =>
  if o = o' then f i j
  else match o' with
    | .col => f ((i + j * r) / c) ((i + j * r) % c)
    | .row => f ((i * c + j) % r) ((i * c + j) / r)

/-- The matrix `f` if `o` is column-major, the transposed matrix if it is row-major. -/
def turn {R : Type} (o : Ori) (f : Nat → Nat → R) : Nat → Nat → R := match o with
  | .col => f
  | .row => fun i j => f j i

end BB
