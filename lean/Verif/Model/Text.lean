import Lean.Elab.Term
import Lean.ToExpr

/-!
# Texts as lists of characters

`text "abc"` is the list `['a', 'b', 'c']`.  (`"abc".toList` is the same list, but the kernel takes long to see it.)
-/

namespace BB.Gen

abbrev Text := List Char

/-- A text literal. -/
syntax "text " str : term

elab_rules : term
  | `(text $s:str) => return Lean.toExpr s.getString.toList

example : text "abc" = ['a', 'b', 'c'] := rfl

end BB.Gen
