import Verif.Model.Layout

/-!
# Moving the iterators of a view forwards and backwards

`StripedIterator` is a `boost::iterator_facade` with `bidirectional_traversal_tag` (StripedIterator.h:7-12), so `++it` is
`increment` and `--it` is `decrement`; two iterators are equal when their pointers are (StripedIterator.h:44-47).
-/

namespace BB

/-- `end()` (Storage.h:604-610): position `continuousSize_`, block `nbBlocks_` (converted to `int`). -/
def Striped.endIt (s : Striped) : SIter := SIter.mk' s.endPtr s.cont s.nb s.cont s.sep s.nb

/-- `rend()` (Storage.h:612-618): position `continuousSize_`, block -1. -/
def Striped.rendIt (s : Striped) : SIter := SIter.mk' s.rendPtr s.cont (-1) s.cont s.sep s.nb

/-- One step of an iterator: `++it` or `--it` (StripedIterator.h:49-71). -/
inductive Move | fwd | bwd
deriving DecidableEq, Repr

/-- The iterator after the step.  Pointer arithmetic beyond the array is taken as integer arithmetic. -/
def SIter.move (it : SIter) : Move → Res SIter
  | .fwd => it.incr
  | .bwd => .ok it.decr

/-- The iterator after a sequence of steps. -/
def SIter.moves : List Move → SIter → Res SIter
  | [], it => .ok it
  | m :: ms, it => do
    let it' ← it.move m
    SIter.moves ms it'

end BB
