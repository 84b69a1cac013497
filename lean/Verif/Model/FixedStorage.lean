import Verif.Model.Storage

/-!
# The fixed-size heap storage

`Storage<T,false,true,N,false>` (include/BlasBooster/Core/Storage.h:118-289) on the heap of
`Model/Storage.lean`; every block of the library has `N` cells; the member `size` of `Obj` is always `N`
(a static constant in the code).  An operation returns the world it leaves and the message of the
exception it throws, if any: unlike the variable-size storage, a constructor can throw after it has
allocated.
-/

namespace BB.Own

variable {R : Type}

/-- Operations on fixed-size storages. -/
inductive FOp (R : Type) where
  | userAlloc (cells : Buf R)               -- the caller allocates an array (not the library)
  | dflt (x : Nat)                           -- Storage()
  | init (x : Nat) (vs : List R)             -- Storage{…}
  | copy (x y : Nat)                         -- Storage(y)
  | move (x y : Nat)                         -- Storage(std::move(y))
  | conv (x : Nat) (cs : Buf R)              -- Storage(s) of a storage s of another type holding cs
  | proxy (x b : Nat)                        -- Storage(ptr, n); n is ignored
  | dtor (x : Nat)                           -- ~Storage()
  | assign (x y : Nat)                       -- x = y
  | moveAssign (x y : Nat)                   -- x = std::move(y)
  | swap (x y : Nat)
  | write (x i : Nat) (v : R)                -- *(x.begin() + i) = v
  | load (x : Nat) (vs : List R)             -- boost load() of an archive that holds vs and then ends

/-- Overwriting the first cells of a block (`std::copy_n`, or the loop of `load`). -/
def World.poke (w : World R) (o : Obj) (cs : Buf R) : Res (World R) :=
  match o.data with
  | none => .error .ub
  | some b =>
    match w.heap b with
    | none => .error .ub
    | some blk =>
      if cs.length ≤ blk.cells.length then
        .ok { w with heap := upd w.heap b (some { blk with cells := cs ++ blk.cells.drop cs.length }) }
      else .error .ub

/-- One operation on fixed-size storages: the world afterwards, and the exception if it throws. -/
def fstep (N : Nat) (w : World R) : FOp R → Res (World R × Option String)
  | .userAlloc cells => .ok (w.alloc cells true, none)
  -- Storage.h:136-140
  | .dflt x => do
    let w ← (w.alloc (Buf.alloc N) false).place x ⟨some w.next, N, true⟩
    return (w, none)
  -- Storage.h:144-151: the exception leaves `data_`, and no destructor runs
  | .init x vs =>
    if vs.length ≠ N then .ok (w.alloc (Buf.alloc N) false, some "Storage (fixed,onHeap): values.size() != size_")
    else do
      let w ← (w.alloc (vs.map some) false).place x ⟨some w.next, N, true⟩
      return (w, none)
  -- Storage.h:155-160: the copy always owns its memory
  | .copy x y => do
    let o ← w.get y
    let cs ← w.cells o
    let w ← (w.alloc cs false).place x ⟨some w.next, N, true⟩
    return (w, none)
  -- Storage.h:163-168: the source keeps its pointer
  | .move x y => do
    let o ← w.get y
    let w ← w.place x o
    return (w.setObj y { o with own := false }, none)
  -- Storage.h:171-178, as the constructor from a list
  | .conv x cs =>
    if cs.length ≠ N then .ok (w.alloc (Buf.alloc N) false, some "Storage (fixed,onHeap): rhs.size_ != size_")
    else do
      let w ← (w.alloc cs false).place x ⟨some w.next, N, true⟩
      return (w, none)
  -- Storage.h:181-183
  | .proxy x b => do
    let w ← w.place x ⟨some b, N, false⟩
    return (w, none)
  -- Storage.h:185-187
  | .dtor x => do
    let o ← w.get x
    let w ← w.release o
    return (w.delObj x, none)
  -- Storage.h:190-198: `ownMemory_ = true` whatever it was
  | .assign x y => do
    let o ← w.get x
    let p ← w.get y
    if x = y then return (w, none)
    else do
      let cs ← w.cells p
      let w ← w.poke o cs
      return (w.setObj x { o with own := true }, none)
  -- Storage.h:201-205: swap
  | .moveAssign x y => do
    let o ← w.get x
    let p ← w.get y
    return ((w.setObj x p).setObj y o, none)
  -- Storage.h:207-211
  | .swap x y => do
    let o ← w.get x
    let p ← w.get y
    return ((w.setObj x p).setObj y o, none)
  -- Storage.h:231-233
  | .write x i v => do
    let w ← step w (.write x i v)
    return (w, none)
  -- Storage.h:275-279: element by element; `ownMemory_ = true` whatever it was
  | .load x vs => do
    let o ← w.get x
    let w ← w.poke o ((vs.take N).map some)
    if vs.length < N then return (w, some "input stream error")
    else return (w.setObj x { o with own := true }, none)

/-- A history of operations on fixed-size storages: the final world and what each operation threw. -/
def frun (N : Nat) : List (FOp R) → World R → Res (World R × List (Option String))
  | [], w => .ok (w, [])
  | op :: ops, w => do
    let (w, t) ← fstep N w op
    let (w, ts) ← frun N ops w
    return (w, t :: ts)

/-- `x` is live and owns its memory. -/
def World.owner (w : World R) (x : Nat) : Prop := ∃ o, w.obj x = some o ∧ o.own = true

/-- `x` is live and owns its memory or stands for an array of the caller (so it is not moved-from). -/
def World.usable (w : World R) (x : Nat) : Prop :=
  ∃ o, w.obj x = some o ∧ (o.own = true ∨ ∃ b blk, o.data = some b ∧ w.heap b = some blk ∧ blk.user = true)

/-- Correct use by the caller: constructors on unused names, other operations on live objects, element
writes in range, proxies on sufficiently large live arrays of the caller.  Further: elements are accessed
only through objects that own their memory or stand for an array of the caller (not through moved-from
objects), and only owners are assigned to or loaded into (see `C121_assign_moved_from_is_double_free` and
`C121_assign_proxy_frees_user_memory` for the others). -/
def FAdm (N : Nat) (w : World R) : FOp R → Prop
  | .userAlloc _ => True
  | .dflt x => w.obj x = none
  | .init x _ => w.obj x = none
  | .copy x y => w.obj x = none ∧ w.usable y
  | .move x y => w.obj x = none ∧ w.obj y ≠ none
  | .conv x _ => w.obj x = none
  | .proxy x b => w.obj x = none ∧ ∃ blk, w.heap b = some blk ∧ blk.user = true ∧ N ≤ blk.cells.length
  | .dtor x => w.obj x ≠ none
  | .assign x y => w.owner x ∧ w.usable y
  | .moveAssign x y => w.obj x ≠ none ∧ w.obj y ≠ none
  | .swap x y => w.obj x ≠ none ∧ w.obj y ≠ none
  | .write x i _ => w.usable x ∧ i < N
  | .load x _ => w.owner x

end BB.Own
