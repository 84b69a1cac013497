import Verif.Model.Base

/-!
# Storage objects on a heap with ownership

`Storage<T,false,false,0,false>` (include/BlasBooster/Core/Storage.h:294-500), the array behind every
dense matrix and (three times) behind every sparse matrix, as a state machine over a heap.

Simplifications: pointers point to the first element of a block (the class never does pointer
arithmetic on `data_` itself); memory of the caller (proxy constructor) stays allocated; `std::copy` and
`std::fill` are element copies that also carry over uninitialised cells; memory never runs out.
-/

namespace BB.Own

variable {R : Type}

/-- The three members of a storage object (Storage.h:490-498). -/
structure Obj where
  data : Option Nat
  size : Nat
  own : Bool
  deriving DecidableEq, Repr

/-- A live heap block.  `user` marks memory that the caller of the library supplied. -/
structure Block (R : Type) where
  cells : Buf R
  user : Bool
  deriving Repr

/-- Heap and live storage objects (by name). -/
structure World (R : Type) where
  heap : Nat → Option (Block R)
  next : Nat
  obj : Nat → Option Obj

/-- Nothing allocated, no object. -/
def World.init : World R := ⟨fun _ => none, 0, fun _ => none⟩

/-- Function update. -/
def upd {α : Type} (f : Nat → α) (k : Nat) (v : α) : Nat → α := fun i => if i = k then v else f i

/-- Assign the members of object `x` (also: begin its lifetime). -/
def World.setObj (w : World R) (x : Nat) (o : Obj) : World R := { w with obj := upd w.obj x (some o) }

/-- End of the lifetime of object `x`. -/
def World.delObj (w : World R) (x : Nat) : World R := { w with obj := upd w.obj x none }

/-- The world after `allocate<T>(n)` (Memory.h:7-13) with the given initial cells; the new block is
`w.next`. -/
def World.alloc (w : World R) (cells : Buf R) (user : Bool) : World R :=
  { w with heap := upd w.heap w.next (some ⟨cells, user⟩), next := w.next + 1 }

/-- `deallocate<T>(p)` (Memory.h:15-22): freeing null does nothing, freeing a block that is not live or
that does not belong to the library is undefined. -/
def World.free (w : World R) : Option Nat → Res (World R)
  | none => .ok w
  | some b =>
    match w.heap b with
    | some blk => if blk.user then .error .ub else .ok { w with heap := upd w.heap b none }
    | none => .error .ub

/-- `if (ownMemory_) deallocate<T>(data_);` (Storage.h:362, 377, 393). -/
def World.release (w : World R) (o : Obj) : Res (World R) := if o.own then w.free o.data else .ok w

/-- The live object `x`; using a dead object is undefined. -/
def World.get (w : World R) (x : Nat) : Res Obj :=
  match w.obj x with
  | some o => .ok o
  | none => .error .ub

/-- `[begin(), end())` of a storage (Storage.h:436-450): all of it must be live memory. -/
def World.cells (w : World R) (o : Obj) : Res (Buf R) :=
  match o.data with
  | none => if o.size = 0 then .ok [] else .error .ub
  | some b =>
    match w.heap b with
    | some blk => if o.size ≤ blk.cells.length then .ok (blk.cells.take o.size) else .error .ub
    | none => .error .ub

/-- What can happen to storages. -/
inductive Op (R : Type) where
  | userAlloc (cells : Buf R)               -- the caller allocates an array (not the library)
  | dflt (x : Nat)                           -- Storage()
  | size (x n : Nat)                         -- Storage(n)
  | init (x : Nat) (vs : List R)             -- Storage{…}
  | copy (x y : Nat)                         -- Storage(y)
  | move (x y : Nat)                         -- Storage(std::move(y))
  | conv (x y : Nat) (f : R → R)             -- conversion constructor
  | proxy (x b n : Nat)                      -- Storage(ptr, n)
  | dtor (x : Nat)                           -- ~Storage()
  | resize (x n : Nat)
  | assign (x y : Nat)                       -- x = y
  | moveAssign (x y : Nat)                   -- x = std::move(y)
  | swap (x y : Nat)
  | write (x i : Nat) (v : R)                -- *(x.begin() + i) = v
  | fill (x : Nat) (v : R)
  | load (x : Nat) (vs : List R)             -- boost load() of an archive holding vs

/-- Begin of the lifetime of `x` on an unused name. -/
def World.place (w : World R) (x : Nat) (o : Obj) : Res (World R) :=
  match w.obj x with
  | none => .ok (w.setObj x o)
  | some _ => .error .ub

/-- One operation. -/
def step (w : World R) : Op R → Res (World R)
  | .userAlloc cells => .ok (w.alloc cells true)
  -- Storage.h:304-309
  | .dflt x => w.place x ⟨none, 0, true⟩
  -- Storage.h:311-316
  | .size x n => (w.alloc (Buf.alloc n) false).place x ⟨some w.next, n, true⟩
  -- Storage.h:318-327
  | .init x vs => (w.alloc (vs.map some) false).place x ⟨some w.next, vs.length, true⟩
  -- Storage.h:329-335: the new memory is owned only if the source owned its memory
  | .copy x y => do
    let o ← w.get y
    let cs ← w.cells o
    (w.alloc cs false).place x ⟨some w.next, o.size, o.own⟩
  -- Storage.h:337-345
  | .move x y => do
    let o ← w.get y
    let w ← w.place x o
    return w.setObj y ⟨none, 0, false⟩
  -- Storage.h:347-354
  | .conv x y f => do
    let o ← w.get y
    let cs ← w.cells o
    (w.alloc (cs.map (Option.map f)) false).place x ⟨some w.next, o.size, true⟩
  -- Storage.h:356-359
  | .proxy x b n => w.place x ⟨some b, n, false⟩
  -- Storage.h:361-363
  | .dtor x => do
    let o ← w.get x
    let w ← w.release o
    return w.delObj x
  -- Storage.h:365-371
  | .resize x n => do
    let o ← w.get x
    if o.size = n then return w
    if ¬ o.own then .error (.throw "resize storage with not own memory.")
    else do
      let w ← w.free o.data
      return (w.alloc (Buf.alloc n) false).setObj x ⟨some w.next, n, true⟩
  -- Storage.h:373-388
  | .assign x y => do
    let o ← w.get x
    let p ← w.get y
    if x = y then return w
    let w ← w.release o
    if p.own then do
      let cs ← w.cells p
      return (w.alloc cs false).setObj x ⟨some w.next, p.size, true⟩
    else return w.setObj x ⟨p.data, p.size, false⟩
  -- Storage.h:390-404 (no test for self-assignment)
  | .moveAssign x y => do
    let o ← w.get x
    let p ← w.get y
    let w ← w.release o
    return (w.setObj x p).setObj y ⟨none, 0, false⟩
  -- Storage.h:406-412
  | .swap x y => do
    let o ← w.get x
    let p ← w.get y
    return (w.setObj x p).setObj y o
  -- Storage.h:436-438
  | .write x i v => do
    let o ← w.get x
    match o.data with
    | none => .error .ub
    | some b =>
      match w.heap b with
      | some blk =>
        if i < o.size ∧ i < blk.cells.length then
          .ok { w with heap := upd w.heap b (some { blk with cells := blk.cells.set i (some v) }) }
        else .error .ub
      | none => .error .ub
  -- Storage.h:464-466
  | .fill x v => do
    let o ← w.get x
    match o.data with
    | none => if o.size = 0 then .ok w else .error .ub
    | some b =>
      match w.heap b with
      | some blk =>
        if o.size ≤ blk.cells.length then
          .ok { w with heap := upd w.heap b (some { blk with
            cells := List.replicate o.size (some v) ++ blk.cells.drop o.size }) }
        else .error .ub
      | none => .error .ub
  -- Storage.h:485-491: the old memory is not freed
  | .load x vs => do
    let _ ← w.get x
    return (w.alloc (vs.map some) false).setObj x ⟨some w.next, vs.length, true⟩

/-- Correct use of the class by its caller: constructors on unused names, other operations on live
objects, element writes in range, proxies on sufficiently large live arrays of the caller. -/
def Adm (w : World R) : Op R → Prop
  | .userAlloc _ => True
  | .dflt x => w.obj x = none
  | .size x _ => w.obj x = none
  | .init x _ => w.obj x = none
  | .copy x y => w.obj x = none ∧ w.obj y ≠ none
  | .move x y => w.obj x = none ∧ w.obj y ≠ none
  | .conv x y _ => w.obj x = none ∧ w.obj y ≠ none
  | .proxy x b n => w.obj x = none ∧ ∃ blk, w.heap b = some blk ∧ blk.user = true ∧ n ≤ blk.cells.length
  | .dtor x => w.obj x ≠ none
  | .resize x _ => w.obj x ≠ none
  | .assign x y => w.obj x ≠ none ∧ w.obj y ≠ none
  | .moveAssign x y => w.obj x ≠ none ∧ w.obj y ≠ none
  | .swap x y => w.obj x ≠ none ∧ w.obj y ≠ none
  | .write x i _ => ∃ o, w.obj x = some o ∧ i < o.size
  | .fill x _ => w.obj x ≠ none
  | .load x _ => w.obj x ≠ none

/-- Worlds that correct use can reach.  (An operation that throws leaves the world as it was.) -/
inductive Reach : World R → Prop where
  | init : Reach World.init
  | step {w w' : World R} {op : Op R} : Reach w → Adm w op → Own.step w op = .ok w' → Reach w'

/-- Objects an operation may modify. -/
def Op.touches : Op R → List Nat
  | .userAlloc _ => []
  | .dflt x => [x]
  | .size x _ => [x]
  | .init x _ => [x]
  | .copy x _ => [x]
  | .move x y => [x, y]
  | .conv x _ _ => [x]
  | .proxy x _ _ => [x]
  | .dtor x => [x]
  | .resize x _ => [x]
  | .assign x _ => [x]
  | .moveAssign x y => [x, y]
  | .swap x y => [x, y]
  | .write x _ _ => [x]
  | .fill x _ => [x]
  | .load x _ => [x]

/-- Operations that cannot lose the last pointer to library memory: no copy construction from an object
that does not own its memory (proxy or moved-from), no `load` into an object that owns memory. -/
def Frugal (w : World R) : Op R → Prop
  | .copy _ y => ∀ o, w.obj y = some o → o.own = true
  | .load x _ => ∀ o, w.obj x = some o → o.own = false ∨ o.data = none
  | _ => True

/-- Worlds that correct use can reach with such operations only. -/
inductive ReachFrugal : World R → Prop where
  | init : ReachFrugal World.init
  | step {w w' : World R} {op : Op R} : ReachFrugal w → Adm w op → Frugal w op → Own.step w op = .ok w' → ReachFrugal w'

/-- What can be read through object `x`. -/
def World.contents (w : World R) (x : Nat) : Option (Buf R) :=
  match w.obj x with
  | none => none
  | some o => (w.cells o).toOption

/-- A history of operations on variable-size storages; an operation that throws ends it. -/
def run : List (Op R) → World R → Res (World R)
  | [], w => .ok w
  | op :: ops, w => do
    let w ← step w op
    run ops w

end BB.Own
