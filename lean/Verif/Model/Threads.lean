import Verif.Model.Tracker
import Mathlib.Logic.Function.Basic

/-!
# Use from several threads

Nothing in the library synchronises threads: there is no mutex, no atomic variable and no thread of its own.  A program may
still use matrices from several threads.  Here the read-only member functions of dense matrices (element access, the norm
queries with their mutable cache, the occupation queries with their mutable map) and the native product are written as
sequences of single reads and writes of memory locations, and threads execute them in any interleaving.

Accesses take effect one at a time and in program order (sequential consistency).  That is what C++ promises to programs
without data races only; with a data race the behaviour is undefined, so `Race` is the fault of this model.

Simplifications: matrices have fixed shapes, the target of a product has its shape already (`resize` only fills it with
zeros), elements are initialised; the map of an occupation cache is one location; the clock readings of the tracker are
parameters of the call.
-/

namespace BB.Par

/-- A sequence of memory accesses that ends with a result.  `rd l k`: read `l` and continue with `k` of the value. -/
inductive Act {L : Type} (Val : L → Type) (A : Type) where
  | ret (a : A)
  | rd (l : L) (k : Val l → Act Val A)
  | wr (l : L) (v : Val l) (k : Act Val A)

namespace Act

variable {L : Type} {Val : L → Type} {A B : Type}

/-- First `a`, then `f` of its result. -/
def bind : Act Val A → (A → Act Val B) → Act Val B
  | .ret a, f => f a
  | .rd l k, f => .rd l (fun v => (k v).bind f)
  | .wr l v k, f => .wr l v (k.bind f)

/-- `for (i = 0; i != n; ++i) f(i)`. -/
def forN : Nat → (Nat → Act Val Unit) → Act Val Unit
  | 0, _ => .ret ()
  | n + 1, f => (forN n f).bind fun _ => f n

/-- Execution by one thread alone. -/
def run [DecidableEq L] : Act Val A → (∀ l, Val l) → (∀ l, Val l) × A
  | .ret a, m => (m, a)
  | .rd l k, m => (k (m l)).run m
  | .wr l v k, m => k.run (Function.update m l v)

end Act

/-- Memory and what the threads still have to do. -/
structure Cfg {L : Type} (Val : L → Type) (A : Type) where
  mem : ∀ l, Val l
  threads : List (Act Val A)

variable {L : Type} {Val : L → Type} {A : Type}

/-- One thread performs its next access. -/
inductive Step [DecidableEq L] : Cfg Val A → Cfg Val A → Prop
  | rd {c : Cfg Val A} (i : Nat) (l : L) (k : Val l → Act Val A) : c.threads[i]? = some (.rd l k) →
      Step c ⟨c.mem, c.threads.set i (k (c.mem l))⟩
  | wr {c : Cfg Val A} (i : Nat) (l : L) (v : Val l) (k : Act Val A) : c.threads[i]? = some (.wr l v k) →
      Step c ⟨Function.update c.mem l v, c.threads.set i k⟩

/-- Any number of accesses, in any order of the threads. -/
inductive Steps [DecidableEq L] (a : Cfg Val A) : Cfg Val A → Prop
  | refl : Steps a a
  | tail {b c : Cfg Val A} : Steps a b → Step b c → Steps a c

/-- The next access is one of `l`. -/
def Act.accesses : Act Val A → L → Prop
  | .ret _, _ => False
  | .rd l _, l' => l = l'
  | .wr l _ _, l' => l = l'

/-- The next access is a write of `l`. -/
def Act.writes : Act Val A → L → Prop
  | .wr l _ _, l' => l = l'
  | _, _ => False

/-- A data race: two threads are about to access the same location, one of them writes it. -/
def Race (c : Cfg Val A) : Prop :=
  ∃ (i j : Nat) (a b : Act Val A) (l : L), i ≠ j ∧ c.threads[i]? = some a ∧ c.threads[j]? = some b ∧ a.accesses l ∧ b.writes l

/-! ### The locations and calls of the library -/

/-- What threads can share: the elements of a matrix (DenseMatrix.h:712-722), its `norm_` and `isNormUpToDate_`
(NormPolicy.h:50-52), its `nbDesiredElementsMap_` (OccupationPolicy.h:58), the static arrays of the tracker
(Tracker.h:105-106). -/
inductive Loc where
  | elem (x p : Nat)
  | norm (x : Nat)
  | upToDate (x : Nat)
  | occ (x : Nat)
  | time (id : Tracker.Id)
  | count (id : Tracker.Id)
  deriving DecidableEq

/-- The type of the object at a location.  The keys of the occupation map are numbered. -/
@[reducible] def Obj (R : Type) : Loc → Type
  | .elem _ _ => R
  | .norm _ => R
  | .upToDate _ => Bool
  | .occ _ => List (Nat × Nat)
  | .time _ => Int
  | .count _ => Nat

variable {R : Type}

/-- Shapes of the matrices, what `norm<NormType>` and `countDesiredElements` compute from the array, and whether the
tracker is compiled in (`BLASBOOSTER_USE_TRACKER`). -/
structure World (R : Type) where
  rows : Nat → Nat
  cols : Nat → Nat
  nrm : List R → R
  cnt : Nat → List R → Nat
  tracked : Bool

/-- What a call returns. -/
inductive Ans (R : Type) where
  | num (x : R)
  | bool (b : Bool)
  | nat (n : Nat)
  | unit

/-- The calls of a thread: `x(i,j)` by position in the array, `x.getNorm()`, `x.isNormLargerThan(v)`,
`x.getNbOfSignificantElements(k)`, and `c = a * b` with the duration the tracker measures. -/
inductive Call (R : Type) where
  | get (x p : Nat)
  | norm (x : Nat)
  | normLarger (x : Nat) (v : R)
  | count (x k : Nat)
  | mul (c a b : Nat) (duration : Int)

/-- Read the elements p, …, p+n-1 of matrix `x`, the first loop of every norm and counting functor (Norm.h:41-56). -/
def readAll (x : Nat) : (p n : Nat) → Act (Obj R) (List R)
  | _, 0 => .ret []
  | p, n + 1 => .rd (.elem x p) fun v => (readAll x (p + 1) n).bind fun l => .ret (v :: l)

/-- `updateNorm()` (NormPolicy.h:40-46). -/
def updateNorm (W : World R) (x : Nat) : Act (Obj R) Unit :=
  .rd (.upToDate x) fun (b : Bool) =>
    if b then .ret ()
    else (readAll x 0 (W.rows x * W.cols x)).bind fun l =>
      .wr (.norm x) (W.nrm l) (.wr (.upToDate x) true (.ret ()))

/-- `getNorm()` (NormPolicy.h:20-24). -/
def getNorm (W : World R) (x : Nat) : Act (Obj R) R :=
  .rd (.upToDate x) fun (b : Bool) =>
    (if b then .ret () else updateNorm W x).bind fun _ => .rd (.norm x) fun (v : R) => .ret v

/-- `getNbOfSignificantElements(key)` (OccupationPolicy.h:17-29): `count` reads the map; `operator[]` of a `std::map` is a
modification as far as data races are concerned, whether or not the key exists. -/
def getCount (W : World R) (x k : Nat) : Act (Obj R) Nat :=
  .rd (.occ x) fun (m : List (Nat × Nat)) =>
    match m.lookup k with
    | some n => .wr (.occ x) m (.ret n)
    | none => (readAll x 0 (W.rows x * W.cols x)).bind fun l =>
        .rd (.occ x) fun (m : List (Nat × Nat)) => .wr (.occ x) ((k, W.cnt k l) :: m) (.ret (W.cnt k l))

/-- `TrackerRegister::add(id, duration)` (Tracker.h:76-80). -/
def trackerAdd (id : Tracker.Id) (d : Int) : Act (Obj R) Unit :=
  .rd (.time id) fun (t : Int) => .wr (.time id) (t + d : Int)
    (.rd (.count id) fun (n : Nat) => .wr (.count id) (n + 1 : Nat) (.ret ()))

/-- The `TrackerID::Native_GeneralDense` (Tracker.h:30). -/
def idDense : Tracker.Id := ⟨16, by decide⟩

/-- `*iterC += (*iterA) * (*iterB)` (Multiplication_Native.h:48). -/
def mulCell [Add R] [Mul R] (c a b pc pa pb : Nat) : Act (Obj R) Unit :=
  .rd (.elem a pa) fun (va : R) => .rd (.elem b pb) fun (vb : R) => .rd (.elem c pc) fun (vc : R) =>
    .wr (.elem c pc) (vc + va * vb : R) (.ret ())

/-- The dense product (Multiplication_Native.h:19-53): fill `c` with zeros, three loops; the destructor of the tracker is
executed last (Tracker.h:113-117). -/
def mulDense [Zero R] [Add R] [Mul R] (W : World R) (c a b : Nat) (d : Int) : Act (Obj R) Unit :=
  (Act.forN (W.rows a * W.cols b) fun p => .wr (.elem c p) (0 : R) (.ret ())).bind fun _ =>
  (Act.forN (W.cols b) fun j => Act.forN (W.rows b) fun k => Act.forN (W.rows a) fun i =>
    mulCell c a b (j * W.rows a + i) (k * W.rows a + i) (j * W.rows b + k)).bind fun _ =>
  if W.tracked then trackerAdd idDense d else .ret ()

/-- One call. -/
def Call.act [Zero R] [Add R] [Mul R] [LT R] [DecidableLT R] (W : World R) : Call R → Act (Obj R) (Ans R)
  | .get x p => .rd (.elem x p) fun v => .ret (.num v)
  | .norm x => (getNorm W x).bind fun v => .ret (.num v)
  | .normLarger x v => (getNorm W x).bind fun n => .ret (.bool (decide (v < n)))
  | .count x k => (getCount W x k).bind fun n => .ret (.nat n)
  | .mul c a b d => (mulDense W c a b d).bind fun _ => .ret .unit

/-- A thread: its calls one after the other, with all their answers. -/
def thread [Zero R] [Add R] [Mul R] [LT R] [DecidableLT R] (W : World R) : List (Call R) → Act (Obj R) (List (Ans R))
  | [] => .ret []
  | c :: cs => (c.act W).bind fun a => (thread W cs).bind fun as => .ret (a :: as)

end BB.Par
