import Verif.Model.WrapperTable
import Verif.SpecBlas
import Verif.Lemmas.Base
import Mathlib.Data.List.Induction

/-!
# C85 – C88: the BLAS interface layer
-/
namespace BB.Wrap
open BB.SpecBlas

/-- The argument list of a forwarding wrapper: its parameters, in order. -/
def inOrder (n : Nat) : List Arg := (List.range n).map .v

theorem actuals_map (given : List Ptr) (l : List Nat) (h : ∀ i ∈ l, i < given.length) :
    ∃ r, actuals given (l.map .v) = .ok r ∧ r.map some = l.map (given[·]?) := by
  induction l with
  | nil => exact ⟨[], rfl, rfl⟩
  | cons i l ih =>
      obtain ⟨r, hr, hm⟩ := ih (fun j hj => h j (List.mem_cons_of_mem _ hj))
      have hi : i < given.length := h i (List.mem_cons_self ..)
      refine ⟨given[i] :: r, ?_, ?_⟩
      · simp [actuals, hr, hi]
      · simp [hm, hi]

theorem actuals_inOrder (given : List Ptr) : actuals given (inOrder given.length) = .ok given := by
  obtain ⟨r, hr, hm⟩ := actuals_map given (List.range given.length) (by simp)
  have : r = given := by
    have h2 : (List.range given.length).map (given[·]?) = given.map some := by
      apply List.ext_getElem
      · simp
      · intro i h1 h2
        simp at h1 ⊢
    rw [h2] at hm
    exact (List.map_inj_right (fun _ _ h => Option.some.inj h)).mp hm
  rw [inOrder, hr, this]

/-- The wrapper selected by a routine name forwards to the library's routine. -/
def Forwards (table : List Wrapper) (name : String) (arity : Nat) : Prop :=
  ∀ (V : Type) (zero : V) (lib : Lib V) (given : List Ptr) (m : Mem V), given.length = arity →
    (select table name).map (fun w => w.call zero lib given m) = some (lib (symbol name) given m)

theorem forwards_of {table : List Wrapper} {name : String} {n : Nat}
    (h : (select table name).map (fun w => (w.callee, w.args, w.hidden))
      = some (symbol name, inOrder n, false)) : Forwards table name n := by
  intro V zero lib given m hl
  cases hs : select table name with
  | none => rw [hs] at h; simp at h
  | some w =>
      rw [hs] at h
      simp only [Option.map_some, Option.some.injEq, Prod.mk.injEq] at h ⊢
      obtain ⟨h1, h2, h3⟩ := h
      subst hl
      simp [Wrapper.call, h2, h3, h1, actuals_inOrder]

/-- **C85.** Calling any BLAS routine (but the four complex dot products) through the OpenBLAS
interface calls the library's routine of that name with exactly the given pointers in the given
order, and returns what it returns, whatever the library does. -/
theorem C85_openblas : ∀ s ∈ blas, s.name ∉ complexDots →
    Forwards openBLAS s.name s.params.length := by
  have h : ∀ s ∈ blas, s.name ∉ complexDots →
      (select openBLAS s.name).map (fun w => (w.callee, w.args, w.hidden))
        = some (symbol s.name, inOrder s.params.length, false) := by decide +kernel
  exact fun s hs hn => forwards_of (h s hs hn)

/-- **C85.** The same through the MKL interface, and for MKL's sparse routines. -/
theorem C85_mkl : ∀ s ∈ blas ++ sparse, s.name ∉ complexDots →
    Forwards intelMKL s.name s.params.length := by
  have h : ∀ s ∈ blas ++ sparse, s.name ∉ complexDots →
      (select intelMKL s.name).map (fun w => (w.callee, w.args, w.hidden))
        = some (symbol s.name, inOrder s.params.length, false) := by decide +kernel
  exact fun s hs hn => forwards_of (h s hs hn)

/-- A library whose routines record who was called. -/
def recorder : Lib String := fun name given m =>
  .ok (m.put (.user 0) (some (name ++ toString given.length)), none)

/-- Witness: `BlasInterface<OpenBLAS, dgemm>` on thirteen pointers calls `dgemm_` on them. -/
example : ((select openBLAS "dgemm").map fun w =>
    ((w.call "0" recorder ((List.range 13).map .user) fun _ => none).toOption.map
      fun r => r.1 (.user 0))) = some (some (some "dgemm_13")) := by decide +kernel

/-- **C86.** Each wrapper has the signature of the reference BLAS: result type, number, order, types
and constness of the parameters; every routine of the reference has one, and only one. -/
theorem C86_openblas_signatures :
    (∀ w ∈ openBLAS, (⟨w.name, w.ret, w.params⟩ : Sig) ∈ blas) ∧
    (∀ s ∈ blas, (select openBLAS s.name).map (fun w => (w.ret, w.params)) = some (s.ret, s.params)) ∧
    (openBLAS.map Wrapper.name).Nodup := by
  refine ⟨?_, ?_, ?_⟩ <;> decide +kernel

/-- **C86.** The same for MKL, with its four sparse routines. -/
theorem C86_mkl_signatures :
    (∀ w ∈ intelMKL, (⟨w.name, w.ret, w.params⟩ : Sig) ∈ blas ++ sparse) ∧
    (∀ s ∈ blas ++ sparse,
      (select intelMKL s.name).map (fun w => (w.ret, w.params)) = some (s.ret, s.params)) ∧
    (intelMKL.map Wrapper.name).Nodup := by
  refine ⟨?_, ?_, ?_⟩ <;> decide +kernel

/-- **C86.** What the headers declare is what the sources define. -/
theorem C86_declared :
    openBLASDecls = openBLAS.map (fun w => ⟨w.name, w.ret, w.params⟩) ∧
    (intelMKLDecls.length = intelMKL.length ∧
      ∀ d ∈ intelMKLDecls, (⟨d.name, d.ret, d.params⟩ : Sig) ∈
        intelMKL.map (fun w => (⟨w.name, w.ret, w.params⟩ : Sig))) := by
  refine ⟨?_, ?_, ?_⟩ <;> decide +kernel

/-- **C86.** The prototypes the wrappers call through are those of the reference: for the complex dot
products void with the result as an extra first parameter, for all others the plain ones. -/
theorem C86_prototypes :
    (∀ s ∈ blas, s.name ∉ complexDots → (⟨symbol s.name, s.ret, s.params⟩ : Sig) ∈ blasProtos) ∧
    (∀ s ∈ blas, s.name ∈ complexDots →
      (⟨symbol s.name, .void, ⟨false, s.ret⟩ :: s.params⟩ : Sig) ∈ blasProtos) ∧
    (∀ s ∈ sparse, (⟨symbol s.name, s.ret, s.params⟩ : Sig) ∈ sparseProtos) ∧
    (blasProtos.map Sig.name).Nodup := by
  refine ⟨?_, ?_, ?_, ?_⟩ <;> decide +kernel

/-- **C86.** A routine tag's `name()` is the routine's name, and there is one tag per routine. -/
theorem C86_tags : (∀ t ∈ tags, t.2 = t.1) ∧ (tags.map Prod.fst).Nodup ∧
    (∀ s ∈ blas ++ sparse, (s.name, s.name) ∈ tags) ∧
    tags.length = (blas ++ sparse).length := by
  refine ⟨?_, ?_, ?_, ?_⟩ <;> decide +kernel

/-- Witness: 158 routines, 162 with MKL's sparse ones. -/
example : blas.length = 158 ∧ openBLAS.length = 158 ∧ intelMKL.length = 162 := by decide +kernel

/-- A library that returns complex results through a hidden first argument (f2c, Intel): `dot` is
the function it computes from the five reference arguments. -/
def hiddenResult {V : Type} (dot : String → List Ptr → Mem V → Res V) : Lib V := fun name given m =>
  match given with
  | [] => .error .ub
  | r :: rest => do let v ← dot name rest m; return (m.put r (some v), none)

/-- A library that returns complex results by value (gfortran): it takes the first five of the
arguments it is called with. -/
def byValue {V : Type} (dot : String → List Ptr → Mem V → Res V) : Lib V := fun name given m => do
  let v ← dot name (given.take 5) m; return (m, some v)

theorem select_dots (name : String) (h : name ∈ complexDots) :
    ∀ table ∈ [openBLAS, intelMKL],
      (select table name).map (fun w => (w.callee, w.args, w.hidden))
        = some (name ++ "_", .res :: inOrder 5, true) := by
  have : ∀ name ∈ complexDots, ∀ table ∈ [openBLAS, intelMKL],
      (select table name).map (fun w => (w.callee, w.args, w.hidden))
        = some (name ++ "_", .res :: inOrder 5, true) := by decide +kernel
  exact this name h

theorem put_put {V : Type} (m : Mem V) (p : Ptr) (a b : Option V) : (m.put p a).put p b = m.put p b := by
  funext q; by_cases h : q = p <;> simp [Mem.put, h]

theorem put_same {V : Type} (m : Mem V) (p : Ptr) (h : m p = none) : m.put p none = m := by
  funext q
  by_cases hq : q = p
  · simp [Mem.put, hq, h]
  · simp [Mem.put, hq]

theorem call_hidden {V : Type} {zero : V} {w : Wrapper} {lib : Lib V} {given : List Ptr} {m : Mem V}
    {name : String} (hl : given.length = 5)
    (h : (w.callee, w.args, w.hidden) = (name ++ "_", .res :: inOrder 5, true)) :
    w.call zero lib given m = (do
      let (m', _) ← lib (name ++ "_") (.loc :: given) (m.put .loc (some zero))
      match m' .loc with
      | none => .error .ub
      | some v => return (m'.put .loc none, some v)) := by
  simp only [Prod.mk.injEq] at h
  obtain ⟨h1, h2, h3⟩ := h
  have ha : actuals given (Arg.res :: inOrder 5) = .ok (.loc :: given) := by
    rw [← hl]; simp [actuals, actuals_inOrder]
  simp only [Wrapper.call, h1, h2, h3, ha]
  rfl

/-- **C87 (part).** With a library that returns complex results through a hidden first argument, the
wrappers of `cdotc`, `cdotu`, `zdotc` and `zdotu` return the dot product the library computes from
the caller's arguments (seen with the wrapper's own local in place), fail when it fails, and change
nothing in the caller's memory. -/
theorem C87_complex_dot_partial (V : Type) (zero : V) (dot : String → List Ptr → Mem V → Res V)
    (name : String) (hn : name ∈ complexDots) (table : List Wrapper)
    (ht : table ∈ [openBLAS, intelMKL]) (given : List Ptr) (hl : given.length = 5)
    (m : Mem V) (hm : m .loc = none)
    -- the routine looks only at the memory its arguments point to
    (hread : ∀ g m₁ m₂, (∀ p ∈ g, m₁ p = m₂ p) → dot (name ++ "_") g m₁ = dot (name ++ "_") g m₂)
    (huser : Ptr.loc ∉ given) :
    (select table name).map (fun w => w.call zero (hiddenResult dot) given m) =
      some (do let v ← dot (name ++ "_") given m; return (m, some v)) := by
  have h := select_dots name hn table ht
  cases hs : select table name with
  | none => rw [hs] at h; simp at h
  | some w =>
      rw [hs] at h
      simp only [Option.map_some, Option.some.injEq] at h ⊢
      rw [call_hidden hl h]
      have hd : dot (name ++ "_") given (m.put .loc (some zero)) = dot (name ++ "_") given m := by
        apply hread
        intro p hp
        have : p ≠ .loc := fun e => huser (e ▸ hp)
        simp [Mem.put, this]
      simp only [hiddenResult, hd]
      cases hv : dot (name ++ "_") given m with
      | error e => rfl
      | ok v =>
          simp only [bind_ok', pure_ok', put_put]
          have : (m.put Ptr.loc (some v)) Ptr.loc = some v := by simp [Mem.put]
          rw [this]
          simp [put_same m .loc hm]

/-- **C87, the failing case.** With a library that returns complex results by value the wrappers
return zero, whatever the vectors: the value the routine returned is dropped, `result` keeps its
initial value (and the routine took the address of `result` for the length). -/
theorem C87_by_value_zero (V : Type) (zero : V) (dot : String → List Ptr → Mem V → Res V)
    (name : String) (hn : name ∈ complexDots) (table : List Wrapper)
    (ht : table ∈ [openBLAS, intelMKL]) (given : List Ptr) (hl : given.length = 5)
    (m : Mem V) (hm : m .loc = none) (v : V)
    (hret : dot (name ++ "_") (.loc :: given.take 4) (m.put .loc (some zero)) = .ok v) :
    (select table name).map (fun w => w.call zero (byValue dot) given m) = some (.ok (m, some zero)) := by
  have h := select_dots name hn table ht
  cases hs : select table name with
  | none => rw [hs] at h; simp at h
  | some w =>
      rw [hs] at h
      simp only [Option.map_some, Option.some.injEq] at h ⊢
      rw [call_hidden hl h]
      simp only [byValue, List.take_succ_cons, hret, bind_ok', pure_ok', put_put]
      have : (m.put Ptr.loc (some zero)) Ptr.loc = some zero := by simp [Mem.put]
      rw [this]
      simp [put_same m .loc hm]

/-- A dot product of vectors of length `n` (a value is an integer or a vector). -/
def sampleDot : String → List Ptr → Mem (List Int) → Res (List Int) := fun _ given m =>
  match given.map m with
  | [some [n], some x, some _, some y, some _] =>
      .ok [((x.zip y).take n.toNat).foldl (fun s p => s + p.1 * p.2) 0]
  | _ => .error .ub

/-- A caller's memory with n = 2, x = (1, 2), y = (3, 4) and unit increments. -/
def sampleMem : Mem (List Int) := fun p =>
  match p with
  | .user 0 => some [2] | .user 1 => some [1, 2] | .user 2 => some [1] | .user 3 => some [3, 4]
  | .user 4 => some [1] | _ => none

def samplePtrs : List Ptr := [.user 0, .user 1, .user 2, .user 3, .user 4]

/-- **C87 is false in general**: (1, 2)·(3, 4) is 11; through the OpenBLAS interface the hidden
result convention gives 11, a library returning by value gives 0. -/
theorem C87_by_value_wrong :
    ((select openBLAS "zdotu").map fun w =>
      (w.call [0] (hiddenResult sampleDot) samplePtrs sampleMem).toOption.map Prod.snd)
        = some (some (some [11])) ∧
    ((select openBLAS "zdotu").map fun w =>
      (w.call [0] (byValue fun _ g m => (.ok <|
          (sampleDot "" g m).toOption.getD [0])) samplePtrs sampleMem).toOption.map Prod.snd)
        = some (some (some [0])) := by
  decide +kernel

/-- **C88.** After setting the number of threads, the library in question uses that number, MKL no
longer adjusts it dynamically, and the other library's setting is untouched; the last call wins. -/
theorem C88_threads (n : Int) (t : Threads) :
    ((setOpenBLAS n t).openblas = n ∧ (setOpenBLAS n t).mkl = t.mkl ∧
      (setOpenBLAS n t).mklDynamic = t.mklDynamic) ∧
    ((setIntelMKL n t).mkl = n ∧ (setIntelMKL n t).mklDynamic = false ∧
      (setIntelMKL n t).openblas = t.openblas) := by
  simp [setOpenBLAS, setIntelMKL, mklSetNum, mklSetDynamic]

/-- One call of a history: `(true, n)` is `OpenBLAS_set_num_threads(n)`, `(false, n)` MKL's. -/
def setThreads (t : Threads) (c : Bool × Int) : Threads :=
  if c.1 then setOpenBLAS c.2 t else setIntelMKL c.2 t

/-- **C88.** For any history of settings: each library ends with the last number asked of it, the
initial one if none was asked; MKL's dynamic adjustment is off as soon as MKL was asked once. -/
theorem C88_history (calls : List (Bool × Int)) (t : Threads) :
    (calls.foldl setThreads t).openblas
        = (((calls.filter (·.1)).getLast?).map Prod.snd).getD t.openblas ∧
    (calls.foldl setThreads t).mkl
        = (((calls.filter (fun c => !c.1)).getLast?).map Prod.snd).getD t.mkl ∧
    (calls.foldl setThreads t).mklDynamic = (t.mklDynamic && (calls.all (·.1))) := by
  induction calls using List.reverseRecOn with
  | nil => simp
  | append_singleton l c ih =>
      obtain ⟨h1, h2, h3⟩ := ih
      obtain ⟨b, k⟩ := c
      rw [List.foldl_append, List.filter_append, List.filter_append, List.all_append]
      generalize List.foldl setThreads t l = t' at h1 h2 h3
      cases b
      · refine ⟨?_, ?_, ?_⟩
        · rw [show List.filter (fun x : Bool × Int => x.1) [(false, k)] = [] from rfl,
            List.append_nil, ← h1]; rfl
        · rw [show List.filter (fun x : Bool × Int => !x.1) [(false, k)] = [(false, k)] from rfl,
            List.getLast?_concat]; rfl
        · simp [setThreads, setIntelMKL, mklSetNum, mklSetDynamic]
      · refine ⟨?_, ?_, ?_⟩
        · rw [show List.filter (fun x : Bool × Int => x.1) [(true, k)] = [(true, k)] from rfl,
            List.getLast?_concat]; rfl
        · rw [show List.filter (fun x : Bool × Int => !x.1) [(true, k)] = [] from rfl,
            List.append_nil, ← h2]; rfl
        · simp [setThreads, setOpenBLAS, h3]

example : (([(true, 4), (false, 8), (true, 2)] : List (Bool × Int)).foldl
    setThreads ⟨1, true, 1⟩)
    = ⟨2, false, 8⟩ := by decide +kernel

end BB.Wrap
