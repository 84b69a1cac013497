import Verif.Model.OutOfMemory
import Verif.Props.Storage

/-!
# C105: running out of memory

`Reach` (C06) are the worlds that correct use can reach when all allocations succeed.
-/

namespace BB

open Own

variable {R : Type}

/-! ## Specification -/

/-- Operations that either attempt no allocation, or have not yet changed anything when they do: all but
`resize` of an owner that holds an array, copy assignment from an owner to an owner that holds an array,
and loading of an archive with a different number of elements. -/
def Harmless (w : World R) : Op R → Prop
  | .resize x n => ∀ o, w.obj x = some o → o.size = n ∨ o.own = false ∨ o.data = none
  | .assign x y => ∀ o p, w.obj x = some o → w.obj y = some p → x = y ∨ p.own = false ∨ o.own = false ∨ o.data = none
  | .load x vs => ∀ o, w.obj x = some o → o.size = vs.length
  | _ => True

/-- Worlds that correct use can reach if any allocation of such an operation may fail. -/
inductive ReachOom : World R → Prop where
  | init : ReachOom World.init
  | step {w w' : World R} {op : Op R} (fail : Bool) : ReachOom w → Adm w op → (fail = true → Harmless w op) →
      (stepF fail w op = .done w' ∨ stepF fail w op = .oom w') → ReachOom w'

/-- An object whose destructor frees an array that is not allocated any more. -/
def Dangling (w : World R) (x : Nat) : Prop :=
  ∃ o b, w.obj x = some o ∧ o.own = true ∧ o.data = some b ∧ w.heap b = none

/-- What a newly constructed object must read, given the world in which the constructor starts. -/
def madeOf (w : World R) : Op R → Option (Buf R)
  | .dflt _ => some []
  | .size _ n => some (List.replicate n none)
  | .init _ vs => some (vs.map some)
  | .copy _ y => w.contents y
  | .conv _ y f => (w.contents y).map (List.map (Option.map f))
  | _ => none

/-- A correct constructor call for an object `x`; what is copied or converted owns its memory (the copy of
a proxy leaks, C60). -/
def Constructs (w : World R) (op : Op R) : Prop :=
  (∃ x, op.builds = some x ∧ w.obj x = none) ∧
  match op with
  | .copy _ y => ∃ p, w.obj y = some p ∧ p.own = true
  | .conv _ y _ => ∃ p, w.obj y = some p ∧ p.own = true
  | _ => True

/-! ## Failing allocations of harmless operations -/

/-- C105, a failed allocation has no effect: if the allocation of a harmless operation fails, the exception
leaves everything – all objects, all memory – as it was (or the operation attempts no allocation at all
and ends as it does otherwise).  (Missing: the other operations, see `C105_failed_resize_is_fatal`,
`C105_failed_assignment_is_fatal`, `C105_failed_load`.) -/
theorem C105_failure_without_effect_partial (w : World R) (op : Op R) (ha : Adm w op) (hh : Harmless w op) :
    stepF true w op = .oom w ∨ stepF true w op = Out.ofRes (Own.step w op) := by
  cases op with
  | size x n => left; simp only [Adm] at ha; simp [stepF, ctorFail, ha]
  | init x n => left; simp only [Adm] at ha; simp [stepF, ctorFail, ha]
  | copy x y =>
    left; obtain ⟨h1, h2⟩ := ha
    cases hy : w.obj y with
    | none => exact absurd hy h2
    | some o => simp [stepF, ctorFail, hy, h1]
  | conv x y f =>
    left; obtain ⟨h1, h2⟩ := ha
    cases hy : w.obj y with
    | none => exact absurd hy h2
    | some o => simp [stepF, ctorFail, hy, h1]
  | resize x n =>
    cases hx : w.obj x with
    | none => exact absurd hx ha
    | some o =>
      by_cases h1 : o.size = n
      · right; simp [stepF, hx, h1, Own.step, get_ok hx, Out.ofRes]
      · by_cases h2 : o.own = true
        · rcases hh o hx with h | h | h
          · exact absurd h h1
          · rw [h2] at h; cases h
          · left; simp [stepF, hx, h1, h2, h, World.free]
        · right; simp [stepF, hx, h1, h2, Own.step, get_ok hx, Out.ofRes]
  | assign x y =>
    obtain ⟨h1, h2⟩ := ha
    cases hx : w.obj x with
    | none => exact absurd hx h1
    | some o =>
      cases hy : w.obj y with
      | none => exact absurd hy h2
      | some p =>
        by_cases hxy : x = y
        · right; subst hxy
          simp [stepF, hx, Own.step, get_ok hx, Out.ofRes]
        · rcases hh o p hx hy with h | h | h | h
          · exact absurd h hxy
          · right
            simp only [stepF, hx, hy, hxy, Own.step, get_ok hx, get_ok hy, bind_ok', h, if_true, if_false]
            cases hr : w.release o <;> simp [Out.ofRes]
          · cases hp : p.own with
            | true => left; simp [stepF, hx, hy, hxy, World.release, h, hp]
            | false => right; simp [stepF, hx, hy, hxy, World.release, h, hp, Own.step, get_ok hx, get_ok hy, Out.ofRes]
          · have hr : w.release o = .ok w := by
              unfold World.release; split <;> simp [World.free, h]
            cases hp : p.own with
            | true => left; simp [stepF, hx, hy, hxy, hr, hp]
            | false => right; simp [stepF, hx, hy, hxy, hr, hp, Own.step, get_ok hx, get_ok hy, Out.ofRes]
  | load x vs =>
    left
    cases hx : w.obj x with
    | none => exact absurd hx ha
    | some o =>
      have := hh o hx
      have e : w.setObj x { o with size := vs.length } = w := by
        have : ({ o with size := vs.length } : Obj) = o := by cases o; simp_all
        rw [this]
        cases w
        simp only [World.setObj, World.mk.injEq, true_and]
        funext i
        by_cases hi : i = x
        · subst hi; rw [upd_same]; exact hx.symm
        · rw [upd_ne _ _ hi]
      simp [stepF, hx, e]
  | _ => right; rfl

/-- C105, which operations these are: a failed allocation leaves the world unchanged only if the operation
is harmless. -/
theorem C105_harmless_iff (w : World R) (hw : Reach w) (op : Op R) (ha : Adm w op) (w' : World R)
    (e : stepF true w op = .oom w') : w' = w ↔ Harmless w op := by
  constructor
  · intro h
    subst h
    have key : ∀ x o, w'.obj x = some o → o.own = true → w'.free o.data = .ok w' → o.data = none := by
      intro x o hx ho hf
      obtain ⟨w1, e1, -, -, -, -, h2⟩ := free_ok hw.inv hx ho
      rw [hf] at e1; cases e1
      cases hd : o.data with
      | none => rfl
      | some b =>
        have := hw.inv.ok x o hx
        rw [OkObj, hd] at this
        obtain ⟨blk, eb, -⟩ := this
        rw [h2 b hd] at eb; cases eb
    cases op with
    | resize x n =>
      intro o hx
      by_cases h1 : o.size = n
      · exact Or.inl h1
      by_cases h2 : o.own = true
      · right; right
        simp only [stepF, hx, h1, h2, not_true_eq_false, if_false, if_true] at e
        cases hf : w'.free o.data with
        | error f => simp [hf] at e
        | ok w1 =>
          simp only [hf, Out.oom.injEq] at e
          subst e
          exact key x o hx h2 hf
      · right; left; simpa using h2
    | assign x y =>
      intro o p hx hy
      by_cases hxy : x = y
      · exact Or.inl hxy
      simp only [stepF, hx, hy, hxy, if_true, if_false] at e
      cases h2 : o.own with
      | false => simp
      | true =>
        right; right; right
        simp only [World.release, h2, if_true] at e
        cases hf : w'.free o.data with
        | error f => simp [hf] at e
        | ok w1 =>
          rw [hf] at e
          dsimp only at e
          split at e
          · cases e
            exact key x o hx h2 hf
          · cases e
    | load x vs =>
      intro o hx
      simp only [stepF, hx, if_true, Out.oom.injEq] at e
      have h1 : w'.obj x = some { o with size := vs.length } := by
        conv => lhs; rw [← e]
        simp [World.setObj]
      rw [hx] at h1
      simp only [Option.some.injEq] at h1
      rw [h1]
    | _ => trivial
  · intro h
    rcases C105_failure_without_effect_partial w op ha h with h1 | h1
    · rw [h1] at e; cases e; rfl
    · rw [h1] at e
      cases h2 : Own.step w op <;> simp [h2, Out.ofRes] at e

theorem ofRes_done {r : Res (World R)} {w : World R} (h : Out.ofRes r = .done w) : r = .ok w := by
  cases r <;> simp [Out.ofRes] at h
  rw [h]

theorem ofRes_oom {r : Res (World R)} {w : World R} (h : Out.ofRes r = .oom w) : False := by
  cases r <;> simp [Out.ofRes] at h

/-- C105, histories with failures: if allocations fail – any of them, any number of times – only in harmless
operations, every reachable world is one that is reachable without any failure, so everything that is
proved of those (C06, C07, C08, C60) holds. -/
theorem C105_same_worlds (w : World R) (hw : ReachOom w) : Reach w := by
  induction hw with
  | init => exact .init
  | @step w w' op fail _ ha hh e ih =>
    cases fail with
    | false =>
      rcases e with e | e
      · exact ih.step ha (ofRes_done e)
      · exact (ofRes_oom e).elim
    | true =>
      rcases C105_failure_without_effect_partial w op ha (hh rfl) with h | h
      · rw [h] at e
        rcases e with e | e <;> cases e
        exact ih
      · rw [h] at e
        rcases e with e | e
        · exact ih.step ha (ofRes_done e)
        · exact (ofRes_oom e).elim

/-- C105, no memory error in such a history: the next operation, failing or not, is never undefined. -/
theorem C105_no_memory_error_partial (w : World R) (hw : ReachOom w) (op : Op R) (ha : Adm w op) (fail : Bool)
    (hh : fail = true → Harmless w op) :
    (∃ w', (stepF fail w op = .done w' ∨ stepF fail w op = .oom w') ∧ ReachOom w') ∨
    (∃ x n o, op = .resize x n ∧ w.obj x = some o ∧ o.own = false ∧ o.size ≠ n ∧
      stepF fail w op = .fault (.throw "resize storage with not own memory.")) := by
  have key : stepF fail w op = .oom w ∨ stepF fail w op = Out.ofRes (Own.step w op) := by
    cases fail with
    | false => right; rfl
    | true => exact C105_failure_without_effect_partial w op ha (hh rfl)
  rcases key with h | h
  · exact Or.inl ⟨w, Or.inr h, hw⟩
  · rcases C06_no_memory_error w (C105_same_worlds w hw) op ha with ⟨w', e, -⟩ | ⟨x, n, o, h1, h2, h3, h4, h5⟩
    · have h' : stepF fail w op = .done w' := by rw [h, e]; rfl
      exact Or.inl ⟨w', Or.inl h', .step fail hw ha hh (Or.inl h')⟩
    · exact Or.inr ⟨x, n, o, h1, h2, h3, h4, by rw [h, h5]; rfl⟩

/-! ## Failing allocations of the other operations -/

/-- Not a `load`. -/
def NoLoad : Op R → Prop
  | .load _ _ => False
  | _ => True

/-- `Dangling` with its witnesses, for a block number that is not given out again. -/
def DangAt (w : World R) (x : Nat) (o : Obj) (b : Nat) : Prop :=
  w.obj x = some o ∧ o.own = true ∧ o.data = some b ∧ w.heap b = none ∧ b < w.next

theorem free_facts {w w1 : World R} {d : Option Nat} (e : w.free d = .ok w1) :
    w1.obj = w.obj ∧ w1.next = w.next ∧ (∀ b, w.heap b = none → w1.heap b = none ∧ d ≠ some b) := by
  unfold World.free at e
  cases d with
  | none => cases e; exact ⟨rfl, rfl, fun b h => ⟨h, by simp⟩⟩
  | some c =>
    dsimp only at e
    cases hc : w.heap c with
    | none => simp [hc] at e
    | some blk =>
      simp only [hc] at e
      split at e
      · cases e
      · cases e
        refine ⟨rfl, rfl, fun b h => ⟨?_, ?_⟩⟩
        · simp only [upd]; split
          · rfl
          · exact h
        · intro he; cases he; rw [hc] at h; cases h

theorem release_facts {w w1 : World R} {o : Obj} (e : w.release o = .ok w1) :
    w1.obj = w.obj ∧ w1.next = w.next ∧ (∀ b, w.heap b = none → w1.heap b = none ∧ (o.own = true → o.data ≠ some b)) := by
  unfold World.release at e
  split at e
  · obtain ⟨h1, h2, h3⟩ := free_facts e
    exact ⟨h1, h2, fun b h => ⟨(h3 b h).1, fun _ => (h3 b h).2⟩⟩
  · rename_i ho
    cases e
    exact ⟨rfl, rfl, fun b h => ⟨h, fun h' => absurd h' ho⟩⟩

theorem DangAt.alloc {w : World R} {x : Nat} {o : Obj} {b : Nat} (h : DangAt w x o b) (cs : Buf R) (u : Bool) :
    DangAt (w.alloc cs u) x o b := by
  obtain ⟨h1, h2, h3, h4, h5⟩ := h
  refine ⟨h1, h2, h3, ?_, ?_⟩
  · simp only [World.alloc]; rw [upd_ne _ _ (by omega)]; exact h4
  · simp only [World.alloc]; omega

theorem DangAt.set {w : World R} {x y : Nat} {o p : Obj} {b : Nat} (h : DangAt w x o b) (hy : x ≠ y) :
    DangAt (w.setObj y p) x o b := by
  obtain ⟨h1, h2⟩ := h
  exact ⟨by simp only [World.setObj]; rw [upd_ne _ _ hy]; exact h1, h2⟩

theorem DangAt.moved {w : World R} {x : Nat} {o : Obj} {b : Nat} (h : DangAt w x o b) (y : Nat) :
    DangAt (w.setObj y o) y o b := by
  obtain ⟨h1, h2⟩ := h
  exact ⟨by simp [World.setObj], h2⟩

theorem DangAt.place {w w' : World R} {x y : Nat} {o p : Obj} {b : Nat} (h : DangAt w x o b) (e : w.place y p = .ok w') :
    DangAt w' x o b := by
  obtain ⟨h1, rfl⟩ := place_eq e
  refine h.set ?_
  intro hc; subst hc; rw [h.1] at h1; cases h1

theorem DangAt.no_cells {w : World R} {x : Nat} {o : Obj} {b : Nat} (h : DangAt w x o b) {cs : Buf R} :
    w.cells o ≠ .ok cs := by
  obtain ⟨h1, h2, h3, h4, h5⟩ := h
  simp [World.cells, h3, h4]

theorem DangAt.released {w w1 : World R} {x : Nat} {o p : Obj} {b : Nat} (h : DangAt w x o b) (e : w.release p = .ok w1) :
    DangAt w1 x o b := by
  obtain ⟨h1, h2, h3, h4, h5⟩ := h
  obtain ⟨e1, e2, e3⟩ := release_facts e
  exact ⟨by rw [e1]; exact h1, h2, h3, (e3 b h4).1, by rw [e2]; exact h5⟩

theorem DangAt.not_released {w w1 : World R} {x : Nat} {o : Obj} {b : Nat} (h : DangAt w x o b) :
    w.release o ≠ .ok w1 := by
  intro e
  exact ((release_facts e).2.2 b h.2.2.2.1).2 h.2.1 h.2.2.1

theorem DangAt.poked {w : World R} {x : Nat} {o : Obj} {b c : Nat} {blk blk' : Block R} (h : DangAt w x o b)
    (hc : w.heap c = some blk) : DangAt { w with heap := upd w.heap c (some blk') } x o b := by
  obtain ⟨h1, h2, h3, h4, h5⟩ := h
  refine ⟨h1, h2, h3, ?_, h5⟩
  dsimp only
  rw [upd_ne]
  · exact h4
  · intro e; subst e; rw [h4] at hc; cases hc

theorem dang_step {w w' : World R} (h : ∃ x o b, DangAt w x o b) {op : Op R} (hn : NoLoad op)
    (e : Own.step w op = .ok w') : ∃ x o b, DangAt w' x o b := by
  obtain ⟨x, o, b, h⟩ := h
  have hx := h.1
  cases op with
  | userAlloc cells => cases e; exact ⟨x, o, b, h.alloc _ _⟩
  | dflt y => exact ⟨x, o, b, h.place e⟩
  | size y n => exact ⟨x, o, b, (h.alloc _ _).place e⟩
  | init y n => exact ⟨x, o, b, (h.alloc _ _).place e⟩
  | copy y z =>
    obtain ⟨p, e1, e⟩ := bind_eq_ok e
    obtain ⟨cs, e2, e⟩ := bind_eq_ok e
    exact ⟨x, o, b, (h.alloc _ _).place e⟩
  | conv y z f =>
    obtain ⟨p, e1, e⟩ := bind_eq_ok e
    obtain ⟨cs, e2, e⟩ := bind_eq_ok e
    exact ⟨x, o, b, (h.alloc _ _).place e⟩
  | proxy y c n => exact ⟨x, o, b, h.place e⟩
  | move y z =>
    obtain ⟨p, e1, e⟩ := bind_eq_ok e
    obtain ⟨w1, e2, e⟩ := bind_eq_ok e
    cases e
    have e1 := obj_get e1
    obtain ⟨hy, rfl⟩ := place_eq e2
    have hyz : y ≠ z := by intro hc; subst hc; rw [hy] at e1; cases e1
    by_cases hz : x = z
    · subst hz
      rw [hx] at e1; cases e1
      exact ⟨y, o, b, (h.moved y).set hyz⟩
    · exact ⟨x, o, b, (h.place e2).set hz⟩
  | dtor y =>
    obtain ⟨p, e1, e⟩ := bind_eq_ok e
    obtain ⟨w1, e2, e⟩ := bind_eq_ok e
    cases e
    have e1 := obj_get e1
    have hxy : x ≠ y := by
      intro hc; subst hc
      rw [hx] at e1; cases e1
      exact h.not_released e2
    obtain ⟨h1, h2⟩ := h.released e2
    exact ⟨x, o, b, by simp only [World.delObj]; rw [upd_ne _ _ hxy]; exact h1, h2⟩
  | resize y n =>
    obtain ⟨p, e1, e⟩ := bind_eq_ok e
    have e1 := obj_get e1
    split at e
    · cases e; exact ⟨x, o, b, h⟩
    split at e
    · cases e
    rename_i hs hp
    obtain ⟨w1, e2, e⟩ := bind_eq_ok e
    cases e
    have e3 : w.release p = .ok w1 := by simp only [World.release]; rw [if_pos (by simpa using hp)]; exact e2
    have hxy : x ≠ y := by
      intro hc; subst hc
      rw [hx] at e1; cases e1
      exact h.not_released e3
    exact ⟨x, o, b, ((h.released e3).alloc _ _).set hxy⟩
  | assign y z =>
    obtain ⟨p, e1, e⟩ := bind_eq_ok e
    obtain ⟨q, e2, e⟩ := bind_eq_ok e
    split at e
    · cases e; exact ⟨x, o, b, h⟩
    obtain ⟨w1, e3, e⟩ := bind_eq_ok e
    have e1 := obj_get e1
    have hxy : x ≠ y := by
      intro hc; subst hc
      rw [hx] at e1; cases e1
      exact h.not_released e3
    split at e
    · obtain ⟨cs, e4, e⟩ := bind_eq_ok e
      cases e
      exact ⟨x, o, b, ((h.released e3).alloc _ _).set hxy⟩
    · cases e
      exact ⟨x, o, b, (h.released e3).set hxy⟩
  | moveAssign y z =>
    obtain ⟨p, e1, e⟩ := bind_eq_ok e
    obtain ⟨q, e2, e⟩ := bind_eq_ok e
    obtain ⟨w1, e3, e⟩ := bind_eq_ok e
    cases e
    have e1 := obj_get e1
    have e2 := obj_get e2
    have hxy : x ≠ y := by
      intro hc; subst hc
      rw [hx] at e1; cases e1
      exact h.not_released e3
    by_cases hz : x = z
    · subst hz
      rw [hx] at e2; cases e2
      exact ⟨y, o, b, ((h.released e3).moved y).set (Ne.symm hxy)⟩
    · exact ⟨x, o, b, ((h.released e3).set hxy).set hz⟩
  | swap y z =>
    obtain ⟨p, e1, e⟩ := bind_eq_ok e
    obtain ⟨q, e2, e⟩ := bind_eq_ok e
    cases e
    have e1 := obj_get e1
    have e2 := obj_get e2
    by_cases hz : x = z
    · subst hz
      rw [hx] at e2; cases e2
      by_cases hy : x = y
      · subst hy
        rw [hx] at e1; cases e1
        exact ⟨x, o, b, (h.moved x).moved x⟩
      · exact ⟨y, o, b, (h.moved y).set (Ne.symm hy)⟩
    · by_cases hy : x = y
      · subst hy
        rw [hx] at e1; cases e1
        refine ⟨z, o, b, ?_, h.2.1, h.2.2.1, h.2.2.2.1, h.2.2.2.2⟩
        simp [World.setObj]
      · exact ⟨x, o, b, (h.set hy).set hz⟩
  | write y i v =>
    obtain ⟨p, e1, e⟩ := bind_eq_ok e
    split at e
    · cases e
    · split at e
      · rename_i hc
        split at e
        · cases e; exact ⟨x, o, b, h.poked hc⟩
        · cases e
      · cases e
  | fill y v =>
    obtain ⟨p, e1, e⟩ := bind_eq_ok e
    split at e
    · split at e
      · cases e; exact ⟨x, o, b, h⟩
      · cases e
    · split at e
      · rename_i hc
        split at e
        · cases e; exact ⟨x, o, b, h.poked hc⟩
        · cases e
      · cases e
  | load y vs => exact hn.elim

theorem dang_stepF {w w' : World R} (h : ∃ x o b, DangAt w x o b) {op : Op R} (hn : NoLoad op) (f : Bool)
    (e : stepF f w op = .done w' ∨ stepF f w op = .oom w') : ∃ x o b, DangAt w' x o b := by
  have h0 : ∀ {op : Op R}, NoLoad op → (Out.ofRes (Own.step w op) = .done w' ∨ Out.ofRes (Own.step w op) = .oom w') →
      ∃ x o b, DangAt w' x o b := by
    intro op hn e
    rcases e with e | e
    · exact dang_step h hn (ofRes_done e)
    · exact (ofRes_oom e).elim
  have hc : ∀ x, (ctorFail w x = .done w' ∨ ctorFail w x = .oom w') → ∃ x o b, DangAt w' x o b := by
    intro x e
    unfold ctorFail at e
    cases hx : w.obj x with
    | none => simp only [hx] at e; rcases e with e | e <;> cases e; exact h
    | some o => simp only [hx] at e; rcases e with e | e <;> cases e
  cases f with
  | false => exact h0 hn e
  | true =>
    cases op with
    | load y vs => exact hn.elim
    | size y n => exact hc y e
    | init y n => exact hc y e
    | copy y z =>
      simp only [stepF, if_true] at e
      cases hz : w.obj z with
      | none => simp [hz] at e
      | some p => simp only [hz] at e; exact hc y e
    | conv y z g =>
      simp only [stepF, if_true] at e
      cases hz : w.obj z with
      | none => simp [hz] at e
      | some p => simp only [hz] at e; exact hc y e
    | resize y n =>
      simp only [stepF, if_true] at e
      cases hy : w.obj y with
      | none => simp [hy] at e
      | some p =>
        simp only [hy] at e
        split at e
        · rcases e with e | e <;> cases e; exact h
        split at e
        · rcases e with e | e <;> cases e
        rename_i hp
        split at e
        · rename_i w1 e2
          rcases e with e | e
          · cases e
          · cases e
            obtain ⟨x, o, b, h⟩ := h
            have e3 : w.release p = .ok w' := by
              simp only [World.release]; rw [if_pos (by simpa using hp)]; exact e2
            exact ⟨x, o, b, h.released e3⟩
        · rcases e with e | e <;> cases e
    | assign y z =>
      simp only [stepF, if_true] at e
      cases hy : w.obj y with
      | none => simp [hy] at e
      | some p =>
      cases hz : w.obj z with
      | none => simp [hy, hz] at e
      | some q =>
        simp only [hy, hz] at e
        split at e
        · rcases e with e | e <;> cases e; exact h
        split at e
        · rcases e with e | e <;> cases e
        · rename_i w1 e2
          obtain ⟨x, o, b, h⟩ := h
          have h1 := h.released e2
          have hxy : x ≠ y := by
            intro hc; subst hc
            rw [h.1] at hy; cases hy
            exact h.not_released e2
          split at e
          · rcases e with e | e <;> cases e
            exact ⟨x, o, b, h1⟩
          · rcases e with e | e <;> cases e
            exact ⟨x, o, b, h1.set hxy⟩
    | _ => exact h0 hn e

theorem dang_run {w : World R} (h : ∃ x o b, DangAt w x o b) {ops : List (Bool × Op R)} (hn : ∀ q ∈ ops, NoLoad q.2)
    {w' : World R} (e : runF ops w = .done w') : ∃ x o b, DangAt w' x o b := by
  induction ops generalizing w with
  | nil => cases e; exact h
  | cons q ops ih =>
    obtain ⟨f, op⟩ := q
    simp only [runF] at e
    cases hs : stepF f w op with
    | fault g => simp [hs] at e
    | done w1 =>
      simp only [hs] at e
      exact ih (dang_stepF h (hn (f, op) (by simp)) f (Or.inl hs)) (fun q hq => hn q (by simp [hq])) e
    | oom w1 =>
      simp only [hs] at e
      exact ih (dang_stepF h (hn (f, op) (by simp)) f (Or.inr hs)) (fun q hq => hn q (by simp [hq])) e

theorem DangAt.fatal {w : World R} {x : Nat} {o : Obj} {b : Nat} (h : DangAt w x o b) :
    Own.step w (.dtor x) = .error .ub := by
  simp [Own.step, get_ok h.1, World.release, h.2.1, World.free, h.2.2.1, h.2.2.2.1]

/-- C105, negative: if the allocation of `resize` fails for an owner that holds an array, the exception
leaves an object whose array is already freed: destroying it, resizing it again to another size, assigning
to it and writing an element are undefined.  Whatever the program does then (without loading an archive,
with any further failures), as long as it is defined some object is left whose destructor is undefined: no
continuation can destroy all its objects. -/
theorem C105_failed_resize_is_fatal (w : World R) (hw : Reach w) (x n : Nat) (o : Obj) (b : Nat)
    (hx : w.obj x = some o) (ho : o.own = true) (hd : o.data = some b) (hn : o.size ≠ n) :
    ∃ w', stepF true w (.resize x n) = .oom w' ∧ w'.obj = w.obj ∧ Dangling w' x ∧
      Own.step w' (.dtor x) = .error .ub ∧
      (∀ k, k ≠ o.size → Own.step w' (.resize x k) = .error .ub) ∧
      (∀ y, y ≠ x → w.obj y ≠ none → Own.step w' (.assign x y) = .error .ub ∧ Own.step w' (.moveAssign x y) = .error .ub) ∧
      (∀ i v, Own.step w' (.write x i v) = .error .ub) ∧
      ∀ ops : List (Bool × Op R), (∀ q ∈ ops, NoLoad q.2) → ∀ w'', runF ops w' = .done w'' →
        ∃ y, w''.obj y ≠ none ∧ Own.step w'' (.dtor y) = .error .ub := by
  obtain ⟨w1, e1, e2, e3, -, -, h2⟩ := free_ok hw.inv hx ho
  have hD : DangAt w1 x o b := ⟨by rw [e2]; exact hx, ho, hd, h2 b hd, by rw [e3]; exact hw.inv.data_lt hx hd⟩
  have hr : w1.release o = .error .ub := by
    simp [World.release, ho, World.free, hd, h2 b hd]
  refine ⟨w1, ?_, e2, ⟨o, b, hD.1, ho, hd, h2 b hd⟩, hD.fatal, ?_, ?_, ?_, ?_⟩
  · simp [stepF, hx, hn, ho, e1]
  · intro k hk
    simp [Own.step, get_ok hD.1, Ne.symm hk, ho, World.free, hd, h2 b hd]
  · intro y hy hyn
    cases hy' : w.obj y with
    | none => exact absurd hy' hyn
    | some p =>
      rw [← e2] at hy'
      constructor
      · simp [Own.step, get_ok hD.1, get_ok hy', Ne.symm hy, hr]
      · simp [Own.step, get_ok hD.1, get_ok hy', hr]
  · intro i v
    simp [Own.step, get_ok hD.1, hd, h2 b hd]
  · intro ops hl w'' e
    obtain ⟨y, p, c, h⟩ := dang_run ⟨x, o, b, hD⟩ hl e
    exact ⟨y, by rw [h.1]; simp, h.fatal⟩

/-- C105, negative: the same after a failed copy assignment from an owner to an owner that holds an array;
even equal sizes do not help. -/
theorem C105_failed_assignment_is_fatal (w : World R) (hw : Reach w) (x y : Nat) (o p : Obj) (b : Nat) (hxy : x ≠ y)
    (hx : w.obj x = some o) (ho : o.own = true) (hd : o.data = some b) (hy : w.obj y = some p) (hp : p.own = true) :
    ∃ w', stepF true w (.assign x y) = .oom w' ∧ w'.obj = w.obj ∧ Dangling w' x ∧
      Own.step w' (.dtor x) = .error .ub ∧ Own.step w' (.assign x y) = .error .ub ∧
      ∀ ops : List (Bool × Op R), (∀ q ∈ ops, NoLoad q.2) → ∀ w'', runF ops w' = .done w'' →
        ∃ y, w''.obj y ≠ none ∧ Own.step w'' (.dtor y) = .error .ub := by
  obtain ⟨w1, e1, e2, e3, -, -, h2⟩ := free_ok hw.inv hx ho
  have hD : DangAt w1 x o b := ⟨by rw [e2]; exact hx, ho, hd, h2 b hd, by rw [e3]; exact hw.inv.data_lt hx hd⟩
  have hr : w1.release o = .error .ub := by
    simp [World.release, ho, World.free, hd, h2 b hd]
  refine ⟨w1, ?_, e2, ⟨o, b, hD.1, ho, hd, h2 b hd⟩, hD.fatal, ?_, ?_⟩
  · simp [stepF, hx, hy, hxy, World.release, ho, e1, hp]
  · rw [← e2] at hy
    simp [Own.step, get_ok hD.1, get_ok hy, hxy, hr]
  · intro ops hl w'' e
    obtain ⟨y, p, c, h⟩ := dang_run ⟨x, o, b, hD⟩ hl e
    exact ⟨y, by rw [h.1]; simp, h.fatal⟩

/-- C105, negative: a failed `load` of an archive with more elements leaves an object that reports the new
number of elements but still holds the old, smaller array; filling or copying it is undefined. -/
theorem C105_failed_load (w : World R) (hw : Reach w) (x : Nat) (o : Obj) (vs : List R) (hx : w.obj x = some o)
    (ho : o.own = true) (hn : o.size < vs.length) :
    ∃ w' o', stepF true w (.load x vs) = .oom w' ∧ w'.heap = w.heap ∧ w'.obj x = some o' ∧ o'.size = vs.length ∧
      o'.data = o.data ∧ w'.contents x = none ∧ (∀ v, Own.step w' (.fill x v) = .error .ub) ∧
      ∀ y, Own.step w' (.copy y x) = .error .ub := by
  have e1 : (w.setObj x { o with size := vs.length }).obj x = some { o with size := vs.length } := by simp [World.setObj]
  have hc : (w.setObj x { o with size := vs.length }).cells { o with size := vs.length } = .error .ub ∧
      ∀ v, Own.step (w.setObj x { o with size := vs.length }) (.fill x v) = .error .ub := by
    have hk := hw.inv.ok x o hx
    cases hd : o.data with
    | none =>
      have : vs.length ≠ 0 := by omega
      refine ⟨by simp [World.cells, this], fun v => ?_⟩
      rw [hd] at e1
      simp only [Own.step, get_ok e1, bind_ok', this, if_false]
    | some b =>
      rw [OkObj, hd] at hk
      obtain ⟨blk, eb, -, hu⟩ := hk
      have hu := (hu ho).2
      have : ¬ vs.length ≤ blk.cells.length := by omega
      refine ⟨by simp [World.cells, World.setObj, eb, this], fun v => ?_⟩
      rw [hd] at e1
      have eb' : (w.setObj x ⟨some b, vs.length, o.own⟩).heap b = some blk := eb
      simp only [Own.step, get_ok e1, bind_ok', eb', this, if_false]
  refine ⟨w.setObj x { o with size := vs.length }, { o with size := vs.length }, ?_, rfl, e1, rfl, rfl, ?_, hc.2, ?_⟩
  · simp [stepF, hx]
  · simp [World.contents, e1, hc.1, Except.toOption]
  · intro y
    simp [Own.step, get_ok e1, hc.1]

/-! ## Constructors of objects with several arrays -/

/-- `b` has everything that `a` has. -/
def Ext (a b : World R) : Prop :=
  (∀ z o, a.obj z = some o → b.obj z = some o) ∧ (∀ c blk, a.heap c = some blk → b.heap c = some blk)

theorem Ext.refl (a : World R) : Ext a a := ⟨fun _ _ h => h, fun _ _ h => h⟩
theorem Ext.trans {a b c : World R} (h : Ext a b) (k : Ext b c) : Ext a c :=
  ⟨fun z o e => k.1 z o (h.1 z o e), fun d blk e => k.2 d blk (h.2 d blk e)⟩

theorem Ext.contents {a b : World R} (hi : Inv a) (h : Ext a b) {z : Nat} (hz : a.obj z ≠ none) :
    b.contents z = a.contents z := by
  cases ho : a.obj z with
  | none => exact absurd ho hz
  | some o =>
    have hk := hi.ok z o ho
    simp only [World.contents, ho, h.1 z o ho]
    cases hd : o.data with
    | none => simp only [World.cells, hd]
    | some c =>
      rw [OkObj, hd] at hk
      obtain ⟨blk, e, -⟩ := hk
      simp only [World.cells, hd, e, h.2 c blk e]

/-- Same objects, same memory. -/
def Same (a b : World R) : Prop := a.heap = b.heap ∧ a.obj = b.obj

theorem Same.dtor {a b a' : World R} (h : Same a b) {x : Nat} (e : Own.step a (.dtor x) = .ok a') :
    ∃ b', Own.step b (.dtor x) = .ok b' ∧ Same a' b' := by
  obtain ⟨h1, h2⟩ := h
  obtain ⟨o, e1, e⟩ := bind_eq_ok e
  obtain ⟨a1, e2, e⟩ := bind_eq_ok e
  cases e
  have hb : b.obj x = some o := by rw [← h2]; exact obj_get e1
  have : ∃ b1, b.release o = .ok b1 ∧ Same a1 b1 := by
    unfold World.release at e2 ⊢
    split at e2
    · rename_i ho
      rw [if_pos ho]
      unfold World.free at e2 ⊢
      cases hd : o.data with
      | none => rw [hd] at e2; cases e2; exact ⟨b, rfl, h1, h2⟩
      | some c =>
        rw [hd] at e2
        dsimp only at e2 ⊢
        rw [← h1]
        cases hc : a.heap c with
        | none => simp [hc] at e2
        | some blk =>
          simp only [hc] at e2 ⊢
          split at e2
          · cases e2
          · rename_i hu
            cases e2
            exact ⟨{ b with heap := upd a.heap c none }, by rw [if_neg hu], rfl, h2⟩
    · rename_i ho
      cases e2
      exact ⟨b, by rw [if_neg ho], h1, h2⟩
  obtain ⟨b1, e3, h3, h4⟩ := this
  refine ⟨b1.delObj x, ?_, ?_, ?_⟩
  · simp only [Own.step, get_ok hb, bind_ok', e3]; rfl
  · exact h3
  · simp only [World.delObj, h4]

theorem Same.unwind {xs : List Nat} {a b u : World R} (h : Same a b) (e : unwind xs a = .oom u) :
    ∃ v, Own.unwind xs b = .oom v ∧ Same u v := by
  induction xs generalizing a b with
  | nil => cases e; exact ⟨b, rfl, h⟩
  | cons x xs ih =>
    simp only [Own.unwind] at e
    cases hs : Own.step a (.dtor x) with
    | error f => simp [hs] at e
    | ok a' =>
      simp only [hs] at e
      obtain ⟨b', e1, h1⟩ := h.dtor hs
      obtain ⟨v, e2, h2⟩ := ih h1 e
      exact ⟨v, by simp only [Own.unwind, e1]; exact e2, h2⟩

theorem unwind_reach {xs : List Nat} {a u : World R} (h : Reach a) (e : unwind xs a = .oom u) : Reach u := by
  induction xs generalizing a with
  | nil => cases e; exact h
  | cons x xs ih =>
    simp only [Own.unwind] at e
    cases hs : Own.step a (.dtor x) with
    | error f => simp [hs] at e
    | ok a' =>
      simp only [hs] at e
      refine ih (h.step (op := .dtor x) ?_ hs) e
      obtain ⟨o, e1, -⟩ := bind_eq_ok hs
      simp only [Adm, obj_get e1]; simp

/-- What a constructor that succeeds does. -/
theorem made_alloc {w : World R} (hi : Inv w) {x : Nat} (hx : w.obj x = none) (cs : Buf R) :
    let w1 := (w.alloc cs false).setObj x ⟨some w.next, cs.length, true⟩
    Ext w w1 ∧ w1.contents x = some cs ∧ ∃ w2, Own.step w1 (.dtor x) = .ok w2 ∧ Same w2 w := by
  intro w1
  have hf := hi.fresh w.next (le_refl _)
  have h1 : w1.obj x = some ⟨some w.next, cs.length, true⟩ := by simp [w1, World.setObj]
  have h2 : w1.heap w.next = some ⟨cs, false⟩ := by simp [w1, World.setObj, World.alloc]
  refine ⟨⟨?_, ?_⟩, ?_, ?_⟩
  · intro z o hz
    have : z ≠ x := by intro hc; subst hc; rw [hx] at hz; cases hz
    simp only [w1, World.setObj]; rw [upd_ne _ _ this]; exact hz
  · intro c blk hc
    have : c ≠ w.next := by intro he; subst he; rw [hf] at hc; cases hc
    simp only [w1, World.setObj, World.alloc]; rw [upd_ne _ _ this]; exact hc
  · simp [World.contents, h1, World.cells, h2, Except.toOption]
  · refine ⟨World.delObj { w1 with heap := upd w1.heap w.next none } x, ?_, ?_, ?_⟩
    · simp only [Own.step, get_ok h1, bind_ok', World.release, if_true, World.free, h2]; rfl
    · funext c
      simp only [World.delObj, w1, World.setObj, World.alloc, upd]
      split
      · rename_i he; subst he; exact hf.symm
      · rfl
    · funext z
      simp only [World.delObj, w1, World.setObj, World.alloc, upd]
      split
      · rename_i he; subst he; exact hx.symm
      · rfl

theorem made {w : World R} (hi : Inv w) {op : Op R} {x : Nat} (hb : op.builds = some x) (hx : w.obj x = none)
    (hc : Constructs w op) :
    ∃ w1 o, Own.step w op = .ok w1 ∧ Ext w w1 ∧ w1.contents x = madeOf w op ∧ w1.obj = upd w.obj x (some o) ∧
      o.own = true ∧ ∃ w2, Own.step w1 (.dtor x) = .ok w2 ∧ Same w2 w := by
  cases op with
  | dflt y =>
    cases hb
    refine ⟨w.setObj x ⟨none, 0, true⟩, ⟨none, 0, true⟩, place_ok _ hx, ⟨?_, fun _ _ h => h⟩, ?_, rfl, rfl, ?_⟩
    · intro z o hz
      have : z ≠ x := by intro hc; subst hc; rw [hx] at hz; cases hz
      simp only [World.setObj]; rw [upd_ne _ _ this]; exact hz
    · simp [World.contents, World.setObj, World.cells, madeOf, Except.toOption]
    · have h1 : (w.setObj x ⟨none, 0, true⟩).obj x = some ⟨none, 0, true⟩ := by simp [World.setObj]
      refine ⟨(w.setObj x ⟨none, 0, true⟩).delObj x, ?_, rfl, ?_⟩
      · simp only [Own.step, get_ok h1, bind_ok', World.release, if_true, World.free]; rfl
      · funext z
        simp only [World.delObj, World.setObj, upd]
        split
        · rename_i he; subst he; exact hx.symm
        · rfl
  | size y n =>
    cases hb
    obtain ⟨h1, h2, h3⟩ := made_alloc hi hx (Buf.alloc n)
    have hl : (Buf.alloc (R := R) n).length = n := by simp [Buf.alloc]
    rw [hl] at h1 h2 h3
    exact ⟨_, _, place_ok (w := w.alloc _ false) _ hx, h1, h2, rfl, rfl, h3⟩
  | init y vs =>
    cases hb
    obtain ⟨h1, h2, h3⟩ := made_alloc hi hx (vs.map some)
    have hl : (vs.map some : Buf R).length = vs.length := by simp
    rw [hl] at h1 h2 h3
    exact ⟨_, _, place_ok (w := w.alloc _ false) _ hx, h1, h2, rfl, rfl, h3⟩
  | copy y z =>
    cases hb
    obtain ⟨-, p, hp, ho⟩ := hc
    obtain ⟨cs, e, hl⟩ := cells_ok hi hp
    obtain ⟨h1, h2, h3⟩ := made_alloc hi hx cs
    rw [hl] at h1 h2 h3
    refine ⟨_, ⟨some w.next, p.size, true⟩, ?_, h1, ?_, rfl, rfl, h3⟩
    · simp only [Own.step, get_ok hp, bind_ok', e, ho]
      exact place_ok (w := w.alloc cs false) _ hx
    · rw [h2]; simp [madeOf, World.contents, hp, e, Except.toOption]
  | conv y z f =>
    cases hb
    obtain ⟨-, p, hp, ho⟩ := hc
    obtain ⟨cs, e, hl⟩ := cells_ok hi hp
    obtain ⟨h1, h2, h3⟩ := made_alloc hi hx (cs.map (Option.map f))
    have hl' : (cs.map (Option.map f)).length = p.size := by rw [List.length_map]; exact hl
    rw [hl'] at h1 h2 h3
    refine ⟨_, ⟨some w.next, p.size, true⟩, ?_, h1, ?_, rfl, rfl, h3⟩
    · simp only [Own.step, get_ok hp, bind_ok', e]
      exact place_ok (w := w.alloc _ false) _ hx
    · rw [h2]; simp [madeOf, World.contents, hp, e, Except.toOption]
  | _ => cases hb

theorem Constructs.adm {w : World R} {op : Op R} (h : Constructs w op) : Adm w op ∧ Harmless w op := by
  obtain ⟨⟨x, hb, hx⟩, h⟩ := h
  cases op with
  | copy y z => cases hb; obtain ⟨p, hp, -⟩ := h; exact ⟨⟨hx, by rw [hp]; simp⟩, trivial⟩
  | conv y z f => cases hb; obtain ⟨p, hp, -⟩ := h; exact ⟨⟨hx, by rw [hp]; simp⟩, trivial⟩
  | dflt y => cases hb; exact ⟨hx, trivial⟩
  | size y n => cases hb; exact ⟨hx, trivial⟩
  | init y n => cases hb; exact ⟨hx, trivial⟩
  | _ => cases hb

theorem Constructs.later {w0 w : World R} {op : Op R} (h : Constructs w0 op) (hE : Ext w0 w)
    (hx : ∀ x, op.builds = some x → w.obj x = none) : Constructs w op := by
  obtain ⟨⟨x, hb, -⟩, h⟩ := h
  refine ⟨⟨x, hb, hx x hb⟩, ?_⟩
  cases op with
  | copy y z => obtain ⟨p, hp, ho⟩ := h; exact ⟨p, hE.1 _ _ hp, ho⟩
  | conv y z f => obtain ⟨p, hp, ho⟩ := h; exact ⟨p, hE.1 _ _ hp, ho⟩
  | _ => trivial

theorem Constructs.madeOf_eq {w0 w : World R} (hi : Inv w0) {op : Op R} (h : Constructs w0 op) (hE : Ext w0 w) :
    madeOf w op = madeOf w0 op := by
  obtain ⟨⟨x, hb, -⟩, h⟩ := h
  cases op with
  | copy y z => obtain ⟨p, hp, -⟩ := h; exact hE.contents hi (by rw [hp]; simp)
  | conv y z f =>
    obtain ⟨p, hp, -⟩ := h
    simp only [madeOf, hE.contents hi (z := z) (by rw [hp]; simp)]
  | _ => rfl

theorem build_spec (fail : Nat → Bool) {w0 : World R} (h0 : Reach w0) (ops : List (Op R)) :
    ∀ (k : Nat) (built : List Nat) (w : World R), Reach w → Ext w0 w →
      (∃ u, unwind built w = .oom u ∧ Same u w0) → (∀ op ∈ ops, Constructs w0 op) →
      (∀ op ∈ ops, ∀ x, op.builds = some x → w.obj x = none) → (ops.map Op.builds).Nodup →
      (∃ w', build fail k ops built w = .done w' ∧ Reach w' ∧ Ext w w' ∧
        ∀ op ∈ ops, ∀ x, op.builds = some x → w'.contents x = madeOf w0 op ∧ ∃ o, w'.obj x = some o ∧ o.own = true) ∨
      (∃ u, build fail k ops built w = .oom u ∧ Reach u ∧ Same u w0 ∧ ∃ j, k ≤ j ∧ j < k + ops.length ∧ fail j = true) := by
  induction ops with
  | nil =>
    intro k built w hw hE _ _ _ _
    exact Or.inl ⟨w, rfl, hw, .refl w, fun op h => by simp at h⟩
  | cons op ops ih =>
    intro k built w hw hE hu hc hf hnd
    have hc0 := hc op (by simp)
    obtain ⟨x, hb, -⟩ := hc0.1
    have hx := hf op (by simp) x hb
    have hcw := hc0.later hE (hf op (by simp))
    have hN := List.nodup_cons.1 hnd
    cases hk : fail k with
    | true =>
      rcases C105_failure_without_effect_partial w op hcw.adm.1 hcw.adm.2 with h | h
      · right
        obtain ⟨u, e, hs⟩ := hu
        refine ⟨u, ?_, unwind_reach hw e, hs, k, le_refl _, by simp, hk⟩
        simp only [build, hk, h, e]
      · obtain ⟨w1, o, e1, hE1, hm, ho1, ho, w2, e2, hs2⟩ := made hw.inv hb hx hcw
        have hw1 : Reach w1 := hw.step hcw.adm.1 e1
        obtain ⟨u, e, hs⟩ := hu
        obtain ⟨v, ev, hv⟩ := Same.unwind ⟨hs2.1.symm, hs2.2.symm⟩ e
        have hu1 : ∃ u, unwind (op.builds.toList ++ built) w1 = .oom u ∧ Same u w0 := by
          refine ⟨v, ?_, hv.1 ▸ hs.1, hv.2 ▸ hs.2⟩
          simp only [hb, Option.toList, List.cons_append, List.nil_append, unwind, e2]; exact ev
        have hb' : ∀ op' ∈ ops, ∀ y, op'.builds = some y → w1.obj y = none := by
          intro op' hop y hy
          have : y ≠ x := by
            intro hc; subst hc
            exact hN.1 (by rw [hb, ← hy]; exact List.mem_map_of_mem hop)
          rw [ho1, upd_ne _ _ this]
          exact hf op' (by simp [hop]) y hy
        have hst : build fail k (op :: ops) built w = build fail (k + 1) ops (op.builds.toList ++ built) w1 := by
          simp only [build, hk, h, e1, Out.ofRes]
        rcases ih (k + 1) _ w1 hw1 (hE.trans hE1) hu1 (fun q hq => hc q (by simp [hq])) hb' hN.2 with
          ⟨w', e', hr, hx', hall⟩ | ⟨u', e', hr, hs', j, hj1, hj2, hj3⟩
        · left
          refine ⟨w', by rw [hst]; exact e', hr, hE1.trans hx', ?_⟩
          intro op' hop y hy
          rcases List.mem_cons.1 hop with rfl | hop
          · rw [hb] at hy; cases hy
            have hne : w1.obj x ≠ none := by rw [ho1]; simp
            refine ⟨?_, o, hx'.1 x o (by rw [ho1]; simp), ho⟩
            rw [hx'.contents hw1.inv hne, hm, hc0.madeOf_eq h0.inv hE]
          · exact hall op' hop y hy
        · right
          exact ⟨u', by rw [hst]; exact e', hr, hs', j, by omega, by simp; omega, hj3⟩
    | false =>
      obtain ⟨w1, o, e1, hE1, hm, ho1, ho, w2, e2, hs2⟩ := made hw.inv hb hx hcw
      have hw1 : Reach w1 := hw.step hcw.adm.1 e1
      obtain ⟨u, e, hs⟩ := hu
      obtain ⟨v, ev, hv⟩ := Same.unwind ⟨hs2.1.symm, hs2.2.symm⟩ e
      have hu1 : ∃ u, unwind (op.builds.toList ++ built) w1 = .oom u ∧ Same u w0 := by
        refine ⟨v, ?_, hv.1 ▸ hs.1, hv.2 ▸ hs.2⟩
        simp only [hb, Option.toList, List.cons_append, List.nil_append, unwind, e2]; exact ev
      have hb' : ∀ op' ∈ ops, ∀ y, op'.builds = some y → w1.obj y = none := by
        intro op' hop y hy
        have : y ≠ x := by
          intro hc; subst hc
          exact hN.1 (by rw [hb, ← hy]; exact List.mem_map_of_mem hop)
        rw [ho1, upd_ne _ _ this]
        exact hf op' (by simp [hop]) y hy
      have hst : build fail k (op :: ops) built w = build fail (k + 1) ops (op.builds.toList ++ built) w1 := by
        have : stepF false w op = .done w1 := by
          show Out.ofRes (Own.step w op) = _
          rw [e1]; rfl
        simp only [build, hk, this]
      rcases ih (k + 1) _ w1 hw1 (hE.trans hE1) hu1 (fun q hq => hc q (by simp [hq])) hb' hN.2 with
        ⟨w', e', hr, hx', hall⟩ | ⟨u', e', hr, hs', j, hj1, hj2, hj3⟩
      · left
        refine ⟨w', by rw [hst]; exact e', hr, hE1.trans hx', ?_⟩
        intro op' hop y hy
        rcases List.mem_cons.1 hop with rfl | hop
        · rw [hb] at hy; cases hy
          have hne : w1.obj x ≠ none := by rw [ho1]; simp
          refine ⟨?_, o, hx'.1 x o (by rw [ho1]; simp), ho⟩
          rw [hx'.contents hw1.inv hne, hm, hc0.madeOf_eq h0.inv hE]
        · exact hall op' hop y hy
      · right
        exact ⟨u', by rw [hst]; exact e', hr, hs', j, by omega, by simp; omega, hj3⟩

/-- C105, constructors of objects with any number of arrays (dense matrix: one, sparse matrix: three,
two-part and blocked matrices: more): whichever of the allocations fail, either everything is constructed
with the right contents and nothing else has changed, or all objects and all memory are as before – nothing
is leaked, nothing freed twice – and the exception is due to one of the failures. -/
theorem C105_constructors_all_or_nothing (w : World R) (hw : Reach w) (ops : List (Op R))
    (hc : ∀ op ∈ ops, Constructs w op) (hnd : (ops.map Op.builds).Nodup) (fail : Nat → Bool) :
    (∃ w', build fail 0 ops [] w = .done w' ∧ Reach w' ∧
      (∀ z, w.obj z ≠ none → w'.obj z = w.obj z ∧ w'.contents z = w.contents z) ∧
      ∀ op ∈ ops, ∀ x, op.builds = some x → w'.contents x = madeOf w op ∧ ∃ o, w'.obj x = some o ∧ o.own = true) ∨
    (∃ w', build fail 0 ops [] w = .oom w' ∧ Reach w' ∧ w'.heap = w.heap ∧ w'.obj = w.obj ∧
      ∃ j, j < ops.length ∧ fail j = true) := by
  have hf : ∀ op ∈ ops, ∀ x, op.builds = some x → w.obj x = none := by
    intro op hop x hx
    obtain ⟨⟨y, hy, hn⟩, -⟩ := hc op hop
    rw [hx] at hy; cases hy; exact hn
  rcases build_spec fail hw ops 0 [] w hw (.refl w) ⟨w, rfl, rfl, rfl⟩ hc hf hnd with
    ⟨w', e, hr, hE, h⟩ | ⟨u, e, hr, hs, j, -, hj, hj'⟩
  · refine Or.inl ⟨w', e, hr, ?_, h⟩
    intro z hz
    refine ⟨?_, hE.contents hw.inv hz⟩
    cases ho : w.obj z with
    | none => exact absurd ho hz
    | some o => exact hE.1 z o ho
  · exact Or.inr ⟨u, e, hr, hs.1, hs.2, j, by omega, hj'⟩

/-- C105, sparse matrices: construction of a sparse matrix with room for `nnz` elements. -/
theorem C105_sparse_constructor (w : World R) (hw : Reach w) (v k o nnz cols : Nat) (h1 : v ≠ k) (h2 : v ≠ o) (h3 : k ≠ o)
    (hv : w.obj v = none) (hk : w.obj k = none) (ho : w.obj o = none) (fail : Nat → Bool) :
    (∃ w', build fail 0 (sparseCtor v k o nnz cols) [] w = .done w' ∧ Reach w' ∧
      w'.contents v = some (List.replicate nnz none) ∧ w'.contents k = some (List.replicate nnz none) ∧
      w'.contents o = some (List.replicate (cols + 1) none) ∧
      ∀ z, w.obj z ≠ none → w'.contents z = w.contents z) ∨
    (∃ w', build fail 0 (sparseCtor v k o nnz cols) [] w = .oom w' ∧ Reach w' ∧ w'.heap = w.heap ∧ w'.obj = w.obj) := by
  have hc : ∀ op ∈ (sparseCtor v k o nnz cols : List (Op R)), Constructs w op := by
    intro op hop
    simp only [sparseCtor, List.mem_cons, List.not_mem_nil, or_false] at hop
    rcases hop with rfl | rfl | rfl
    · exact ⟨⟨v, rfl, hv⟩, trivial⟩
    · exact ⟨⟨k, rfl, hk⟩, trivial⟩
    · exact ⟨⟨o, rfl, ho⟩, trivial⟩
  have hnd : ((sparseCtor v k o nnz cols : List (Op R)).map Op.builds).Nodup := by
    simp [sparseCtor, Op.builds, h1, h2, h3]
  rcases C105_constructors_all_or_nothing w hw _ hc hnd fail with ⟨w', e, hr, hz, h⟩ | ⟨w', e, hr, h4, h5, -⟩
  · refine Or.inl ⟨w', e, hr, (h (.size v nnz) (by simp [sparseCtor]) v rfl).1, (h (.size k nnz) (by simp [sparseCtor]) k rfl).1,
      (h (.size o (cols + 1)) (by simp [sparseCtor]) o rfl).1, fun z hz' => (hz z hz').2⟩
  · exact Or.inr ⟨w', e, hr, h4, h5⟩

/-- C105, sparse matrices: copying one that owns its arrays. -/
theorem C105_sparse_copy (w : World R) (hw : Reach w) (v k o v' k' o' : Nat) (h1 : v ≠ k) (h2 : v ≠ o) (h3 : k ≠ o)
    (hv : w.obj v = none) (hk : w.obj k = none) (ho : w.obj o = none)
    (hs : ∀ y ∈ [v', k', o'], ∃ p, w.obj y = some p ∧ p.own = true) (fail : Nat → Bool) :
    (∃ w1, build fail 0 (sparseCopy v k o v' k' o') [] w = .done w1 ∧ Reach w1 ∧
      w1.contents v = w.contents v' ∧ w1.contents k = w.contents k' ∧ w1.contents o = w.contents o' ∧
      ∀ z, w.obj z ≠ none → w1.contents z = w.contents z) ∨
    (∃ w1, build fail 0 (sparseCopy v k o v' k' o') [] w = .oom w1 ∧ Reach w1 ∧ w1.heap = w.heap ∧ w1.obj = w.obj) := by
  have hc : ∀ op ∈ (sparseCopy v k o v' k' o' : List (Op R)), Constructs w op := by
    intro op hop
    simp only [sparseCopy, List.mem_cons, List.not_mem_nil, or_false] at hop
    rcases hop with rfl | rfl | rfl
    · exact ⟨⟨v, rfl, hv⟩, hs v' (by simp)⟩
    · exact ⟨⟨k, rfl, hk⟩, hs k' (by simp)⟩
    · exact ⟨⟨o, rfl, ho⟩, hs o' (by simp)⟩
  have hnd : ((sparseCopy v k o v' k' o' : List (Op R)).map Op.builds).Nodup := by
    simp [sparseCopy, Op.builds, h1, h2, h3]
  rcases C105_constructors_all_or_nothing w hw _ hc hnd fail with ⟨w1, e, hr, hz, h⟩ | ⟨w1, e, hr, h4, h5, -⟩
  · refine Or.inl ⟨w1, e, hr, (h (.copy v v') (by simp [sparseCopy]) v rfl).1, (h (.copy k k') (by simp [sparseCopy]) k rfl).1,
      (h (.copy o o') (by simp [sparseCopy]) o rfl).1, fun z hz' => (hz z hz').2⟩
  · exact Or.inr ⟨w1, e, hr, h4, h5⟩

/-! ## Dense matrices -/

/-- C105, negative: `resize` of a default-constructed matrix (for which the storage itself survives a failed
allocation) leaves a matrix that reports the new dimensions but has no elements: every element access with
indices in range passes the assertions and is undefined. -/
theorem C105_failed_matrix_resize_lies (m : MWorld R) (x r c : Nat) (hx : m.st.obj x = some ⟨none, 0, true⟩)
    (hrc : r * c ≠ 0) :
    ∃ m', m.resize true x r c = .oom m' ∧ m'.st = m.st ∧ m'.dim x = (r, c) ∧
      ∀ i j, i < r → j < c → ∀ v, m'.set x i j v = .error .ub := by
  refine ⟨⟨m.st, upd m.dim x (r, c)⟩, ?_, rfl, by simp, ?_⟩
  · simp [MWorld.resize, stepF, hx, Ne.symm hrc, World.free, MOut.of]
  · intro i j hi hj v
    simp [MWorld.set, assertThat, hi, hj, Own.step, get_ok hx]

/-- C105, negative: the same for copy assignment to a default-constructed matrix. -/
theorem C105_failed_matrix_assignment_lies (m : MWorld R) (x y : Nat) (p : Obj) (hxy : x ≠ y)
    (hx : m.st.obj x = some ⟨none, 0, true⟩) (hy : m.st.obj y = some p) (hp : p.own = true) :
    ∃ m', m.assign true x y = .oom m' ∧ m'.st = m.st ∧ m'.dim x = m.dim y ∧
      ∀ i j, i < (m.dim y).1 → j < (m.dim y).2 → ∀ v, m'.set x i j v = .error .ub := by
  refine ⟨⟨m.st, upd m.dim x (m.dim y)⟩, ?_, rfl, by simp, ?_⟩
  · simp [MWorld.assign, stepF, hx, hy, hxy, World.release, World.free, hp, MOut.of]
  · intro i j hi hj v
    simp [MWorld.set, assertThat, hi, hj, Own.step, get_ok hx]

/-- C105, the safe way to give a matrix new dimensions: construct a new one and move it over.  If the
allocation fails nothing has changed; otherwise the target has the new dimensions and a fresh array.
(`t` is the temporary matrix, which is destroyed at the end.) -/
theorem C105_construct_and_move (m : MWorld R) (hw : Reach m.st) (x t r c : Nat) (o : Obj) (fail : Bool)
    (hx : m.st.obj x = some o) (ht : m.st.obj t = none) :
    (fail = true ∧ m.new fail t r c = .oom m) ∨
    (∃ m1 m2 w3, m.new fail t r c = .done m1 ∧ m1.moveAssign false x t = .done m2 ∧
      Own.step m2.st (.dtor t) = .ok w3 ∧ Reach w3 ∧ m2.dim x = (r, c) ∧
      w3.contents x = some (List.replicate (r * c) none) ∧ w3.obj t = none ∧
      ∀ z, z ≠ x → z ≠ t → w3.obj z = m.st.obj z) := by
  cases fail with
  | true =>
    left
    refine ⟨rfl, ?_⟩
    simp [MWorld.new, stepF, ctorFail, ht, MOut.of]
  | false =>
    right
    have hxt : x ≠ t := by intro h; subst h; rw [hx] at ht; cases ht
    have e1 : Own.step m.st (.size t (r * c)) = .ok ((m.st.alloc (Buf.alloc (r * c)) false).setObj t ⟨some m.st.next, r * c, true⟩) :=
      place_ok (w := m.st.alloc _ false) _ ht
    set w1 := (m.st.alloc (Buf.alloc (r * c)) false).setObj t ⟨some m.st.next, r * c, true⟩ with hw1
    have r1 : Reach w1 := hw.step (op := .size t (r * c)) ht e1
    have o1 : w1.obj x = some o := by simp only [hw1, World.setObj]; rw [upd_ne _ _ hxt]; exact hx
    have t1 : w1.obj t = some ⟨some m.st.next, r * c, true⟩ := by simp [hw1, World.setObj]
    have c1 : w1.contents t = some (List.replicate (r * c) none) := by
      simp [World.contents, World.cells, hw1, World.setObj, World.alloc, Buf.alloc, Except.toOption]
    have ad : Adm w1 (.moveAssign x t) := ⟨by rw [o1]; simp, by rw [t1]; simp⟩
    rcases C06_no_memory_error w1 r1 (.moveAssign x t) ad with ⟨w2, e2, r2⟩ | ⟨_, _, _, h, -⟩
    swap
    · cases h
    have e2' := e2
    simp only [Own.step, get_ok o1, get_ok t1, bind_ok'] at e2'
    obtain ⟨wr, er, e3⟩ := bind_eq_ok e2'
    cases e3
    obtain ⟨f1, f2, f3⟩ := release_facts er
    set w2 := (wr.setObj x ⟨some m.st.next, r * c, true⟩).setObj t ⟨none, 0, false⟩ with hw2
    have t2 : w2.obj t = some ⟨none, 0, false⟩ := by simp [hw2, World.setObj]
    have x2 : w2.obj x = some ⟨some m.st.next, r * c, true⟩ := by
      simp only [hw2, World.setObj]; rw [upd_ne _ _ hxt]; simp
    have e4 : Own.step w2 (.dtor t) = .ok (w2.delObj t) := by
      simp [Own.step, get_ok t2, World.release]
    have hd : w2.contents x = some (List.replicate (r * c) none) := by
      have hk := r2.inv.ok x _ x2
      simp only [OkObj] at hk
      obtain ⟨blk, eb, -, hu⟩ := hk
      have hl := (hu trivial).2
      have eb1 : w1.heap m.st.next = some ⟨Buf.alloc (r * c), false⟩ := by simp [hw1, World.setObj, World.alloc]
      have : blk = ⟨Buf.alloc (r * c), false⟩ := by
        have hne : (some m.st.next : Option Nat) ≠ o.data := by
          intro h
          exact (C06_owner_is_exclusive w1 r1 t x _ o m.st.next (Ne.symm hxt) t1 o1 rfl rfl) h.symm
        have hsame : wr.heap m.st.next = w1.heap m.st.next := by
          unfold World.release at er
          split at er
          · rename_i ho
            obtain ⟨wf, ef, -, -, -, hs, -⟩ := free_ok r1.inv o1 ho
            rw [ef] at er; cases er
            exact hs _ hne
          · cases er; rfl
        have : wr.heap m.st.next = some blk := eb
        rw [hsame, eb1] at this
        cases this; rfl
      subst this
      have eb' : w2.heap m.st.next = some ⟨Buf.alloc (r * c), false⟩ := eb
      simp [World.contents, x2, World.cells, eb', Buf.alloc, Except.toOption]
    refine ⟨⟨w1, upd m.dim t (r, c)⟩, ⟨w2, upd (upd m.dim t (r, c)) x (r, c)⟩, w2.delObj t, ?_, ?_, e4, ?_, by simp, ?_, ?_, ?_⟩
    · show MOut.of _ (Out.ofRes (Own.step m.st (.size t (r * c)))) = _
      rw [e1]; simp [Out.ofRes, MOut.of]
    · show MOut.of _ (Out.ofRes (Own.step w1 (.moveAssign x t))) = _
      rw [e2]; simp [Out.ofRes, MOut.of]
    · exact r2.step (op := .dtor t) (by simp [Adm, t2]) e4
    · have : (w2.delObj t).obj x = w2.obj x := by simp only [World.delObj]; rw [upd_ne _ _ hxt]
      simp only [World.contents, this]
      exact hd
    · simp [World.delObj]
    · intro z hz ht'
      simp only [World.delObj, hw2, World.setObj]
      rw [upd_ne _ _ ht', upd_ne _ _ ht', upd_ne _ _ hz, f1]
      simp only [hw1, World.setObj]
      rw [upd_ne _ _ ht']; rfl

/-! ## The hypotheses are met -/

/-- A world with an owner of three elements, an empty storage and a moved-from storage. -/
def oomWorld : World Int :=
  match Own.run [.init 0 [1, 2, 3], .dflt 1, .size 3 2, .move 2 3, .init 4 [7, 8]] World.init with
  | .ok w => w
  | .error _ => World.init

theorem oomWorld_reach : Reach oomWorld :=
  (((((Reach.init.step (op := .init 0 [1, 2, 3]) rfl rfl).step (op := .dflt 1) rfl rfl).step (op := .size 3 2) rfl rfl).step
    (op := .move 2 3) ⟨rfl, by decide⟩ rfl).step (op := .init 4 [7, 8]) rfl rfl)

theorem oomWorld_one : oomWorld.obj 1 = some ⟨none, 0, true⟩ := rfl

example : ∃ o, oomWorld.obj 0 = some o ∧ o.own = true ∧ o.data = some 0 ∧ o.size ≠ 5 ∧ o.size < [1, 2, 3, 4].length :=
  ⟨_, rfl, rfl, rfl, by decide, by decide⟩

/-- Failed resize of object 0, then an attempt to go on: a copy of object 4, then the destructors. -/
example : ∃ w', stepF true oomWorld (.resize 0 5) = .oom w' ∧
    runF [(false, .copy 5 4), (true, .size 6 9), (false, .dtor 5), (false, .dtor 0)] w' = .fault .ub ∧
    ∃ w'', runF [(false, .copy 5 4), (true, .size 6 9), (false, .dtor 5)] w' = .done w'' := ⟨_, rfl, rfl, _, rfl⟩

/-- Harmless failures: a failed resize of the empty storage, a failed copy; then the program goes on. -/
example : ∃ w', runF [(true, .resize 1 4), (true, .copy 5 0), (false, .resize 1 2), (false, .fill 1 9),
      (true, .assign 2 0), (false, .dtor 0)] oomWorld = .done w' ∧ w'.contents 1 = some [some 9, some 9] ∧ w'.obj 5 = none :=
  ⟨_, rfl, rfl, rfl⟩

example : ReachOom oomWorld ∧ Harmless oomWorld (.resize 1 4) ∧ Adm oomWorld (.resize 1 4) ∧
    stepF true oomWorld (.resize 1 4) = .oom oomWorld := by
  refine ⟨?_, ?_, by simp [Adm, oomWorld_one], rfl⟩
  · exact .step (op := .init 4 [7, 8]) false (.step (op := .move 2 3) false (.step (op := .size 3 2) false
      (.step (op := .dflt 1) false (.step (op := .init 0 [1, 2, 3]) false .init rfl nofun (Or.inl rfl)) rfl nofun
        (Or.inl rfl)) rfl nofun (Or.inl rfl)) ⟨rfl, by decide⟩ nofun (Or.inl rfl)) rfl nofun (Or.inl rfl)
  · intro o h; cases h; right; right; rfl

/-- A sparse constructor whose last allocation fails. -/
example : (∀ op ∈ (sparseCtor 5 6 7 4 2 : List (Op Int)), Constructs oomWorld op) ∧
    ∃ w', build (fun k => k == 2) 0 (sparseCtor 5 6 7 4 2) [] oomWorld = .oom w' ∧ w'.obj 5 = none ∧ w'.heap 4 = none := by
  refine ⟨?_, _, rfl, rfl, rfl⟩
  intro op hop
  simp only [sparseCtor, List.mem_cons, List.not_mem_nil, or_false] at hop
  rcases hop with rfl | rfl | rfl <;> exact ⟨⟨_, rfl, rfl⟩, trivial⟩

example : ∃ m' : MWorld Int, MWorld.resize true ⟨oomWorld, fun _ => (0, 0)⟩ 1 2 3 = .oom m' ∧ m'.dim 1 = (2, 3) ∧
    m'.set 1 1 2 7 = .error .ub := ⟨_, rfl, rfl, rfl⟩

end BB
