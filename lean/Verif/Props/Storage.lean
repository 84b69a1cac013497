import Verif.Lemmas.StorageLeak

/-!
# C06, C07, C08: ownership of storages
-/

namespace BB

open Own

variable {R : Type}

/-- C06, no double free and no access after free: whatever correct use has happened before (`Reach`),
the next correctly used operation returns normally – it never frees a block twice, frees memory of the
caller, or reads or writes memory that is not live – except that `resize` of an object that does not own
its memory throws (and changes nothing). -/
theorem C06_no_memory_error (w : World R) (hw : Reach w) (op : Op R) (ha : Adm w op) :
    (∃ w', Own.step w op = .ok w' ∧ Reach w') ∨
    (∃ x n o, op = .resize x n ∧ w.obj x = some o ∧ o.own = false ∧ o.size ≠ n ∧
      Own.step w op = .error (.throw "resize storage with not own memory.")) := by
  rcases step_inv hw.inv ha with ⟨w', e, -⟩ | ⟨x, n, o, h1, h2, h3, h4, h5⟩
  · exact Or.inl ⟨w', e, hw.step ha e⟩
  · exact Or.inr ⟨x, n, o, h1, h2, h3, h4, h5⟩

/-- C06, what two live objects share: the block of an owner is pointed to by no other object. -/
theorem C06_owner_is_exclusive (w : World R) (hw : Reach w) (x y : Nat) (o p : Obj) (b : Nat) (hxy : x ≠ y)
    (hx : w.obj x = some o) (hy : w.obj y = some p) (ho : o.own = true) (hb : o.data = some b) : p.data ≠ some b :=
  hw.inv.excl x y o p b hxy hx hy ho hb

theorem Own.ReachFrugal.both {w : World R} (h : ReachFrugal w) : Reach w ∧ LF w := by
  induction h with
  | init => exact ⟨Reach.init, init_LF⟩
  | step _ ha hf e ih => exact ⟨Reach.step ih.1 ha e, step_LF ih.1.inv ih.2 hf e⟩

/-- C60, no leak: after a history without copy construction from a non-owner and without `load` into an
owner, once all storages are destroyed no memory allocated by the library is left.  (Missing: the
excluded operations, which leak, see `C60_proxy_copy_leaks`, `C60_moved_from_copy_leaks` and
`C60_load_leaks`.) -/
theorem C60_no_leak_partial (w : World R) (hw : ReachFrugal w) (hdead : ∀ x, w.obj x = none) :
    ∀ b blk, w.heap b = some blk → blk.user = true := by
  intro b blk e
  cases hu : blk.user with
  | true => rfl
  | false =>
    obtain ⟨x, o, ex, -⟩ := hw.both.2 b blk e hu
    rw [hdead x] at ex; cases ex

/-- A history of correct use that touches every kind of operation, with its final contents. -/
def exHistory : List (Op Int) :=
  [.init 0 [1, 2, 3], .copy 1 0, .write 1 0 9, .move 2 1, .dflt 3, .assign 3 0, .swap 3 2, .resize 0 5, .fill 0 7,
   .moveAssign 1 0, .dtor 0]

example : ∃ w, Own.run exHistory World.init = .ok w ∧ w.contents 3 = some [some 9, some 2, some 3] ∧
    w.contents 2 = some [some 1, some 2, some 3] ∧ w.contents 1 = some (List.replicate 5 (some 7)) ∧
    w.contents 0 = none := ⟨_, rfl, rfl, rfl, rfl, rfl⟩

/-- The hypotheses of the theorems of this file are met by a world with an owner, its written copy and a
moved-from object. -/
example : ∃ w : World Int, Reach w ∧ ReachFrugal w ∧ w.obj 0 = some ⟨none, 0, false⟩ ∧
    w.contents 1 = some [some 9, some 2] ∧ w.contents 2 = some [some 1, some 2] ∧ ∃ o, w.obj 1 = some o ∧ o.own = true := by
  have h : ∃ w : World Int, ReachFrugal w ∧ w.obj 0 = some ⟨none, 0, false⟩ ∧
    w.contents 1 = some [some 9, some 2] ∧ w.contents 2 = some [some 1, some 2] ∧ ∃ o, w.obj 1 = some o ∧ o.own = true := by
    refine ⟨_, ReachFrugal.step (op := .move 2 0) (ReachFrugal.step (op := .write 1 0 9)
      (ReachFrugal.step (op := .copy 1 0) (ReachFrugal.step (op := .init 0 [1, 2]) ReachFrugal.init rfl trivial rfl)
        ⟨rfl, by decide⟩ ?_ rfl) ⟨_, rfl, by decide⟩ trivial rfl) ⟨rfl, by decide⟩ trivial rfl, rfl, rfl, rfl, _, rfl, rfl⟩
    intro o ho
    cases ho; rfl
  obtain ⟨w, h1, h2⟩ := h
  exact ⟨w, h1.both.1, h1, h2⟩

/-- C60, negative: copying a proxy allocates memory that nobody frees. -/
theorem C60_proxy_copy_leaks :
    ∃ w : World Int, Own.run [.userAlloc [some 5], .proxy 0 0 1, .copy 1 0, .dtor 1, .dtor 0] World.init = .ok w ∧
      w.obj 0 = none ∧ w.obj 1 = none ∧ ∃ blk, w.heap 1 = some blk ∧ blk.user = false :=
  ⟨_, rfl, rfl, rfl, _, rfl, rfl⟩

/-- C60, negative: so does copying a moved-from storage. -/
theorem C60_moved_from_copy_leaks :
    ∃ w : World Int, Own.run [.init 0 [5], .move 1 0, .copy 2 0, .dtor 2, .dtor 1, .dtor 0] World.init = .ok w ∧
      ∃ blk, w.heap 1 = some blk ∧ blk.user = false :=
  ⟨_, rfl, _, rfl, rfl⟩

/-- C60, negative: so does loading an archive into a storage that already holds memory. -/
theorem C60_load_leaks :
    ∃ w : World Int, Own.run [.init 0 [5], .load 0 [1, 2], .dtor 0] World.init = .ok w ∧
      ∃ blk, w.heap 0 = some blk ∧ blk.user = false :=
  ⟨_, rfl, _, rfl, rfl⟩

/-- C07.  Copy construction, from any live storage: the copy reads what the source reads, the source
still reads the same, and the copy of an owner owns its own memory. -/
theorem C07_copy_equal (w : World R) (hw : Reach w) (x y : Nat) (o : Obj) (hx : w.obj x = none) (hy : w.obj y = some o) :
    ∃ w', Own.step w (.copy x y) = .ok w' ∧ w.contents y ≠ none ∧ w'.contents x = w.contents y ∧
      w'.contents y = w.contents y ∧ ∃ p, w'.obj x = some p ∧ p.own = o.own := by
  obtain ⟨cs, e, hl⟩ := cells_ok hw.inv hy
  have hxy : y ≠ x := by intro hc; subst hc; rw [hx] at hy; cases hy
  have hn : ∀ b, o.data = some b → b < w.next := fun b hb => hw.inv.data_lt hy hb
  refine ⟨(w.alloc cs false).setObj x ⟨some w.next, o.size, o.own⟩, ?_, ?_, ?_, ?_, ?_⟩
  · simp only [Own.step, get_ok hy, bind_ok', e]
    exact place_ok (w := w.alloc cs false) _ hx
  · simp [World.contents, hy, e, Except.toOption]
  · have h1 : (w.alloc cs false).cells ⟨some w.next, o.size, o.own⟩ = .ok cs := by
      simp [World.cells, World.alloc, ← hl]
    have h2 : ((w.alloc cs false).setObj x ⟨some w.next, o.size, o.own⟩).cells ⟨some w.next, o.size, o.own⟩ = .ok cs := h1
    simp only [World.contents, hy, e]
    rw [show ((w.alloc cs false).setObj x ⟨some w.next, o.size, o.own⟩).obj x = some ⟨some w.next, o.size, o.own⟩ from by
      simp [World.setObj]]
    simp only [h2]
  · have k := keeps_set (keeps_alloc hn (keeps_refl hy) cs false) hxy (p := ⟨some w.next, o.size, o.own⟩)
    simp only [World.contents, k.1, hy, k.cells]
  · exact ⟨⟨some w.next, o.size, o.own⟩, by simp [World.setObj], rfl⟩

/-- C07.  Copy assignment from an owner: as copy construction, whatever the target held. -/
theorem C07_assign_equal (w : World R) (hw : Reach w) (x y : Nat) (o p : Obj) (hx : w.obj x = some o)
    (hy : w.obj y = some p) (hp : p.own = true) :
    ∃ w', Own.step w (.assign x y) = .ok w' ∧ w.contents y ≠ none ∧ w'.contents x = w.contents y ∧
      w'.contents y = w.contents y ∧ ∃ q, w'.obj x = some q ∧ q.own = true := by
  have hne : w.contents y ≠ none := by
    obtain ⟨cs, e, hl⟩ := cells_ok hw.inv hy
    simp [World.contents, hy, e, Except.toOption]
  by_cases hxy : x = y
  · subst hxy
    rw [hx] at hy; cases hy
    refine ⟨w, ?_, hne, rfl, rfl, o, hx, hp⟩
    simp only [Own.step, get_ok hx, bind_ok', if_true]; rfl
  rcases step_inv (op := .assign x y) hw.inv ⟨by simp [hx], by simp [hy]⟩ with ⟨w', e, -⟩ | ⟨_, _, _, h, -⟩
  · have k := step_keeps hw.inv hy hp (by simp [Op.touches]; exact Ne.symm hxy) e
    have hcy : w'.contents y = w.contents y := by simp only [World.contents, k.1, hy, k.cells]
    have e0 := e
    refine ⟨w', e0, hne, ?_, hcy, ?_⟩
    all_goals
      obtain ⟨o', e1, e⟩ := bind_eq_ok e
      obtain ⟨p', e2, e⟩ := bind_eq_ok e
      simp only [hxy, if_false] at e
      obtain ⟨w1, e3, e⟩ := bind_eq_ok e
      have := obj_get e2
      rw [hy] at this; cases this
      simp only [hp, if_true] at e
      obtain ⟨cs, e4, e⟩ := bind_eq_ok e
      cases e
    · obtain ⟨k1, -, hobj⟩ := keeps_release hw.inv hy (obj_get e1) (Ne.symm hxy) e3
      have ec : w.cells p = .ok cs := by rw [← k1.cells]; exact e4
      have hl : cs.length = p.size := by
        obtain ⟨cs', e', hl⟩ := cells_ok hw.inv hy
        rw [ec] at e'; cases e'; exact hl
      have h2 : ((w1.alloc cs false).setObj x ⟨some w1.next, p.size, true⟩).cells ⟨some w1.next, p.size, true⟩ = .ok cs := by
        simp [World.cells, World.alloc, World.setObj, ← hl]
      simp only [World.contents, hy, ec]
      rw [show ((w1.alloc cs false).setObj x ⟨some w1.next, p.size, true⟩).obj x = some ⟨some w1.next, p.size, true⟩ from by
        simp [World.setObj]]
      simp only [h2]
    · exact ⟨⟨some w1.next, p.size, true⟩, by simp [World.setObj], rfl⟩
  · cases h

/-- C07.  Independence: no operation on other objects – in particular no write through a copy – changes
what an owning storage reads. -/
theorem C07_owner_isolated (w w' : World R) (hw : Reach w) (op : Op R) (x : Nat) (o : Obj) (hx : w.obj x = some o)
    (ho : o.own = true) (ht : x ∉ op.touches) (e : Own.step w op = .ok w') :
    w'.obj x = some o ∧ w'.contents x = w.contents x := by
  have k := step_keeps hw.inv hx ho ht e
  exact ⟨k.1, by simp only [World.contents, k.1, hx, k.cells]⟩

/-- A history of correct use that does not touch `x`. -/
inductive Without (x : Nat) : World R → World R → Prop where
  | refl (w : World R) : Without x w w
  | step {w w1 w2 : World R} {op : Op R} : Without x w w1 → Adm w1 op → x ∉ op.touches → Own.step w1 op = .ok w2 →
      Without x w w2

/-- C07.  Independence over histories. -/
theorem C07_owner_isolated_history (w w' : World R) (hw : Reach w) (x : Nat) (o : Obj) (hx : w.obj x = some o)
    (ho : o.own = true) (h : Without x w w') : w'.obj x = some o ∧ w'.contents x = w.contents x := by
  have : Reach w' ∧ w'.obj x = some o ∧ w'.contents x = w.contents x := by
    induction h with
    | refl => exact ⟨hw, hx, rfl⟩
    | step _ ha ht e ih =>
      obtain ⟨hr, h1, h2⟩ := ih
      obtain ⟨h3, h4⟩ := C07_owner_isolated _ _ hr _ x o h1 ho ht e
      exact ⟨hr.step ha e, h3, by rw [h4, h2]⟩
  exact this.2

/-- The writes of C07 really happen: in the example history object 1 is a copy of object 0, is written,
and object 0 keeps its value. -/
example : ∃ w : World Int, Own.run (exHistory.take 3) World.init = .ok w ∧
    w.contents 0 = some [some 1, some 2, some 3] ∧ w.contents 1 = some [some 9, some 2, some 3] := ⟨_, rfl, rfl, rfl⟩

/-- C08.  Move construction and move assignment (of different objects): the target reads exactly what
the source read, the source is empty. -/
theorem C08_move_transfers (w : World R) (hw : Reach w) (x y : Nat) (p : Obj) (hy : w.obj y = some p) :
    (w.obj x = none → ∃ w', Own.step w (.move x y) = .ok w' ∧ w'.contents x = w.contents y ∧ w.contents y ≠ none ∧
      w'.contents y = some []) ∧
    (w.obj x ≠ none → x ≠ y → ∃ w', Own.step w (.moveAssign x y) = .ok w' ∧ w'.contents x = w.contents y ∧
      w.contents y ≠ none ∧ w'.contents y = some []) := by
  have hne : w.contents y ≠ none := by
    obtain ⟨cs, e, hl⟩ := cells_ok hw.inv hy
    simp [World.contents, hy, e, Except.toOption]
  constructor
  · intro hx
    have hxy : x ≠ y := by intro hc; subst hc; rw [hx] at hy; cases hy
    refine ⟨(w.setObj x p).setObj y ⟨none, 0, false⟩, ?_, ?_, hne, ?_⟩
    · simp only [Own.step, get_ok hy, bind_ok', place_ok p hx]; rfl
    · have : ((w.setObj x p).setObj y ⟨none, 0, false⟩).obj x = some p := by
        simp only [World.setObj]; rw [upd_ne _ _ hxy, upd_same]
      simp only [World.contents, this, hy]; rfl
    · have : ((w.setObj x p).setObj y ⟨none, 0, false⟩).obj y = some ⟨none, 0, false⟩ := by
        simp only [World.setObj]; rw [upd_same]
      simp only [World.contents, this]; rfl
  · intro hx hxy
    obtain ⟨o, ho⟩ := Option.ne_none_iff_exists'.1 hx
    rcases step_inv (op := .moveAssign x y) hw.inv ⟨hx, by simp [hy]⟩ with ⟨w', e, -⟩ | ⟨_, _, _, h, -⟩
    · have e0 := e
      obtain ⟨o', e1, e⟩ := bind_eq_ok e
      obtain ⟨p', e2, e⟩ := bind_eq_ok e
      obtain ⟨w1, e3, e⟩ := bind_eq_ok e
      have := obj_get e2
      rw [hy] at this; cases this
      obtain ⟨k1, -, hobj⟩ := keeps_release hw.inv hy (obj_get e1) (Ne.symm hxy) e3
      refine ⟨w', e0, ?_, hne, ?_⟩
      · cases e
        have : ((w1.setObj x p).setObj y ⟨none, 0, false⟩).obj x = some p := by
          simp only [World.setObj]; rw [upd_ne _ _ hxy, upd_same]
        have hc : ((w1.setObj x p).setObj y ⟨none, 0, false⟩).cells p = w1.cells p := rfl
        simp only [World.contents, this, hy, hc, k1.cells]
      · cases e
        have : ((w1.setObj x p).setObj y ⟨none, 0, false⟩).obj y = some ⟨none, 0, false⟩ := by
          simp only [World.setObj]; rw [upd_same]
        simp only [World.contents, this]; rfl
    · cases h

/-- C08, moved-from objects can be destroyed and assigned again (and resized to 0).  (Outside the claim: `resize`
to another size, which throws.) -/
theorem C08_moved_from_reusable (w : World R) (hw : Reach w) (x y : Nat) (p : Obj) (hx : w.obj x = some ⟨none, 0, false⟩)
    (hy : w.obj y = some p) (hp : p.own = true) :
    (∃ w', Own.step w (.dtor x) = .ok w') ∧
    (∃ w', Own.step w (.assign x y) = .ok w' ∧ w'.contents x = w.contents y) ∧
    Own.step w (.resize x 0) = .ok w := by
  refine ⟨?_, ?_, ?_⟩
  · rcases step_inv (op := .dtor x) hw.inv (by simp [Adm, hx]) with ⟨w', e, -⟩ | ⟨_, _, _, h, -⟩
    · exact ⟨w', e⟩
    · cases h
  · obtain ⟨w', e, -, h, -⟩ := C07_assign_equal w hw x y _ p hx hy hp
    exact ⟨w', e, h⟩
  · simp only [Own.step, get_ok hx, bind_ok', if_true]; rfl

/-- C61, negative: after `y` was moved from, `y.resize(n)` throws for every n > 0. -/
theorem C61_moved_from_cannot_resize (w : World R) (y n : Nat) (hy : w.obj y = some ⟨none, 0, false⟩) (hn : 0 < n) :
    Own.step w (.resize y n) = .error (.throw "resize storage with not own memory.") := by
  simp only [Own.step, get_ok hy, bind_ok']
  rw [if_neg (by omega)]
  rfl

/-- C61, negative: moving a storage into itself loses its contents (and it cannot be resized again). -/
theorem C61_self_move_loses_contents :
    ∃ w w' : World Int, Own.run [.init 0 [1, 2]] World.init = .ok w ∧ Own.step w (.moveAssign 0 0) = .ok w' ∧
      w.contents 0 = some [some 1, some 2] ∧ w'.contents 0 = some [] ∧
      Own.step w' (.resize 0 2) = .error (.throw "resize storage with not own memory.") :=
  ⟨_, _, rfl, rfl, rfl, rfl, rfl⟩

end BB
