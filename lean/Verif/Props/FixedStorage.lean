import Verif.Lemmas.FixedSim

/-!
# C121: storages of fixed size on the heap
-/

namespace BB

open Own

variable {R : Type}

/-- Worlds that correct use of fixed-size storages can reach, with the number of constructors so far that were given
the wrong number of elements (and threw). -/
inductive Own.FReach (N : Nat) : World R → Nat → Prop where
  | init : FReach N World.init 0
  | step {w w' : World R} {op : FOp R} {t : Option String} {k : Nat} : FReach N w k → FAdm N w op → fstep N w op = .ok (w', t) →
      FReach N w' (if FixedSpec.badConstructor N op then k + 1 else k)

theorem Own.FReach.inv {N k : Nat} {w : World R} (h : FReach N w k) : FInv N w := by
  induction h with
  | init => exact .init
  | step _ ha e ih =>
    obtain ⟨w', t, e', hi, -⟩ := fstep_inv ih ha
    rw [e] at e'; cases e'; exact hi

/-- C121, no memory error: after any correct use, the next correctly used operation on fixed-size storages (and
proxies for the caller's arrays) never frees a block twice, never frees memory of the caller and never reads or writes
memory that is not live. -/
theorem C121_no_memory_error (N k : Nat) (w : World R) (hw : FReach N w k) (op : FOp R) (ha : FAdm N w op) :
    ∃ w' t k', fstep N w op = .ok (w', t) ∧ FReach N w' k' := by
  obtain ⟨w', t, e, -, -⟩ := fstep_inv hw.inv ha
  exact ⟨w', t, _, e, hw.step ha e⟩

/-- C121: no two storages own the same memory. -/
theorem C121_owner_is_exclusive (N k : Nat) (w : World R) (hw : FReach N w k) (x y : Nat) (o p : Obj) (hxy : x ≠ y)
    (hx : w.obj x = some o) (hy : w.obj y = some p) (ho : o.own = true) (hp : p.own = true) : o.data ≠ p.data := by
  intro hd
  obtain ⟨b, hb, -⟩ := hw.inv.ok x o hx
  exact hxy (hw.inv.excl x y b ⟨o, hx, ho, hb⟩ ⟨p, hy, hp, hd ▸ hb⟩)

theorem Own.FReach.count {N k : Nat} {w : World R} (h : FReach N w k) :
    ∃ L : List Nat, L.Nodup ∧ L.length = k ∧ ∀ b, b ∈ L ↔ w.Unowned b := by
  induction h with
  | init => exact ⟨[], List.nodup_nil, rfl, fun b => ⟨fun h => by simp at h, fun h => by obtain ⟨⟨blk, e, -⟩, -⟩ := h; simp [World.init] at e⟩⟩
  | @step w w' op t k hr ha e ih =>
    obtain ⟨L, hn, hl, hb⟩ := ih
    obtain ⟨w'', t', e', -, hu⟩ := fstep_inv hr.inv ha
    rw [e] at e'; cases e'
    cases hc : FixedSpec.badConstructor N op with
    | false =>
      refine ⟨L, hn, by simp [hl], fun b => ?_⟩
      rw [hu b, hb b]; simp [FLostBy, hc]
    | true =>
      refine ⟨w.next :: L, List.nodup_cons.2 ⟨fun h => hr.inv.weak.next ((hb _).1 h).1, hn⟩, by simp [hl], fun b => ?_⟩
      rw [hu b, ← hb b, List.mem_cons, or_comm]; simp [FLostBy, hc]

/-- C121, what leaks: once all storages are destroyed, the blocks of the library that are left are exactly as many as
constructors have thrown because they were given the wrong number of elements. -/
theorem C121_leaks_exact (N k : Nat) (w : World R) (hw : FReach N w k) (hdead : ∀ x, w.obj x = none) :
    ∃ L : List Nat, L.Nodup ∧ L.length = k ∧ ∀ b, b ∈ L ↔ ∃ blk, w.heap b = some blk ∧ blk.user = false := by
  obtain ⟨L, hn, hl, hb⟩ := hw.count
  refine ⟨L, hn, hl, fun b => ?_⟩
  rw [hb b]
  exact ⟨fun h => h.1, fun h => ⟨h, fun x => notAt_of_none (hdead x)⟩⟩

/-- C121, the part of the claim that holds: if no constructor was given the wrong number of elements, nothing is left. -/
theorem C121_no_leak_partial (N : Nat) (w : World R) (hw : FReach N w 0) (hdead : ∀ x, w.obj x = none) :
    ∀ b blk, w.heap b = some blk → blk.user = true := by
  obtain ⟨L, -, hl, hb⟩ := C121_leaks_exact N 0 w hw hdead
  intro b blk e
  cases hu : blk.user with
  | true => rfl
  | false =>
    have hm := (hb b).2 ⟨blk, e, hu⟩
    rw [List.length_eq_zero_iff.1 hl] at hm; cases hm

theorem Own.frun_sim {N : Nat} (ops : List (FOp R)) : ∀ {w : World R} {σ σ' : FixedSpec.State R} {ts : List (Option String)} {k : Nat},
    FReach N w k → FRep σ w → FixedSpec.run N ops σ = some (σ', ts) →
    ∃ w', frun N ops w = .ok (w', ts) ∧ FRep σ' w' ∧ FReach N w' (k + ops.countP (FixedSpec.badConstructor N)) := by
  induction ops with
  | nil => intro w σ σ' ts k hr h e; cases e; exact ⟨w, rfl, h, hr⟩
  | cons op ops ih =>
    intro w σ σ' ts k hr h e
    simp only [FixedSpec.run] at e
    split at e
    · cases e
    · rename_i σ1 t e1
      split at e
      · cases e
      · rename_i σ2 ts2 e2
        cases e
        obtain ⟨ha, w1, e3, h1⟩ := fstep_sim hr.inv h e1
        obtain ⟨w2, e4, h2, hr2⟩ := ih (hr.step ha e3) h1 e2
        refine ⟨w2, by simp only [frun, e3, bind_ok', e4]; rfl, h2, ?_⟩
        rw [List.countP_cons]
        cases hc : FixedSpec.badConstructor N op
        · rw [hc] at hr2; simpa using hr2
        · rw [hc] at hr2
          simpa [Nat.add_assoc, Nat.add_comm 1] using hr2

/-- C121, value semantics: a program over fixed-size storages that has a meaning (`SpecFixed`) runs without memory
error, throws exactly what it should, and afterwards every variable reads exactly the elements it should; copies are
independent of their sources, moves and swaps carry elements over. -/
theorem C121_programs (N : Nat) (ops : List (FOp R)) (σ : FixedSpec.State R) (ts : List (Option String))
    (h : FixedSpec.run N ops (fun _ => none) = some (σ, ts)) :
    ∃ w, frun N ops World.init = .ok (w, ts) ∧ FReach N w (ops.countP (FixedSpec.badConstructor N)) ∧
      (∀ x, σ x = none → w.contents x = none) ∧ (∀ x cs, σ x = some (some cs) → w.contents x = some cs) := by
  obtain ⟨w, e, hr, hf⟩ := frun_sim ops FReach.init FRep.init h
  refine ⟨w, e, by simpa using hf, fun x hx => ?_, fun x cs hx => ?_⟩
  · have := hr x; rw [hx] at this
    simp [World.contents, show w.obj x = none from this]
  · have := hr x; rw [hx] at this
    obtain ⟨o, b, blk, ex, ho, hd, eb, hc⟩ := this
    obtain ⟨b', h1, h2, -, -, h5⟩ := hf.inv.ok x o ex
    rw [hd] at h1; cases h1
    obtain ⟨blk', e', -, hl⟩ := h5 ho
    rw [eb] at e'; cases e'
    simp only [World.contents, ex, World.cells, hd, eb, h2]
    rw [if_pos (by rw [hl]), List.take_of_length_le (by rw [hl]), hc]; rfl

/-- C121, programs that end with no variable left and whose constructors got the right number of elements leave no
memory behind. -/
theorem C121_programs_leave_nothing_partial (N : Nat) (ops : List (FOp R)) (ts : List (Option String))
    (h : FixedSpec.run N ops (fun _ => none) = some (fun _ => none, ts)) (hgood : ∀ op ∈ ops, FixedSpec.badConstructor N op = false) :
    ∃ w, frun N ops World.init = .ok (w, ts) ∧ ∀ b, w.heap b = none ∨ ∃ blk, w.heap b = some blk ∧ blk.user = true := by
  obtain ⟨w, e, hr, hf⟩ := frun_sim ops FReach.init FRep.init h
  rw [List.countP_eq_zero.2 (fun op hop => by simp [hgood op hop])] at hf
  refine ⟨w, e, fun b => ?_⟩
  cases hb : w.heap b with
  | none => exact Or.inl rfl
  | some blk => exact Or.inr ⟨blk, rfl, C121_no_leak_partial N w hf (fun x => hr x) b blk hb⟩

/-- C121, negative, for every owner `y`: after `y` was moved from, assigning to it makes a second owner of the block;
destroying both is undefined, in either order. -/
theorem C121_assign_moved_from_is_double_free (N k : Nat) (w : World R) (hw : FReach N w k) (x y z : Nat) (hx : w.obj x = none)
    (hy : w.owner y) (hz : w.usable z) (hzy : z ≠ y) :
    (∃ w1 ts, frun N [.move x y, .assign y z, .dtor x] w = .ok (w1, ts)) ∧
    frun N [.move x y, .assign y z, .dtor x, .dtor y] w = .error .ub ∧
    frun N [.move x y, .assign y z, .dtor y, .dtor x] w = .error .ub := by
  have h := hw.inv
  obtain ⟨o, b, blk, ey, hd, e, hl, hs, hc⟩ := h.cells hy.usable
  obtain ⟨p, b', blk', ez, hd', e', hl', hs', hc'⟩ := h.cells hz
  have ho : o.own = true := by obtain ⟨q, eq, hq⟩ := hy; rw [ey] at eq; cases eq; exact hq
  obtain ⟨c, hdc, -, -, -, hu⟩ := h.ok y o ey
  rw [hd] at hdc; cases hdc
  obtain ⟨blk2, e2, hu, -⟩ := hu ho
  rw [e] at e2; cases e2
  have hxy : x ≠ y := by intro hc; subst hc; rw [hx] at ey; cases ey
  have hxz : z ≠ x := by intro hc; subst hc; rw [hx] at ez; cases ez
  have s1 : fstep N w (.move x y) = .ok ((w.setObj x o).setObj y { o with own := false }, none) := by
    simp only [fstep, get_ok ey, bind_ok', place_ok _ hx]; rfl
  let w1 := (w.setObj x o).setObj y { o with own := false }
  have gy : w1.obj y = some { o with own := false } := setObj_same _ _ _
  have gx : w1.obj x = some o := by show ((w.setObj x o).setObj y _).obj x = _; rw [setObj_ne _ _ hxy, setObj_same]
  have gz : w1.obj z = some p := by show ((w.setObj x o).setObj y _).obj z = _; rw [setObj_ne _ _ hzy, setObj_ne _ _ hxz, ez]
  have hle : (blk'.cells.take N).length ≤ blk.cells.length := by simp [hl', hl]
  have hpk := poke_ok (w := w1) (o := { o with own := false }) hd e hle
  let hp2 := upd w1.heap b (some { blk with cells := blk'.cells.take N ++ blk.cells.drop (blk'.cells.take N).length })
  let w2 := ({ w1 with heap := hp2 } : World R).setObj y { o with own := true }
  have s2 : fstep N w1 (.assign y z) = .ok (w2, none) := by
    simp only [fstep, get_ok gy, get_ok gz, bind_ok', if_neg (Ne.symm hzy), show w1.cells p = .ok (blk'.cells.take N) from hc', hpk]; rfl
  have k2 : w2.heap b = some { blk with cells := blk'.cells.take N ++ blk.cells.drop (blk'.cells.take N).length } := by
    simp [w2, hp2, World.setObj]
  have ky : w2.obj y = some { o with own := true } := setObj_same _ _ _
  have kx : w2.obj x = some o := by show (World.setObj _ y _).obj x = _; rw [setObj_ne _ _ hxy]; exact gx
  have del : ∀ (q : Obj), q.own = true → q.data = some b → ∀ v, w2.obj v = some q →
      fstep N w2 (.dtor v) = .ok (({ w2 with heap := upd w2.heap b none } : World R).delObj v, none) := by
    intro q hq hqd v ev
    simp only [fstep, get_ok ev, bind_ok', World.release, hq, if_true, World.free, hqd, k2, hu]; rfl
  have ub : ∀ (q : Obj), q.own = true → q.data = some b → ∀ u v, v ≠ u → w2.obj v = some q →
      fstep N (({ w2 with heap := upd w2.heap b none } : World R).delObj u) (.dtor v) = .error .ub := by
    intro q hq hqd u v hvu ev
    have : (({ w2 with heap := upd w2.heap b none } : World R).delObj u).obj v = some q := by
      simp only [World.delObj]; rw [upd_ne _ _ hvu]; exact ev
    simp only [fstep]
    rw [get_ok this]
    simp only [bind_ok', World.release, hq, if_true, World.free, hqd, World.delObj, upd_same]; rfl
  refine ⟨⟨({ w2 with heap := upd w2.heap b none } : World R).delObj x, [none, none, none], ?_⟩, ?_, ?_⟩
  · simp only [frun, s1, bind_ok']
    erw [s2]
    simp only [bind_ok']
    rw [del o ho hd x kx]; rfl
  · simp only [frun, s1, bind_ok']
    erw [s2]
    simp only [bind_ok']
    rw [del o ho hd x kx]
    simp only [bind_ok']
    rw [ub { o with own := true } rfl hd x y (Ne.symm hxy) ky]; rfl
  · simp only [frun, s1, bind_ok']
    erw [s2]
    simp only [bind_ok']
    rw [del { o with own := true } rfl hd y ky]
    simp only [bind_ok']
    rw [ub o ho hd y x hxy kx]; rfl

/-- C121, negative, for every proxy `x` of an array of the caller: once it is assigned to, or loaded into, destroying
it frees the caller's array. -/
theorem C121_assign_proxy_frees_user_memory (N k : Nat) (w : World R) (hw : FReach N w k) (x z b : Nat) (o : Obj) (blk : Block R)
    (hx : w.obj x = some o) (hd : o.data = some b) (hb : w.heap b = some blk) (hu : blk.user = true) (hz : w.usable z) (hzx : z ≠ x)
    (vs : List R) (hvs : N ≤ vs.length) :
    (∃ w1, frun N [.assign x z] w = .ok (w1, [none])) ∧ frun N [.assign x z, .dtor x] w = .error .ub ∧
    (∃ w1, frun N [.load x vs] w = .ok (w1, [none])) ∧ frun N [.load x vs, .dtor x] w = .error .ub := by
  have h := hw.inv
  obtain ⟨p, b', blk', ez, hd', e', hl', hs', hc'⟩ := h.cells hz
  obtain ⟨c, hdc, -, -, hl, -⟩ := h.ok x o hx
  rw [hd] at hdc; cases hdc
  have hl := hl blk hb
  have fin : ∀ cs : Buf R, fstep N (({ w with heap := upd w.heap b (some { blk with cells := cs }) } : World R).setObj x { o with own := true }) (.dtor x) = .error .ub := by
    intro cs
    simp only [fstep]
    rw [get_ok (setObj_same _ _ _)]
    simp only [bind_ok', World.release, if_true, World.free, hd, World.setObj, upd_same, hu]; rfl
  have pk : ∀ cs : Buf R, cs.length = N → ∃ cs', w.poke o cs = .ok { w with heap := upd w.heap b (some { blk with cells := cs' }) } :=
    fun cs hcs => ⟨_, poke_ok hd hb (by omega)⟩
  obtain ⟨c1, p1⟩ := pk (blk'.cells.take N) (by simp [hl'])
  obtain ⟨c2, p2⟩ := pk ((vs.take N).map some) (by simp [hvs])
  have s1 : fstep N w (.assign x z) = .ok (({ w with heap := upd w.heap b (some { blk with cells := c1 }) } : World R).setObj x { o with own := true }, none) := by
    simp only [fstep, get_ok hx, get_ok ez, bind_ok', if_neg (Ne.symm hzx), hc', p1]; rfl
  have s2 : fstep N w (.load x vs) = .ok (({ w with heap := upd w.heap b (some { blk with cells := c2 }) } : World R).setObj x { o with own := true }, none) := by
    simp only [fstep, get_ok hx, bind_ok', p2, if_neg (Nat.not_lt.2 hvs)]; rfl
  refine ⟨⟨_, by simp only [frun, s1, bind_ok']; rfl⟩, ?_, ⟨_, by simp only [frun, s2, bind_ok']; rfl⟩, ?_⟩
  · simp only [frun, s1, bind_ok', fin]; rfl
  · simp only [frun, s2, bind_ok', fin]; rfl

/-- C60, negative, fixed-size heap storage: assigning to a moved-from object makes two owners of one
block; the second destructor frees it again. -/
theorem C60_fixed_double_free :
    Own.frun 1 [.dflt 0, .dflt 1, .write 1 0 (5 : Int), .write 0 0 4, .move 2 0, .assign 0 1, .dtor 0, .dtor 2]
      World.init = .error .ub ∧
    (∃ w, Own.frun 1 [.dflt 0, .dflt 1, .write 1 0 (5 : Int), .write 0 0 4, .move 2 0, .assign 0 1, .dtor 0]
      World.init = .ok w) := ⟨rfl, _, rfl⟩

/-- C60, negative, fixed-size heap storage: a proxy that was assigned to frees the caller's memory. -/
theorem C60_fixed_proxy_frees_user_memory :
    Own.frun 1 [.userAlloc [some (3 : Int)], .proxy 0 0, .dflt 1, .write 1 0 5, .assign 0 1, .dtor 0]
      World.init = .error .ub ∧
    (∃ w, Own.frun 1 [.userAlloc [some (3 : Int)], .proxy 0 0, .dflt 1, .write 1 0 5, .assign 0 1]
      World.init = .ok w) := ⟨rfl, _, rfl⟩

/-- C121, negative: a constructor that is given the wrong number of elements throws and leaks. -/
theorem C121_bad_constructor_leaks :
    ∃ w, Own.frun 2 [.init 0 [(7 : Int)]] World.init = .ok (w, [some "Storage (fixed,onHeap): values.size() != size_"]) ∧
      (∀ x, w.obj x = none) ∧ ∃ blk, w.heap 0 = some blk ∧ blk.user = false := ⟨_, rfl, fun _ => rfl, _, rfl, rfl⟩

/-- A program with a meaning that uses every kind of operation. -/
def exFixed : List (FOp Int) :=
  [.init 0 [1, 2], .copy 1 0, .write 1 0 9, .move 2 1, .init 3 [1], .dflt 3, .assign 3 0, .swap 1 2, .moveAssign 0 3, .conv 4 [some 5, none],
   .load 4 [6], .load 0 [7, 8, 9], .dtor 3, .dtor 2]

example : (FixedSpec.run 2 exFixed (fun _ => none)).map (fun r => (r.1 0, r.1 1, r.1 2, r.1 4, r.2)) =
    some (some (some [some 7, some 8]), some (some [some 9, some 2]), none, some (some [some 6, none]),
      [none, none, none, none, some "Storage (fixed,onHeap): values.size() != size_", none, none, none, none, none,
       some "input stream error", none, none, none]) := rfl

/-- The hypotheses of the negative theorems are met. -/
example : ∃ w : World Int, FReach 1 w 0 ∧ w.owner 0 ∧ w.usable 1 ∧ w.obj 2 = none := by
  have h1 := FReach.step (R := Int) (N := 1) (op := .init 0 [5]) .init rfl rfl
  have h2 := FReach.step (op := .copy 1 0) h1 ⟨rfl, _, rfl, Or.inl rfl⟩ rfl
  exact ⟨_, h2, ⟨_, rfl, rfl⟩, ⟨_, rfl, Or.inl rfl⟩, rfl⟩

end BB
