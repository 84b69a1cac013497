import Verif.Lemmas.FixedStorage

/-! # Fixed-size storages mean what `SpecFixed` says -/

namespace BB.Own

variable {R : Type} {N : Nat}

/-- Object `x` is what the specification says. -/
def FRepAt (w : World R) (x : Nat) : Option (Option (List (Option R))) → Prop
  | none => w.obj x = none
  | some none => ∃ o, w.obj x = some o ∧ o.own = false
  | some (some cs) => ∃ o b blk, w.obj x = some o ∧ o.own = true ∧ o.data = some b ∧ w.heap b = some blk ∧ blk.cells = cs

def FRep (σ : FixedSpec.State R) (w : World R) : Prop := ∀ x, FRepAt w x (σ x)

theorem FRep.init : FRep (fun _ => none) (World.init : World R) := fun _ => rfl

theorem FRepAt.live {w : World R} {x : Nat} {v : Option (List (Option R))} (h : FRepAt w x (some v)) : ∃ o, w.obj x = some o := by
  cases v with
  | none => exact ⟨h.choose, h.choose_spec.1⟩
  | some cs => exact ⟨h.choose, h.choose_spec.choose_spec.choose_spec.1⟩

/-- An object keeps its meaning if its members and the block it owns stay. -/
theorem FRepAt.keep {w w' : World R} {x : Nat} {v : Option (Option (List (Option R)))} (h : FRepAt w x v)
    (ho : w'.obj x = w.obj x) (hh : ∀ b, w.OwnsAt x b → w'.heap b = w.heap b) : FRepAt w' x v := by
  match v, h with
  | none, h => exact ho.trans h
  | some none, ⟨o, e, hown⟩ => exact ⟨o, ho.trans e, hown⟩
  | some (some cs), ⟨o, b, blk, e, hown, hd, eb, hc⟩ =>
    exact ⟨o, b, blk, ho.trans e, hown, hd, (hh b ⟨o, e, hown, hd⟩).trans eb, hc⟩

/-- … or if another object takes over its members. -/
theorem FRepAt.hand {w w' : World R} {x y : Nat} {v : Option (List (Option R))} (h : FRepAt w x (some v))
    (ho : w'.obj y = w.obj x) (hh : w'.heap = w.heap) : FRepAt w' y (some v) := by
  match v, h with
  | none, ⟨o, e, hown⟩ => exact ⟨o, ho.trans e, hown⟩
  | some cs, ⟨o, b, blk, e, hown, hd, eb, hc⟩ => exact ⟨o, b, blk, ho.trans e, hown, hd, by rw [hh]; exact eb, hc⟩

theorem setObj_same (w : World R) (x : Nat) (o : Obj) : (w.setObj x o).obj x = some o := by simp [World.setObj]
theorem setObj_ne (w : World R) {x z : Nat} (o : Obj) (h : z ≠ x) : (w.setObj x o).obj z = w.obj z := by
  simp only [World.setObj]; rw [upd_ne _ _ h]

open FixedSpec in
theorem fstep_sim {w : World R} {σ σ' : State R} (hi : FInv N w) (h : FRep σ w) {op : FOp R} {t : Option String}
    (e : FixedSpec.step N σ op = some (σ', t)) : FAdm N w op ∧ ∃ w', fstep N w op = .ok (w', t) ∧ FRep σ' w' := by
  have hne : ∀ {x b}, w.OwnsAt x b → b ≠ w.next := by
    intro x b hx hc; subst hc; exact hi.weak.notAt x hx
  have none_of : ∀ {x}, σ x = none → w.obj x = none := fun {x} hx => by have := h x; rw [hx] at this; exact this
  have arr_of : ∀ {x cs}, σ x = some (some cs) → ∃ o b blk, w.obj x = some o ∧ o.own = true ∧ o.data = some b ∧
      w.heap b = some blk ∧ blk.cells = cs ∧ cs.length = N ∧ o.size = N ∧ w.cells o = .ok cs := by
    intro x cs hx
    have := h x; rw [hx] at this
    obtain ⟨o, b, blk, ex, ho, hd, eb, hc⟩ := this
    obtain ⟨b', h1, h2, -, -, h5⟩ := hi.ok x o ex
    rw [hd] at h1; cases h1
    obtain ⟨blk', e', -, hl⟩ := h5 ho
    rw [eb] at e'; cases e'
    have hN : cs.length = N := by rw [← hc]; exact hl
    refine ⟨o, b, blk, ex, ho, hd, eb, hc, hN, h2, ?_⟩
    simp only [World.cells, hd, eb, h2]
    rw [if_pos (by rw [hl]), List.take_of_length_le (by rw [hl]), hc]
  have new : ∀ {x : Nat} {cs : Buf R}, σ x = none → FRep (put σ x (some (some cs))) ((w.alloc cs false).setObj x ⟨some w.next, N, true⟩) := by
    intro x cs hx z
    by_cases hz : z = x
    · subst hz
      simp only [put, if_true]
      exact ⟨_, w.next, ⟨cs, false⟩, setObj_same _ _ _, rfl, rfl, by simp [World.setObj, World.alloc], rfl⟩
    · simp only [put, if_neg hz]
      refine (h z).keep (setObj_ne _ _ hz) fun b hb => ?_
      simp only [World.setObj, World.alloc]; rw [upd_ne _ _ (hne hb)]
  have same : ∀ (cs : Buf R), FRep σ (w.alloc cs false) := fun cs z =>
    (h z).keep rfl fun b hb => by simp only [World.alloc]; rw [upd_ne _ _ (hne hb)]
  have poke : ∀ {x : Nat} {o : Obj} {b : Nat} {blk : Block R} {cs : Buf R}, w.obj x = some o → o.own = true → o.data = some b →
      w.heap b = some blk → FRep (put σ x (some (some cs))) { w with heap := upd w.heap b (some { blk with cells := cs }) } := by
    intro x o b blk cs ex ho hd eb z
    by_cases hz : z = x
    · subst hz
      simp only [put, if_true]
      exact ⟨o, b, { blk with cells := cs }, ex, ho, hd, by simp, rfl⟩
    · simp only [put, if_neg hz]
      refine (h z).keep rfl fun b' hb' => ?_
      simp only
      rw [upd_ne]
      intro hc; subst hc
      exact hz (hi.excl z x b' hb' ⟨o, ex, ho, hd⟩)
  have exch : ∀ {x y v u}, σ x = some v → σ y = some u → ∃ o p, w.obj x = some o ∧ w.obj y = some p ∧
      FRep (put (put σ x (some u)) y (some v)) ((w.setObj x p).setObj y o) := by
    intro x y v u hx hy
    have rx := h x; have ry := h y
    rw [hx] at rx; rw [hy] at ry
    obtain ⟨o, ex⟩ := rx.live
    obtain ⟨p, ey⟩ := ry.live
    refine ⟨o, p, ex, ey, fun z => ?_⟩
    by_cases hzy : z = y
    · subst hzy
      simp only [put, if_true]
      exact rx.hand (by rw [setObj_same, ex]) rfl
    · simp only [put, if_neg hzy]
      by_cases hzx : z = x
      · subst hzx
        simp only [if_true]
        exact ry.hand (by rw [setObj_ne _ _ hzy, setObj_same, ey]) rfl
      · simp only [if_neg hzx]
        exact (h z).keep (by rw [setObj_ne _ _ hzy, setObj_ne _ _ hzx]) fun _ _ => rfl
  cases op with
  | userAlloc cells => cases e
  | proxy x b => cases e
  | dflt x =>
    simp only [FixedSpec.step, fresh] at e
    cases hx : σ x with
    | some _ => rw [hx] at e; cases e
    | none =>
      rw [hx] at e; cases e
      refine ⟨none_of hx, _, ?_, new hx⟩
      simp only [fstep]; rw [place_ok _ (by exact none_of hx)]; rfl
  | init x vs =>
    simp only [FixedSpec.step, fresh] at e
    cases hx : σ x with
    | some _ => rw [hx] at e; cases e
    | none =>
      rw [hx] at e
      by_cases hv : vs.length = N
      · simp only [if_pos hv] at e; cases e
        refine ⟨none_of hx, _, ?_, new hx⟩
        simp only [fstep, hv, ne_eq, not_true, if_false]; rw [place_ok _ (by exact none_of hx)]; rfl
      · simp only [if_neg hv] at e; cases e
        refine ⟨none_of hx, _, ?_, same (Buf.alloc N)⟩
        simp only [fstep, ne_eq, hv, not_false_iff, if_true]
  | conv x vs =>
    simp only [FixedSpec.step, fresh] at e
    cases hx : σ x with
    | some _ => rw [hx] at e; cases e
    | none =>
      rw [hx] at e
      by_cases hv : vs.length = N
      · simp only [if_pos hv] at e; cases e
        refine ⟨none_of hx, _, ?_, new hx⟩
        simp only [fstep, hv, ne_eq, not_true, if_false]; rw [place_ok _ (by exact none_of hx)]; rfl
      · simp only [if_neg hv] at e; cases e
        refine ⟨none_of hx, _, ?_, same (Buf.alloc N)⟩
        simp only [fstep, ne_eq, hv, not_false_iff, if_true]
  | copy x y =>
    simp only [FixedSpec.step, fresh, withArr] at e
    split at e
    · rename_i hx
      split at e
      · rename_i cs hy
        cases e
        obtain ⟨o, b, blk, ey, ho, hd, eb, hc, hl, hs, hcs⟩ := arr_of hy
        refine ⟨⟨none_of hx, o, ey, Or.inl ho⟩, _, ?_, new hx⟩
        simp only [fstep, get_ok ey, bind_ok', hcs]; rw [place_ok _ (by exact none_of hx)]; rfl
      · cases e
    · cases e
  | move x y =>
    simp only [FixedSpec.step, fresh, withVar] at e
    split at e
    · rename_i hx
      split at e
      · rename_i v hy
        cases e
        have ry := h y; rw [hy] at ry
        obtain ⟨o, ey⟩ := ry.live
        refine ⟨⟨none_of hx, by simp [ey]⟩, (w.setObj x o).setObj y { o with own := false }, ?_, fun z => ?_⟩
        · simp only [fstep, get_ok ey, bind_ok', place_ok _ (by exact none_of hx)]; rfl
        · by_cases hzy : z = y
          · subst hzy
            simp only [put, if_true]
            exact ⟨_, setObj_same _ _ _, rfl⟩
          · simp only [put, if_neg hzy]
            by_cases hzx : z = x
            · subst hzx
              simp only [if_true]
              exact ry.hand (by rw [setObj_ne _ _ hzy, setObj_same, ey]) rfl
            · simp only [if_neg hzx]
              exact (h z).keep (by rw [setObj_ne _ _ hzy, setObj_ne _ _ hzx]) fun _ _ => rfl
      · cases e
    · cases e
  | dtor x =>
    simp only [FixedSpec.step, withVar] at e
    split at e
    · rename_i v hx
      cases e
      have rx := h x; rw [hx] at rx
      obtain ⟨o, ex⟩ := rx.live
      obtain ⟨w1, e1, hob, -, -, hh⟩ := hi.release ex
      refine ⟨by simp [FAdm, ex], w1.delObj x, by simp only [fstep, get_ok ex, bind_ok', e1]; rfl, fun z => ?_⟩
      by_cases hz : z = x
      · subst hz; simp only [put, if_true]; simp [FRepAt, World.delObj]
      · simp only [put, if_neg hz]
        refine (h z).keep (by simp only [World.delObj]; rw [upd_ne _ _ hz, hob]) fun b hb => hh b ?_
        intro hc; exact hz (hi.excl z x b hb hc)
    · cases e
  | assign x y =>
    simp only [FixedSpec.step, withArr] at e
    split at e
    · rename_i cx hx
      split at e
      · rename_i cs hy
        cases e
        obtain ⟨o, b, blk, ex, ho, hd, eb, hc, hl, hs, hcs⟩ := arr_of hx
        obtain ⟨p, b', blk', ey, hp, hd', eb', hc', hl', hs', hcs'⟩ := arr_of hy
        refine ⟨⟨⟨o, ex, ho⟩, p, ey, Or.inl hp⟩, ?_⟩
        by_cases hxy : x = y
        · subst hxy
          refine ⟨w, by simp only [fstep, get_ok ex, bind_ok', if_true]; rfl, fun z => ?_⟩
          by_cases hz : z = x
          · subst hz; simp only [put, if_true]; rw [← hy]; exact h z
          · simp only [put, if_neg hz]; exact h z
        · have hle : cs.length ≤ blk.cells.length := by rw [hc]; omega
          have hpk := poke_ok hd eb hle
          refine ⟨_, by simp only [fstep, get_ok ex, get_ok ey, bind_ok', if_neg hxy, hcs', hpk]; rfl, ?_⟩
          rw [show ∀ hp, ({ w with heap := hp } : World R).setObj x { o with own := true } = { w with heap := hp } from fun hp => set_own ex ho]
          rw [show cs ++ blk.cells.drop cs.length = cs by rw [List.drop_of_length_le (by rw [hc]; omega), List.append_nil]]
          exact poke ex ho hd eb
      · cases e
    · cases e
  | moveAssign x y =>
    simp only [FixedSpec.step, withVar] at e
    split at e
    · rename_i v hx
      split at e
      · rename_i u hy
        cases e
        obtain ⟨o, p, ex, ey, hr⟩ := exch hx hy
        exact ⟨⟨by simp [ex], by simp [ey]⟩, _, by simp only [fstep, get_ok ex, get_ok ey, bind_ok']; rfl, hr⟩
      · cases e
    · cases e
  | swap x y =>
    simp only [FixedSpec.step, withVar] at e
    split at e
    · rename_i v hx
      split at e
      · rename_i u hy
        cases e
        obtain ⟨o, p, ex, ey, hr⟩ := exch hx hy
        exact ⟨⟨by simp [ex], by simp [ey]⟩, _, by simp only [fstep, get_ok ex, get_ok ey, bind_ok']; rfl, hr⟩
      · cases e
    · cases e
  | write x i v =>
    simp only [FixedSpec.step, withArr] at e
    split at e
    · rename_i cs hx
      split at e
      · rename_i hlt
        cases e
        obtain ⟨o, b, blk, ex, ho, hd, eb, hc, hl, hs, hcs⟩ := arr_of hx
        refine ⟨⟨⟨o, ex, Or.inl ho⟩, hlt⟩, { w with heap := upd w.heap b (some { blk with cells := blk.cells.set i (some v) }) }, ?_, ?_⟩
        · simp only [fstep, step, get_ok ex, bind_ok', hd, eb]
          rw [if_pos ⟨by omega, by rw [hc]; omega⟩]; rfl
        · rw [hc]; exact poke ex ho hd eb
      · cases e
    · cases e
  | load x vs =>
    simp only [FixedSpec.step, withArr] at e
    split at e
    · rename_i cs hx
      obtain ⟨o, b, blk, ex, ho, hd, eb, hc, hl, hs, hcs⟩ := arr_of hx
      have hle : (((vs.take N).map some : Buf R)).length ≤ blk.cells.length := by rw [hc]; simp; omega
      have hpk := poke_ok hd eb hle
      refine ⟨⟨o, ex, ho⟩, ?_⟩
      by_cases hv : N ≤ vs.length
      · simp only [if_pos hv] at e; cases e
        refine ⟨_, by simp only [fstep, get_ok ex, bind_ok', hpk, if_neg (Nat.not_lt.2 hv)]; rfl, ?_⟩
        rw [show ∀ hp, ({ w with heap := hp } : World R).setObj x { o with own := true } = { w with heap := hp } from fun hp => set_own ex ho]
        rw [List.drop_of_length_le (by rw [hc]; simp [hl, hv]), List.append_nil]
        exact poke ex ho hd eb
      · simp only [if_neg hv] at e; cases e
        refine ⟨_, by simp only [fstep, get_ok ex, bind_ok', hpk, if_pos (Nat.lt_of_not_le hv)]; rfl, ?_⟩
        rw [List.take_of_length_le (by omega), List.length_map, hc]
        exact poke ex ho hd eb
    · cases e

end BB.Own
