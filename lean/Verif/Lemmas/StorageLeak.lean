import Verif.Lemmas.Storage

/-! # Leak freedom and isolation of storages -/

namespace BB.Own

variable {R : Type}

/-- Every block allocated by the library is owned. -/
def LF (w : World R) : Prop :=
  ∀ b blk, w.heap b = some blk → blk.user = false → ∃ x o, w.obj x = some o ∧ o.own = true ∧ o.data = some b

/-- … by an object other than `x`. -/
def LFx (w : World R) (x : Nat) : Prop :=
  ∀ b blk, w.heap b = some blk → blk.user = false → ∃ z o, z ≠ x ∧ w.obj z = some o ∧ o.own = true ∧ o.data = some b

theorem obj_get {w : World R} {x : Nat} {o : Obj} (e : w.get x = .ok o) : w.obj x = some o := by
  unfold World.get at e
  cases h : w.obj x <;> simp [h] at e
  rw [e]

theorem place_eq {w w' : World R} {x : Nat} {o : Obj} (e : w.place x o = .ok w') : w.obj x = none ∧ w' = w.setObj x o := by
  unfold World.place at e
  cases h : w.obj x <;> simp [h] at e
  exact ⟨rfl, e.symm⟩

theorem bind_eq_ok {α β : Type} {x : Res α} {f : α → Res β} {b : β} (e : (x >>= f) = .ok b) :
    ∃ a, x = .ok a ∧ f a = .ok b := by
  cases x with
  | error _ => cases e
  | ok a => exact ⟨a, rfl, e⟩

theorem release_LFx {w : World R} (h : Inv w) (hl : LF w) {x : Nat} {o : Obj} (ex : w.obj x = some o) {w1 : World R}
    (e : w.release o = .ok w1) : LFx w1 x ∧ w1.obj = w.obj := by
  unfold World.release at e
  cases hw : o.own with
  | false =>
    simp only [hw] at e
    cases e
    refine ⟨?_, rfl⟩
    intro b blk eb hu
    obtain ⟨z, p, ez, hp, hd⟩ := hl b blk eb hu
    refine ⟨z, p, ?_, ez, hp, hd⟩
    intro hc; subst hc
    rw [ex] at ez; cases ez; rw [hw] at hp; cases hp
  | true =>
    obtain ⟨w2, e', e1, e2, h1, hs, hf⟩ := free_ok h ex hw
    simp only [hw, if_true, e'] at e
    cases e
    refine ⟨?_, e1⟩
    intro b blk eb hu
    have hne : some b ≠ o.data := by
      intro hc
      rw [hf b hc.symm] at eb; cases eb
    rw [hs b hne] at eb
    obtain ⟨z, p, ez, hp, hd⟩ := hl b blk eb hu
    refine ⟨z, p, ?_, by rw [e1]; exact ez, hp, hd⟩
    intro hc; subst hc
    rw [ex] at ez; cases ez
    exact hne hd.symm

theorem LFx.set {w : World R} {x : Nat} (h : LFx w x) (o : Obj) : LF (w.setObj x o) := by
  intro b blk eb hu
  obtain ⟨z, p, hz, ez, hp, hd⟩ := h b blk eb hu
  exact ⟨z, p, by simp only [World.setObj]; rw [upd_ne _ _ hz]; exact ez, hp, hd⟩

theorem LFx.del {w : World R} {x : Nat} (h : LFx w x) : LF (w.delObj x) := by
  intro b blk eb hu
  obtain ⟨z, p, hz, ez, hp, hd⟩ := h b blk eb hu
  exact ⟨z, p, by simp only [World.delObj]; rw [upd_ne _ _ hz]; exact ez, hp, hd⟩

theorem LFx.setNew {w : World R} {x : Nat} (h : LFx w x) (cells : Buf R) (n : Nat) :
    LF ((w.alloc cells false).setObj x ⟨some w.next, n, true⟩) := by
  intro b blk eb hu
  simp only [World.setObj, World.alloc] at eb ⊢
  by_cases hb : b = w.next
  · exact ⟨x, _, upd_same _ _ _, rfl, by rw [hb]⟩
  · rw [upd_ne _ _ hb] at eb
    obtain ⟨z, p, hz, ez, hp, hd⟩ := h b blk eb hu
    exact ⟨z, p, by rw [upd_ne _ _ hz]; exact ez, hp, hd⟩

theorem LF.toX {w : World R} (h : LF w) {x : Nat} (hx : ∀ o, w.obj x = some o → o.own = false ∨ o.data = none) : LFx w x := by
  intro b blk eb hu
  obtain ⟨z, p, ez, hp, hd⟩ := h b blk eb hu
  refine ⟨z, p, ?_, ez, hp, hd⟩
  intro hc; subst hc
  rcases hx p ez with h' | h'
  · rw [h'] at hp; cases hp
  · rw [h'] at hd; cases hd

theorem poke_LF {w : World R} (h : LF w) {b : Nat} {blk : Block R} (e : w.heap b = some blk) (cs : Buf R) :
    LF { w with heap := upd w.heap b (some { blk with cells := cs }) } := by
  intro b' blk' eb hu
  by_cases hb : b' = b
  · subst hb
    simp at eb
    subst eb
    exact h b' blk e hu
  · simp only at eb
    rw [upd_ne _ _ hb] at eb
    exact h b' blk' eb hu

theorem step_LF {w w' : World R} (h : Inv w) (hl : LF w) {op : Op R} (hf : Frugal w op)
    (e : step w op = .ok w') : LF w' := by
  cases op with
  | userAlloc cells =>
    cases e
    intro b blk eb hu
    simp only [World.alloc] at eb ⊢
    by_cases hb : b = w.next
    · subst hb; simp at eb; subst eb; cases hu
    · rw [upd_ne _ _ hb] at eb; exact hl b blk eb hu
  | dflt x =>
    obtain ⟨hx, rfl⟩ := place_eq e
    exact (hl.toX (by simp [hx])).set _
  | size x n =>
    obtain ⟨hx, rfl⟩ := place_eq e
    exact (hl.toX (x := x) (by intro o ho; rw [show w.obj x = none from hx] at ho; cases ho)).setNew _ _
  | init x vs =>
    obtain ⟨hx, rfl⟩ := place_eq e
    exact (hl.toX (x := x) (by intro o ho; rw [show w.obj x = none from hx] at ho; cases ho)).setNew _ _
  | copy x y =>
    obtain ⟨o, e1, e⟩ := bind_eq_ok e
    obtain ⟨cs, e2, e⟩ := bind_eq_ok e
    obtain ⟨hx, rfl⟩ := place_eq e
    rw [hf o (obj_get e1)]
    exact (hl.toX (x := x) (by intro o ho; rw [show w.obj x = none from hx] at ho; cases ho)).setNew _ _
  | move x y =>
    obtain ⟨o, e1, e⟩ := bind_eq_ok e
    obtain ⟨w1, e2, e⟩ := bind_eq_ok e
    obtain ⟨hx, rfl⟩ := place_eq e2
    cases e
    intro b blk eb hu
    obtain ⟨z, p, ez, hp, hd⟩ := hl b blk eb hu
    have ey := obj_get e1
    have hxy : x ≠ y := by intro hc; subst hc; rw [hx] at ey; cases ey
    have hzx : z ≠ x := by intro hc; subst hc; rw [hx] at ez; cases ez
    by_cases hzy : z = y
    · subst hzy
      rw [ez] at ey; cases ey
      exact ⟨x, _, by simp only [World.setObj]; rw [upd_ne _ _ hxy, upd_same], hp, hd⟩
    · exact ⟨z, p, by simp only [World.setObj]; rw [upd_ne _ _ hzy, upd_ne _ _ hzx]; exact ez, hp, hd⟩
  | conv x y f =>
    obtain ⟨o, e1, e⟩ := bind_eq_ok e
    obtain ⟨cs, e2, e⟩ := bind_eq_ok e
    obtain ⟨hx, rfl⟩ := place_eq e
    exact (hl.toX (x := x) (by intro o ho; rw [show w.obj x = none from hx] at ho; cases ho)).setNew _ _
  | proxy x b n =>
    obtain ⟨hx, rfl⟩ := place_eq e
    exact (hl.toX (by simp [hx])).set _
  | dtor x =>
    obtain ⟨o, e1, e⟩ := bind_eq_ok e
    obtain ⟨w1, e2, e⟩ := bind_eq_ok e
    cases e
    exact (release_LFx h hl (obj_get e1) e2).1.del
  | resize x n =>
    obtain ⟨o, e1, e⟩ := bind_eq_ok e
    by_cases hs : o.size = n
    · simp only [hs, if_true] at e
      cases e; exact hl
    · simp only [hs, if_false] at e
      cases hw : o.own with
      | false => simp [hw] at e
      | true =>
        simp only [hw, not_true, if_false] at e
        obtain ⟨w1, e2, e⟩ := bind_eq_ok e
        cases e
        exact (release_LFx h hl (obj_get e1) (w1 := w1) (by simp [World.release, hw, e2])).1.setNew _ _
  | assign x y =>
    obtain ⟨o, e1, e⟩ := bind_eq_ok e
    obtain ⟨p, e2, e⟩ := bind_eq_ok e
    by_cases hxy : x = y
    · simp only [hxy, if_true] at e
      cases e; exact hl
    · simp only [hxy, if_false] at e
      obtain ⟨w1, e3, e⟩ := bind_eq_ok e
      have hr := release_LFx h hl (obj_get e1) e3
      cases hw : p.own with
      | true =>
        simp only [hw, if_true] at e
        obtain ⟨cs, e4, e⟩ := bind_eq_ok e
        cases e
        exact hr.1.setNew _ _
      | false =>
        simp [hw] at e
        cases e
        exact hr.1.set _
  | moveAssign x y =>
    obtain ⟨o, e1, e⟩ := bind_eq_ok e
    obtain ⟨p, e2, e⟩ := bind_eq_ok e
    obtain ⟨w1, e3, e⟩ := bind_eq_ok e
    cases e
    obtain ⟨hr, ho⟩ := release_LFx h hl (obj_get e1) e3
    have ey := obj_get e2
    intro b blk eb hu
    obtain ⟨z, q, hz, ez, hq, hd⟩ := hr b blk eb hu
    by_cases hzy : z = y
    · subst hzy
      rw [ho, ey] at ez; cases ez
      exact ⟨x, p, by simp only [World.setObj]; rw [upd_ne _ _ hz.symm, upd_same], hq, hd⟩
    · exact ⟨z, q, by simp only [World.setObj]; rw [upd_ne _ _ hzy, upd_ne _ _ hz]; exact ez, hq, hd⟩
  | swap x y =>
    obtain ⟨o, e1, e⟩ := bind_eq_ok e
    obtain ⟨p, e2, e⟩ := bind_eq_ok e
    cases e
    have ex := obj_get e1
    have ey := obj_get e2
    intro b blk eb hu
    obtain ⟨z, q, ez, hq, hd⟩ := hl b blk eb hu
    by_cases hzx : z = x
    · subst hzx
      rw [ex] at ez; cases ez
      exact ⟨y, o, by simp [World.setObj], hq, hd⟩
    · by_cases hzy : z = y
      · subst hzy
        rw [ey] at ez; cases ez
        exact ⟨x, p, by simp only [World.setObj]; rw [upd_ne _ _ (Ne.symm hzx), upd_same], hq, hd⟩
      · exact ⟨z, q, by simp only [World.setObj]; rw [upd_ne _ _ hzy, upd_ne _ _ hzx]; exact ez, hq, hd⟩
  | write x i v =>
    obtain ⟨o, e1, e⟩ := bind_eq_ok e
    cases hd : o.data with
    | none => simp [hd] at e
    | some b =>
      cases hb : w.heap b with
      | none => simp [hd, hb] at e
      | some blk =>
        simp only [hd, hb] at e
        split at e
        · cases e; exact poke_LF hl hb _
        · cases e
  | fill x v =>
    obtain ⟨o, e1, e⟩ := bind_eq_ok e
    cases hd : o.data with
    | none =>
      simp only [hd] at e
      split at e
      · cases e; exact hl
      · cases e
    | some b =>
      cases hb : w.heap b with
      | none => simp [hd, hb] at e
      | some blk =>
        simp only [hd, hb] at e
        split at e
        · cases e; exact poke_LF hl hb _
        · cases e
  | load x vs =>
    obtain ⟨o, e1, e⟩ := bind_eq_ok e
    cases e
    exact (hl.toX (fun p hp => hf p hp)).setNew _ _

theorem init_LF : LF (World.init : World R) := by
  intro b blk e; simp [World.init] at e

/-! ### Isolation -/

/-- The block of an owner survives with the same cells. -/
def Keeps (w w' : World R) (x : Nat) (o : Obj) : Prop :=
  w'.obj x = some o ∧ ∀ b, o.data = some b → w'.heap b = w.heap b

theorem Keeps.cells {w w' : World R} {x : Nat} {o : Obj} (h : Keeps w w' x o) : w'.cells o = w.cells o := by
  unfold World.cells
  cases hd : o.data with
  | none => rfl
  | some b => simp only [h.2 b hd]

theorem keeps_refl {w : World R} {x : Nat} {o : Obj} (h : w.obj x = some o) : Keeps w w x o := ⟨h, fun _ _ => rfl⟩

theorem keeps_set {w w1 : World R} {x y : Nat} {o p : Obj} (h : Keeps w w1 x o) (hne : x ≠ y) : Keeps w (w1.setObj y p) x o :=
  ⟨by simp only [World.setObj]; rw [upd_ne _ _ hne]; exact h.1, h.2⟩

theorem keeps_del {w w1 : World R} {x y : Nat} {o : Obj} (h : Keeps w w1 x o) (hne : x ≠ y) : Keeps w (w1.delObj y) x o :=
  ⟨by simp only [World.delObj]; rw [upd_ne _ _ hne]; exact h.1, h.2⟩

theorem keeps_alloc {w w1 : World R} {x : Nat} {o : Obj} (hn : ∀ b, o.data = some b → b < w1.next) (h : Keeps w w1 x o)
    (cells : Buf R) (user : Bool) : Keeps w (w1.alloc cells user) x o := by
  refine ⟨h.1, fun b hb => ?_⟩
  have := hn b hb
  simp only [World.alloc]
  rw [upd_ne _ _ (by omega)]
  exact h.2 b hb

theorem keeps_release {w w1 : World R} (h : Inv w) {x y : Nat} {o p : Obj} (hx : w.obj x = some o) (hy : w.obj y = some p)
    (hne : x ≠ y) (e : w.release p = .ok w1) : Keeps w w1 x o ∧ w1.next = w.next ∧ w1.obj = w.obj := by
  unfold World.release at e
  cases hw : p.own with
  | false =>
    simp only [hw] at e; cases e
    exact ⟨keeps_refl hx, rfl, rfl⟩
  | true =>
    obtain ⟨w2, e', e1, e2, h1, hs, -⟩ := free_ok h hy hw
    simp only [hw, if_true, e'] at e
    cases e
    refine ⟨⟨by rw [e1]; exact hx, fun b hb => hs b ?_⟩, e2, e1⟩
    intro hc
    exact h.excl y x p o b hne.symm hy hx hw hc.symm hb

theorem step_keeps {w w' : World R} (h : Inv w) {op : Op R} {x : Nat} {o : Obj} (hx : w.obj x = some o) (ho : o.own = true)
    (ht : x ∉ op.touches) (e : step w op = .ok w') : Keeps w w' x o := by
  have hn : ∀ b, o.data = some b → b < w.next := fun b hb => h.data_lt hx hb
  have hr := keeps_refl hx
  cases op with
  | userAlloc cells => cases e; exact keeps_alloc hn hr _ _
  | dflt y =>
    obtain ⟨-, rfl⟩ := place_eq e
    exact keeps_set hr (by simpa [Op.touches] using ht)
  | size y n =>
    obtain ⟨-, rfl⟩ := place_eq e
    exact keeps_set (keeps_alloc hn hr _ _) (by simpa [Op.touches] using ht)
  | init y n =>
    obtain ⟨-, rfl⟩ := place_eq e
    exact keeps_set (keeps_alloc hn hr _ _) (by simpa [Op.touches] using ht)
  | copy y z =>
    obtain ⟨p, e1, e⟩ := bind_eq_ok e
    obtain ⟨cs, e2, e⟩ := bind_eq_ok e
    obtain ⟨-, rfl⟩ := place_eq e
    exact keeps_set (keeps_alloc hn hr _ _) (by simpa [Op.touches] using ht)
  | move y z =>
    obtain ⟨p, e1, e⟩ := bind_eq_ok e
    obtain ⟨w1, e2, e⟩ := bind_eq_ok e
    obtain ⟨-, rfl⟩ := place_eq e2
    cases e
    simp [Op.touches] at ht
    exact keeps_set (keeps_set hr ht.1) ht.2
  | conv y z f =>
    obtain ⟨p, e1, e⟩ := bind_eq_ok e
    obtain ⟨cs, e2, e⟩ := bind_eq_ok e
    obtain ⟨-, rfl⟩ := place_eq e
    exact keeps_set (keeps_alloc hn hr _ _) (by simpa [Op.touches] using ht)
  | proxy y b n =>
    obtain ⟨-, rfl⟩ := place_eq e
    exact keeps_set hr (by simpa [Op.touches] using ht)
  | dtor y =>
    obtain ⟨p, e1, e⟩ := bind_eq_ok e
    obtain ⟨w1, e2, e⟩ := bind_eq_ok e
    cases e
    have hne : x ≠ y := by simpa [Op.touches] using ht
    exact keeps_del (keeps_release h hx (obj_get e1) hne e2).1 hne
  | resize y n =>
    have hne : x ≠ y := by simpa [Op.touches] using ht
    obtain ⟨p, e1, e⟩ := bind_eq_ok e
    by_cases hs : p.size = n
    · simp only [hs, if_true] at e
      cases e; exact hr
    · simp only [hs, if_false] at e
      cases hw : p.own with
      | false => simp [hw] at e
      | true =>
        simp only [hw, not_true, if_false] at e
        obtain ⟨w1, e2, e⟩ := bind_eq_ok e
        cases e
        obtain ⟨k, hn', -⟩ := keeps_release h hx (obj_get e1) hne (w1 := w1) (by simp [World.release, hw, e2])
        exact keeps_set (keeps_alloc (by rw [hn']; exact hn) k _ _) hne
  | assign y z =>
    have hne : x ≠ y := by simpa [Op.touches] using ht
    obtain ⟨p, e1, e⟩ := bind_eq_ok e
    obtain ⟨q, e2, e⟩ := bind_eq_ok e
    by_cases hxy : y = z
    · simp only [hxy, if_true] at e
      cases e; exact hr
    · simp only [hxy, if_false] at e
      obtain ⟨w1, e3, e⟩ := bind_eq_ok e
      obtain ⟨k, hn', -⟩ := keeps_release h hx (obj_get e1) hne e3
      cases hw : q.own with
      | true =>
        simp only [hw, if_true] at e
        obtain ⟨cs, e4, e⟩ := bind_eq_ok e
        cases e
        exact keeps_set (keeps_alloc (by rw [hn']; exact hn) k _ _) hne
      | false =>
        simp [hw] at e
        cases e
        exact keeps_set k hne
  | moveAssign y z =>
    simp [Op.touches] at ht
    obtain ⟨p, e1, e⟩ := bind_eq_ok e
    obtain ⟨q, e2, e⟩ := bind_eq_ok e
    obtain ⟨w1, e3, e⟩ := bind_eq_ok e
    cases e
    obtain ⟨k, -, -⟩ := keeps_release h hx (obj_get e1) ht.1 e3
    exact keeps_set (keeps_set k ht.1) ht.2
  | swap y z =>
    simp [Op.touches] at ht
    obtain ⟨p, e1, e⟩ := bind_eq_ok e
    obtain ⟨q, e2, e⟩ := bind_eq_ok e
    cases e
    exact keeps_set (keeps_set hr ht.1) ht.2
  | write y i v =>
    have hne : x ≠ y := by simpa [Op.touches] using ht
    obtain ⟨p, e1, e⟩ := bind_eq_ok e
    cases hd : p.data with
    | none => simp [hd] at e
    | some b =>
      cases hb : w.heap b with
      | none => simp [hd, hb] at e
      | some blk =>
        simp only [hd, hb] at e
        split at e
        · cases e
          refine ⟨hx, fun b' hb' => ?_⟩
          simp only
          rw [upd_ne]
          intro hc; subst hc
          exact h.excl x y o p b' hne hx (obj_get e1) ho hb' hd
        · cases e
  | fill y v =>
    have hne : x ≠ y := by simpa [Op.touches] using ht
    obtain ⟨p, e1, e⟩ := bind_eq_ok e
    cases hd : p.data with
    | none =>
      simp only [hd] at e
      split at e
      · cases e; exact hr
      · cases e
    | some b =>
      cases hb : w.heap b with
      | none => simp [hd, hb] at e
      | some blk =>
        simp only [hd, hb] at e
        split at e
        · cases e
          refine ⟨hx, fun b' hb' => ?_⟩
          simp only
          rw [upd_ne]
          intro hc; subst hc
          exact h.excl x y o p b' hne hx (obj_get e1) ho hb' hd
        · cases e
  | load y vs =>
    obtain ⟨p, e1, e⟩ := bind_eq_ok e
    cases e
    exact keeps_set (keeps_alloc hn hr _ _) (by simpa [Op.touches] using ht)

end BB.Own
