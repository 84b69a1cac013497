import Verif.Model.Storage
import Verif.Lemmas.Base

/-! # Ownership invariant of storages -/

namespace BB.Own

variable {R : Type}

@[simp] theorem upd_same {α : Type} (f : Nat → α) (k : Nat) (v : α) : upd f k v k = v := by simp [upd]
theorem upd_ne {α : Type} (f : Nat → α) {k i : Nat} (v : α) (h : i ≠ k) : upd f k v i = f i := by simp [upd, h]

/-- The members of a live object are consistent with the heap. -/
def OkObj (heap : Nat → Option (Block R)) (o : Obj) : Prop :=
  match o.data with
  | none => o.size = 0
  | some b => ∃ blk, heap b = some blk ∧ o.size ≤ blk.cells.length ∧
      (o.own = true → blk.user = false ∧ blk.cells.length = o.size)

structure Inv (w : World R) : Prop where
  fresh : ∀ b, w.next ≤ b → w.heap b = none
  ok : ∀ x o, w.obj x = some o → OkObj w.heap o
  excl : ∀ x y o p b, x ≠ y → w.obj x = some o → w.obj y = some p → o.own = true → o.data = some b → p.data ≠ some b

theorem Inv.init : Inv (World.init : World R) :=
  ⟨fun _ _ => rfl, fun _ _ h => by simp [World.init] at h, fun _ _ _ _ _ _ h => by simp [World.init] at h⟩

theorem Inv.del {w : World R} (h : Inv w) (x : Nat) : Inv (w.delObj x) := by
  have key : ∀ y o, (w.delObj x).obj y = some o → w.obj y = some o := by
    intro y o e
    by_cases hy : y = x
    · subst hy; simp [World.delObj] at e
    · simpa [World.delObj, upd_ne _ _ hy] using e
  exact ⟨h.fresh, fun y o e => h.ok y o (key y o e),
    fun y z o p b hn e1 e2 => h.excl y z o p b hn (key _ _ e1) (key _ _ e2)⟩

theorem Inv.set {w : World R} {x : Nat} {o : Obj} (h : Inv (w.delObj x)) (ho : OkObj w.heap o)
    (hx : ∀ y p b, y ≠ x → w.obj y = some p → (o.own = true ∨ p.own = true) → o.data = some b → p.data ≠ some b) :
    Inv (w.setObj x o) := by
  have key : ∀ y p, y ≠ x → (w.setObj x o).obj y = some p → w.obj y = some p := by
    intro y p hy e
    simpa [World.setObj, upd_ne _ _ hy] using e
  have keyd : ∀ y p, y ≠ x → w.obj y = some p → (w.delObj x).obj y = some p := by
    intro y p hy e
    simpa [World.delObj, upd_ne _ _ hy] using e
  have keys : ∀ p, (w.setObj x o).obj x = some p → p = o := by
    intro p e; simp [World.setObj] at e; exact e.symm
  refine ⟨h.fresh, ?_, ?_⟩
  · intro y p e
    by_cases hy : y = x
    · subst hy; rw [keys p e]; exact ho
    · exact h.ok y p (keyd y p hy (key y p hy e))
  · intro y z p q b hn e1 e2 hw hb
    by_cases hy : y = x
    · subst hy
      have := keys p e1; subst this
      exact hx z q b hn.symm (key z q hn.symm e2) (Or.inl hw) hb
    · by_cases hz : z = x
      · subst hz
        have := keys q e2; subst this
        intro hb'
        exact hx y p b hn (key y p hn e1) (Or.inr hw) hb' hb
      · exact h.excl y z p q b hn (keyd _ _ hy (key _ _ hy e1)) (keyd _ _ hz (key _ _ hz e2)) hw hb

/-- Blocks below `next` only. -/
theorem Inv.lt {w : World R} (h : Inv w) {b : Nat} {blk : Block R} (e : w.heap b = some blk) : b < w.next := by
  by_contra hc
  rw [h.fresh b (by omega)] at e
  cases e

theorem Inv.data_lt {w : World R} (h : Inv w) {x : Nat} {o : Obj} {b : Nat} (e : w.obj x = some o) (hb : o.data = some b) :
    b < w.next := by
  have := h.ok x o e
  unfold OkObj at this
  rw [hb] at this
  obtain ⟨blk, e', -⟩ := this
  exact h.lt e'

theorem Inv.alloc {w : World R} (h : Inv w) (cells : Buf R) (user : Bool) : Inv (w.alloc cells user) := by
  refine ⟨?_, ?_, h.excl⟩
  · intro b hb
    simp only [World.alloc] at hb ⊢
    rw [upd_ne _ _ (by omega)]
    exact h.fresh b (by omega)
  · intro x o e
    have := h.ok x o e
    unfold OkObj at this ⊢
    cases hd : o.data with
    | none => simpa [hd] using this
    | some b =>
      rw [hd] at this
      obtain ⟨blk, e', h2⟩ := this
      have := h.lt e'
      refine ⟨blk, ?_, h2⟩
      simp only [World.alloc]
      rw [upd_ne _ _ (by omega)]; exact e'

/-- Setting an object to a freshly allocated block. -/
theorem Inv.setNew {w : World R} {x : Nat} (h : Inv (w.delObj x)) (cells : Buf R) (n : Nat) (own : Bool)
    (hn : n = cells.length) : Inv ((w.alloc cells false).setObj x ⟨some w.next, n, own⟩) := by
  apply Inv.set
  · exact h.alloc cells false
  · refine ⟨⟨cells, false⟩, by simp [World.alloc], by simp [hn], fun _ => ⟨rfl, hn.symm⟩⟩
  · intro y p b hy e _ hb hb'
    simp only [Option.some.injEq] at hb
    subst hb
    have e' : (w.delObj x).obj y = some p := by simpa [World.delObj, upd_ne _ _ hy, World.alloc] using e
    have := h.data_lt e' hb'
    simp [World.delObj] at this

theorem free_ok {w : World R} (h : Inv w) {x : Nat} {o : Obj} (e : w.obj x = some o) (ho : o.own = true) :
    ∃ w1, w.free o.data = .ok w1 ∧ w1.obj = w.obj ∧ w1.next = w.next ∧ Inv (w1.delObj x) ∧
      (∀ b, some b ≠ o.data → w1.heap b = w.heap b) ∧ (∀ b, o.data = some b → w1.heap b = none) := by
  cases hd : o.data with
  | none =>
    exact ⟨w, rfl, rfl, rfl, h.del x, fun _ _ => rfl, fun b hb => by cases hb⟩
  | some b =>
    have hk := h.ok x o e
    unfold OkObj at hk
    rw [hd] at hk
    obtain ⟨blk, eb, -, hu⟩ := hk
    refine ⟨{ w with heap := upd w.heap b none }, ?_, rfl, rfl, ?_, ?_, ?_⟩
    · simp only [World.free, eb, (hu ho).1]; rfl
    · refine ⟨?_, ?_, (h.del x).excl⟩
      · intro b' hb'
        simp only [World.delObj, upd]
        split
        · rfl
        · exact h.fresh b' hb'
      · intro y p ey
        have hy : y ≠ x := by
          intro hy; subst hy; simp [World.delObj] at ey
        have ey' : w.obj y = some p := by simpa [World.delObj, upd_ne _ _ hy] using ey
        have hk := h.ok y p ey'
        have hx := h.excl x y o p b hy.symm e ey' ho hd
        unfold OkObj at hk ⊢
        cases hp : p.data with
        | none => simpa [hp] using hk
        | some b' =>
          rw [hp] at hk hx
          obtain ⟨blk', e', h2⟩ := hk
          refine ⟨blk', ?_, h2⟩
          simp only [World.delObj]
          rw [upd_ne _ _ (by intro hc; exact hx (by rw [hc]))]; exact e'
    · intro b' hb'
      simp only
      rw [upd_ne]
      intro hc; exact hb' (by rw [hc])
    · intro b' hb'
      cases hb'
      simp

theorem cells_ok {w : World R} (h : Inv w) {x : Nat} {o : Obj} (e : w.obj x = some o) :
    ∃ cs, w.cells o = .ok cs ∧ cs.length = o.size := by
  have hk := h.ok x o e
  unfold OkObj at hk
  unfold World.cells
  cases hd : o.data with
  | none =>
    rw [hd] at hk
    exact ⟨[], by simp [hk], by simp [hk]⟩
  | some b =>
    rw [hd] at hk
    obtain ⟨blk, eb, hl, -⟩ := hk
    refine ⟨blk.cells.take o.size, by simp [eb, hl], by simp [hl]⟩

theorem get_ok {w : World R} {x : Nat} {o : Obj} (e : w.obj x = some o) : w.get x = .ok o := by simp [World.get, e]
theorem place_ok {w : World R} {x : Nat} (o : Obj) (e : w.obj x = none) : w.place x o = .ok (w.setObj x o) := by
  simp [World.place, e]

theorem Inv.del_none {w : World R} {x : Nat} (h : Inv w) : Inv (w.delObj x) := h.del x

theorem del_set (w : World R) (x : Nat) (o : Obj) : (w.setObj x o).delObj x = w.delObj x := by
  simp only [World.setObj, World.delObj]
  congr 1
  funext i
  simp only [upd]
  split <;> rfl

/-- Overwriting the cells of a block with equally many cells keeps the invariant. -/
theorem Inv.poke {w : World R} (h : Inv w) {b : Nat} {blk : Block R} (e : w.heap b = some blk) (cs : Buf R)
    (hl : cs.length = blk.cells.length) :
    Inv { w with heap := upd w.heap b (some { blk with cells := cs }) } := by
  refine ⟨?_, ?_, h.excl⟩
  · intro b' hb'
    have := h.lt e
    simp only at hb' ⊢
    rw [upd_ne _ _ (by omega)]
    exact h.fresh b' hb'
  · intro x o ex
    have hk := h.ok x o ex
    unfold OkObj at hk ⊢
    cases hd : o.data with
    | none => simpa [hd] using hk
    | some b' =>
      rw [hd] at hk
      obtain ⟨blk', e', h1, h2⟩ := hk
      by_cases hb : b' = b
      · subst hb
        rw [e] at e'
        cases e'
        exact ⟨{ blk with cells := cs }, by simp, by simp only; omega, fun ho => ⟨(h2 ho).1, by simp only; rw [hl]; exact (h2 ho).2⟩⟩
      · exact ⟨blk', by simp only; rw [upd_ne _ _ hb]; exact e', h1, h2⟩

/-- Every correctly used operation returns normally, or throws from `resize`; the invariant is kept. -/
theorem step_inv {w : World R} (h : Inv w) {op : Op R} (ha : Adm w op) :
    (∃ w', step w op = .ok w' ∧ Inv w') ∨
    (∃ x n o, op = .resize x n ∧ w.obj x = some o ∧ o.own = false ∧ o.size ≠ n ∧
      step w op = .error (.throw "resize storage with not own memory.")) := by
  cases op with
  | userAlloc cells => exact Or.inl ⟨_, rfl, h.alloc _ _⟩
  | dflt x =>
    exact Or.inl ⟨_, place_ok _ ha, Inv.set (h.del x) rfl (fun y p b _ _ _ hb => by cases hb)⟩
  | size x n =>
    exact Or.inl ⟨_, place_ok (w := w.alloc (Buf.alloc n) false) _ ha, Inv.setNew (h.del x) _ _ _ (by simp [Buf.alloc])⟩
  | init x vs =>
    exact Or.inl ⟨_, place_ok (w := w.alloc (vs.map some) false) _ ha, Inv.setNew (h.del x) _ _ _ (by simp)⟩
  | copy x y =>
    obtain ⟨hx, hy⟩ := ha
    obtain ⟨o, ho⟩ := Option.ne_none_iff_exists'.1 hy
    obtain ⟨cs, e, hl⟩ := cells_ok h ho
    refine Or.inl ⟨_, ?_, Inv.setNew (h.del x) cs _ o.own hl.symm⟩
    simp only [step, get_ok ho, bind_ok', e]
    exact place_ok (w := w.alloc cs false) _ hx
  | move x y =>
    obtain ⟨hx, hy⟩ := ha
    obtain ⟨o, ho⟩ := Option.ne_none_iff_exists'.1 hy
    have hne : x ≠ y := by intro hc; subst hc; exact hy hx
    refine Or.inl ⟨(w.setObj x o).setObj y ⟨none, 0, false⟩, ?_, ?_⟩
    · simp only [step, get_ok ho, bind_ok', place_ok o hx]; rfl
    · apply Inv.set
      · -- ((w.setObj x o).delObj y)
        have e : (w.setObj x o).delObj y = (w.delObj y).setObj x o := by
          simp only [World.setObj, World.delObj]
          congr 1; funext i; simp only [upd]; split_ifs <;> simp_all
        rw [e]
        apply Inv.set ((h.del y).del x) (h.ok y o ho)
        intro z p b hz ez hw hb
        have hzy : z ≠ y := by intro hc; subst hc; simp [World.delObj] at ez
        have ez' : w.obj z = some p := by simpa [World.delObj, upd_ne _ _ hzy] using ez
        rcases hw with hw | hw
        · exact h.excl y z o p b hzy.symm ho ez' hw hb
        · intro hb'
          exact h.excl z y p o b hzy ez' ho hw hb' hb
      · rfl
      · intro z p b _ _ _ hb; cases hb
  | conv x y f =>
    obtain ⟨hx, hy⟩ := ha
    obtain ⟨o, ho⟩ := Option.ne_none_iff_exists'.1 hy
    obtain ⟨cs, e, hl⟩ := cells_ok h ho
    refine Or.inl ⟨_, ?_, Inv.setNew (h.del x) (cs.map (Option.map f)) o.size true (by simp [hl])⟩
    simp only [step, get_ok ho, bind_ok', e]
    exact place_ok (w := w.alloc (cs.map (Option.map f)) false) _ hx
  | proxy x b n =>
    obtain ⟨hx, blk, eb, hu, hn⟩ := ha
    refine Or.inl ⟨_, place_ok _ hx, Inv.set (h.del x) ⟨blk, eb, hn, fun hc => by cases hc⟩ ?_⟩
    intro y p b' hy ey hw hb hb'
    cases hb
    rcases hw with hw | hw
    · cases hw
    · have hk := h.ok y p ey
      unfold OkObj at hk
      rw [hb'] at hk
      obtain ⟨blk', e', -, h2⟩ := hk
      rw [eb] at e'
      cases e'
      rw [(h2 hw).1] at hu
      cases hu
  | dtor x =>
    obtain ⟨o, ho⟩ := Option.ne_none_iff_exists'.1 ha
    left
    cases hw : o.own with
    | false =>
      refine ⟨w.delObj x, ?_, h.del x⟩
      simp only [step, get_ok ho, bind_ok', World.release, hw]; rfl
    | true =>
      obtain ⟨w1, e, e1, e2, h1, -⟩ := free_ok h ho hw
      refine ⟨w1.delObj x, ?_, h1⟩
      simp only [step, get_ok ho, bind_ok', World.release, hw, if_true, e]; rfl
  | resize x n =>
    obtain ⟨o, ho⟩ := Option.ne_none_iff_exists'.1 ha
    by_cases hs : o.size = n
    · left
      refine ⟨w, ?_, h⟩
      simp only [step, get_ok ho, bind_ok', hs, if_true]; rfl
    · cases hw : o.own with
      | false =>
        right
        refine ⟨x, n, o, rfl, ho, hw, hs, ?_⟩
        simp only [step, get_ok ho, bind_ok', hs, hw]; rfl
      | true =>
        left
        obtain ⟨w1, e, e1, e2, h1, -⟩ := free_ok h ho hw
        refine ⟨(w1.alloc (Buf.alloc n) false).setObj x ⟨some w1.next, n, true⟩, ?_, Inv.setNew h1 _ _ _ (by simp [Buf.alloc])⟩
        simp only [step, get_ok ho, bind_ok', hs, hw, if_false, e, not_true]; rfl
  | assign x y =>
    obtain ⟨hx, hy⟩ := ha
    obtain ⟨o, ho⟩ := Option.ne_none_iff_exists'.1 hx
    obtain ⟨p, hp⟩ := Option.ne_none_iff_exists'.1 hy
    left
    by_cases hne : x = y
    · refine ⟨w, ?_, h⟩
      simp only [step, get_ok ho, get_ok hp, bind_ok', hne, if_true]; rfl
    have fr : ∃ w1, w.release o = .ok w1 ∧ w1.obj = w.obj ∧ Inv (w1.delObj x) := by
      cases hw : o.own with
      | false => exact ⟨w, by simp [World.release, hw], rfl, h.del x⟩
      | true =>
        obtain ⟨w1, e, e1, e2, h1, -⟩ := free_ok h ho hw
        exact ⟨w1, by simp [World.release, hw, e], e1, h1⟩
    obtain ⟨w1, e, e1, h1⟩ := fr
    have hp1 : (w1.delObj x).obj y = some p := by
      simp only [World.delObj]; rw [upd_ne _ _ (Ne.symm hne), e1]; exact hp
    cases hw : p.own with
    | true =>
      obtain ⟨cs, ec, hl⟩ := cells_ok h1 hp1
      have ec' : w1.cells p = .ok cs := ec
      refine ⟨(w1.alloc cs false).setObj x ⟨some w1.next, p.size, true⟩, ?_, Inv.setNew h1 _ _ _ hl.symm⟩
      simp only [step, get_ok ho, get_ok hp, bind_ok', hne, if_false]
      rw [e]
      simp only [bind_ok', hw, if_true, ec']; rfl
    | false =>
      refine ⟨w1.setObj x ⟨p.data, p.size, false⟩, ?_, ?_⟩
      · simp only [step, get_ok ho, get_ok hp, bind_ok', hne, if_false]
        rw [e]
        simp only [bind_ok', hw]; rfl
      · apply Inv.set h1
        · have := h1.ok y p hp1
          unfold OkObj at this ⊢
          simp only [World.delObj] at this
          cases hd : p.data with
          | none => simpa [hd] using this
          | some b =>
            rw [hd] at this
            obtain ⟨blk, eb, hl, -⟩ := this
            exact ⟨blk, eb, hl, fun hc => by cases hc⟩
        · intro z q b hz ez hw' hb hb'
          rcases hw' with hw' | hw'
          · cases hw'
          · simp only at hb
            have hzy : z ≠ y := by
              intro hc; subst hc
              rw [e1] at ez
              rw [ez] at hp; cases hp
              rw [hw'] at hw; cases hw
            have ez' : (w1.delObj x).obj z = some q := by
              simp only [World.delObj]; rw [upd_ne _ _ hz]; exact ez
            exact h1.excl z y q p b hzy ez' hp1 hw' hb' hb
  | moveAssign x y =>
    obtain ⟨hx, hy⟩ := ha
    obtain ⟨o, ho⟩ := Option.ne_none_iff_exists'.1 hx
    obtain ⟨p, hp⟩ := Option.ne_none_iff_exists'.1 hy
    left
    have fr : ∃ w1, w.release o = .ok w1 ∧ w1.obj = w.obj ∧ Inv (w1.delObj x) := by
      cases hw : o.own with
      | false => exact ⟨w, by simp [World.release, hw], rfl, h.del x⟩
      | true =>
        obtain ⟨w1, e, e1, e2, h1, -⟩ := free_ok h ho hw
        exact ⟨w1, by simp [World.release, hw, e], e1, h1⟩
    obtain ⟨w1, e, e1, h1⟩ := fr
    refine ⟨(w1.setObj x p).setObj y ⟨none, 0, false⟩, ?_, ?_⟩
    · simp only [step, get_ok ho, get_ok hp, bind_ok']
      rw [e]; rfl
    · apply Inv.set
      · by_cases hne : x = y
        · subst hne; rw [del_set]; exact h1
        · have e' : (w1.setObj x p).delObj y = (w1.delObj y).setObj x p := by
            simp only [World.setObj, World.delObj]
            congr 1; funext i; simp only [upd]; split_ifs <;> simp_all
          have hp1 : (w1.delObj x).obj y = some p := by
            simp only [World.delObj]; rw [upd_ne _ _ (Ne.symm hne), e1]; exact hp
          rw [e']
          apply Inv.set
          · have := h1.del y
            have e'' : (w1.delObj x).delObj y = (w1.delObj y).delObj x := by
              simp only [World.delObj]
              congr 1; funext i; simp only [upd]; split_ifs <;> simp_all
            rw [← e'']; exact this
          · exact h1.ok y p hp1
          · intro z q b hz ez hw hb
            have hzy : z ≠ y := by intro hc; subst hc; simp [World.delObj] at ez
            have ez' : (w1.delObj x).obj z = some q := by
              simp only [World.delObj] at ez ⊢
              rw [upd_ne _ _ hzy] at ez
              rw [upd_ne _ _ hz]; exact ez
            rcases hw with hw | hw
            · exact h1.excl y z p q b hzy.symm hp1 ez' hw hb
            · intro hb'
              exact h1.excl z y q p b hzy ez' hp1 hw hb' hb
      · rfl
      · intro z q b _ _ _ hb; cases hb
  | swap x y =>
    obtain ⟨hx, hy⟩ := ha
    obtain ⟨o, ho⟩ := Option.ne_none_iff_exists'.1 hx
    obtain ⟨p, hp⟩ := Option.ne_none_iff_exists'.1 hy
    left
    refine ⟨(w.setObj x p).setObj y o, ?_, ?_⟩
    · simp only [step, get_ok ho, get_ok hp, bind_ok']; rfl
    · by_cases hne : x = y
      · subst hne
        rw [ho] at hp; cases hp
        have : (w.setObj x o).setObj x o = w := by
          cases w
          simp only [World.setObj]
          congr 1; funext i; simp only [upd]
          split
          · rename_i hc; subst hc; exact ho.symm
          · rfl
        rw [this]; exact h
      · have excl' : ∀ z q b, z ≠ x → z ≠ y → w.obj z = some q → ∀ s t, w.obj t = some s → (t = x ∨ t = y) →
            (s.own = true ∨ q.own = true) → s.data = some b → q.data ≠ some b := by
          intro z q b hzx hzy ez s t et ht hw hb
          have htz : t ≠ z := by rcases ht with ht | ht <;> (subst ht; exact Ne.symm ‹_›)
          rcases hw with hw | hw
          · exact h.excl t z s q b htz et ez hw hb
          · intro hb'; exact h.excl z t q s b htz.symm ez et hw hb' hb
        apply Inv.set
        · have e' : (w.setObj x p).delObj y = (w.delObj y).setObj x p := by
            simp only [World.setObj, World.delObj]
            congr 1; funext i; simp only [upd]; split_ifs <;> simp_all
          rw [e']
          apply Inv.set ((h.del y).del x) (h.ok y p hp)
          intro z q b hz ez hw hb
          have hzy : z ≠ y := by intro hc; subst hc; simp [World.delObj] at ez
          have ez' : w.obj z = some q := by simpa [World.delObj, upd_ne _ _ hzy] using ez
          exact excl' z q b hz hzy ez' p y hp (Or.inr rfl) hw hb
        · exact h.ok x o ho
        · intro z q b hz ez hw hb
          by_cases hzx : z = x
          · subst hzx
            simp [World.setObj] at ez
            subst ez
            rcases hw with hw | hw
            · exact h.excl z y o p b hne ho hp hw hb
            · intro hb'; exact h.excl y z p o b (Ne.symm hne) hp ho hw hb' hb
          · have ez' : w.obj z = some q := by simpa [World.setObj, upd_ne _ _ hzx] using ez
            exact excl' z q b hzx hz ez' o x ho (Or.inl rfl) hw hb
  | write x i v =>
    obtain ⟨o, ho, hi⟩ := ha
    left
    have hk := h.ok x o ho
    unfold OkObj at hk
    cases hd : o.data with
    | none => rw [hd] at hk; simp only at hk; omega
    | some b =>
      rw [hd] at hk
      obtain ⟨blk, eb, hl, -⟩ := hk
      refine ⟨{ w with heap := upd w.heap b (some { blk with cells := blk.cells.set i (some v) }) }, ?_, h.poke eb _ (by simp)⟩
      simp only [step, get_ok ho, bind_ok', hd, eb]
      rw [if_pos ⟨hi, by omega⟩]
  | fill x v =>
    obtain ⟨o, ho⟩ := Option.ne_none_iff_exists'.1 ha
    left
    have hk := h.ok x o ho
    unfold OkObj at hk
    cases hd : o.data with
    | none =>
      rw [hd] at hk
      refine ⟨w, ?_, h⟩
      simp only [step, get_ok ho, bind_ok', hd]
      rw [if_pos hk]
    | some b =>
      rw [hd] at hk
      obtain ⟨blk, eb, hl, -⟩ := hk
      refine ⟨_, ?_, h.poke eb (List.replicate o.size (some v) ++ blk.cells.drop o.size) (by simp; omega)⟩
      simp only [step, get_ok ho, bind_ok', hd, eb]
      rw [if_pos hl]
  | load x vs =>
    obtain ⟨o, ho⟩ := Option.ne_none_iff_exists'.1 ha
    left
    refine ⟨(w.alloc (vs.map some) false).setObj x ⟨some w.next, vs.length, true⟩, ?_, Inv.setNew (h.del x) _ _ _ (by simp)⟩
    simp only [step, get_ok ho, bind_ok']; rfl

theorem Reach.inv {w : World R} (h : Reach w) : Inv w := by
  induction h with
  | init => exact Inv.init
  | step _ ha e ih =>
    rcases step_inv ih ha with ⟨w', e', h'⟩ | ⟨x, n, o, -, -, -, -, e'⟩
    · rw [e] at e'; cases e'; exact h'
    · rw [e] at e'; cases e'

end BB.Own
