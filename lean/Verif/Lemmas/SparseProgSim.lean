import Verif.Model.SparseProg
import Verif.Lemmas.StorageRep
import Verif.Props.Mix

/-!
# Simulation of programs over sparse matrix variables by their mathematical reading
-/
namespace BB.SProg

open Own

variable {R : Type}

/-- What a matrix object stands for: three arrays, or nothing. -/
inductive Slot3 (R : Type) where
  | gone
  | held (v : Buf R) (k o : Buf Nat)
  | hollow

def Slot3.val : Slot3 R → Slot R
  | .gone => .gone
  | .held v _ _ => .held v
  | .hollow => .hollow

def Slot3.key : Slot3 R → Slot Nat
  | .gone => .gone
  | .held _ k _ => .held k
  | .hollow => .hollow

def Slot3.off : Slot3 R → Slot Nat
  | .gone => .gone
  | .held _ _ o => .held o
  | .hollow => .hollow

/-- The index arrays of all objects. -/
def ix (ρ : Nat → Slot3 R) (n : Nat) : Slot Nat := if n % 2 = 0 then (ρ (n / 2)).key else (ρ (n / 2)).off

def vx (ρ : Nat → Slot3 R) (n : Nat) : Slot R := (ρ n).val

structure Rep3 (s : State R) (ρ : Nat → Slot3 R) : Prop where
  v : Rep s.wv (vx ρ)
  i : Rep s.wi (ix ρ)

theorem ix_key (ρ : Nat → Slot3 R) (x : Nat) : ix ρ (keyOf x) = (ρ x).key := by
  simp [ix, keyOf]

theorem ix_off (ρ : Nat → Slot3 R) (x : Nat) : ix ρ (offOf x) = (ρ x).off := by
  have h1 : (2 * x + 1) % 2 = 1 := by omega
  have h2 : (2 * x + 1) / 2 = x := by omega
  simp [ix, offOf, h1, h2]

theorem key_ne_off (x y : Nat) : keyOf x ≠ offOf y := by unfold keyOf offOf; omega
theorem off_ne_key (x y : Nat) : offOf x ≠ keyOf y := by unfold keyOf offOf; omega
theorem key_inj {x y : Nat} : keyOf x = keyOf y ↔ x = y := by unfold keyOf; omega
theorem off_inj {x y : Nat} : offOf x = offOf y ↔ x = y := by unfold offOf; omega

theorem even_or (n : Nat) : (∃ x, n = keyOf x) ∨ ∃ x, n = offOf x := by
  rcases Nat.even_or_odd' n with ⟨k, h | h⟩
  · exact .inl ⟨k, h⟩
  · exact .inr ⟨k, h⟩

/-- Two index worlds that agree on all keys and offsets. -/
theorem ix_congr {τ : Nat → Slot Nat} {ρ : Nat → Slot3 R} (hk : ∀ x, τ (keyOf x) = (ρ x).key) (ho : ∀ x, τ (offOf x) = (ρ x).off) (n : Nat) :
    τ n = ix ρ n := by
  rcases even_or n with ⟨x, rfl⟩ | ⟨x, rfl⟩
  · rw [hk, ix_key]
  · rw [ho, ix_off]

theorem put_ne {A : Type} {σ : Nat → Slot A} {x z : Nat} {v : Slot A} (h : z ≠ x) : put σ x v z = σ z := upd_ne _ _ h
theorem put_same {A : Type} {σ : Nat → Slot A} {x : Nat} {v : Slot A} : put σ x v x = v := upd_same _ _ _

/-- Three operations that change one matrix object. -/
theorem Rep3.one {s : State R} {ρ : Nat → Slot3 R} (h : Rep3 s ρ) {x : Nat} (q : Slot3 R) {ov : Op R} {ok oo : Op Nat}
    (h1 : ∃ w, Own.step s.wv ov = .ok w ∧ Rep w (put (vx ρ) x q.val))
    (h2 : ∃ w, Own.step s.wi ok = .ok w ∧ Rep w (put (ix ρ) (keyOf x) q.key))
    (h3 : ∀ w, Rep w (put (ix ρ) (keyOf x) q.key) → ∃ w', Own.step w oo = .ok w' ∧ Rep w' (put (put (ix ρ) (keyOf x) q.key) (offOf x) q.off)) :
    ∃ s', s.all ov ok oo = .ok s' ∧ Rep3 s' (upd ρ x q) ∧ s'.dim = s.dim := by
  obtain ⟨wv, e1, r1⟩ := h1
  obtain ⟨wi, e2, r2⟩ := h2
  obtain ⟨wi', e3, r3⟩ := h3 wi r2
  refine ⟨⟨wv, wi', s.dim⟩, by simp only [State.all, e1, e2, e3, bind_ok', pure_ok'], ⟨r1.congr fun z => ?_, r3.congr fun n => ?_⟩, rfl⟩
  · by_cases hz : z = x
    · subst hz; simp [vx]
    · simp [vx, upd_ne _ _ hz]
  · apply ix_congr <;> intro z
    · rw [put_ne (key_ne_off z x)]
      by_cases hz : z = x
      · subst hz; simp
      · rw [put_ne (fun hc => hz (key_inj.1 hc)), ix_key, upd_ne _ _ hz]
    · by_cases hz : z = x
      · subst hz; simp
      · rw [put_ne (fun hc => hz (off_inj.1 hc)), put_ne (off_ne_key z x), ix_off, upd_ne _ _ hz]

/-- Three operations that change two matrix objects. -/
theorem Rep3.two {s : State R} {ρ : Nat → Slot3 R} (h : Rep3 s ρ) {x y : Nat} (p q : Slot3 R) {ov : Op R} {ok oo : Op Nat}
    (h1 : ∃ w, Own.step s.wv ov = .ok w ∧ Rep w (put (put (vx ρ) x p.val) y q.val))
    (h2 : ∃ w, Own.step s.wi ok = .ok w ∧ Rep w (put (put (ix ρ) (keyOf x) p.key) (keyOf y) q.key))
    (h3 : ∀ w, Rep w (put (put (ix ρ) (keyOf x) p.key) (keyOf y) q.key) → ∃ w', Own.step w oo = .ok w' ∧
      Rep w' (put (put (put (put (ix ρ) (keyOf x) p.key) (keyOf y) q.key) (offOf x) p.off) (offOf y) q.off)) :
    ∃ s', s.all ov ok oo = .ok s' ∧ Rep3 s' (upd (upd ρ x p) y q) ∧ s'.dim = s.dim := by
  obtain ⟨wv, e1, r1⟩ := h1
  obtain ⟨wi, e2, r2⟩ := h2
  obtain ⟨wi', e3, r3⟩ := h3 wi r2
  refine ⟨⟨wv, wi', s.dim⟩, by simp only [State.all, e1, e2, e3, bind_ok', pure_ok'], ⟨r1.congr fun z => ?_, r3.congr fun n => ?_⟩, rfl⟩
  · by_cases hy : z = y
    · subst hy; simp [vx]
    · by_cases hz : z = x
      · subst hz; simp [vx, upd_ne _ _ hy]
      · simp [vx, upd_ne _ _ hz, upd_ne _ _ hy]
  · apply ix_congr <;> intro z
    · rw [put_ne (key_ne_off z y), put_ne (key_ne_off z x)]
      by_cases hy : z = y
      · subst hy; simp
      · rw [put_ne (fun hc => hy (key_inj.1 hc)), upd_ne _ _ hy]
        by_cases hz : z = x
        · subst hz; simp
        · rw [put_ne (fun hc => hz (key_inj.1 hc)), ix_key, upd_ne _ _ hz]
    · by_cases hy : z = y
      · subst hy; simp
      · rw [put_ne (fun hc => hy (off_inj.1 hc)), upd_ne _ _ hy]
        by_cases hz : z = x
        · subst hz; simp
        · rw [put_ne (fun hc => hz (off_inj.1 hc)), put_ne (off_ne_key z y), put_ne (off_ne_key z x), ix_off, upd_ne _ _ hz]

section lift
variable {s : State R} {ρ : Nat → Slot3 R} {x y : Nat}

theorem Slot3.gone_iff {q : Slot3 R} : (q.val = .gone ↔ q = .gone) ∧ (q.key = .gone ↔ q = .gone) ∧ (q.off = .gone ↔ q = .gone) := by
  cases q <;> simp [Slot3.val, Slot3.key, Slot3.off]

theorem Rep3.mk3 (h : Rep3 s ρ) (hx : ρ x = .gone) (n m : Nat) :
    ∃ s', s.mk3 x n m = .ok s' ∧ Rep3 s' (upd ρ x (.held (Buf.alloc n) (Buf.alloc n) (Buf.alloc m))) ∧ s'.dim = s.dim := by
  refine h.one (.held (Buf.alloc n) (Buf.alloc n) (Buf.alloc m)) (h.v.size n (by rw [vx, hx]; rfl))
    (h.i.size n (by rw [ix_key, hx]; rfl)) fun w hw => hw.size m (by rw [put_ne (off_ne_key x x), ix_off, hx]; rfl)

theorem Rep3.copy3 (h : Rep3 s ρ) {v : Buf R} {k o : Buf Nat} (hx : ρ x = .gone) (hy : ρ y = .held v k o) :
    ∃ s', s.copy3 x y = .ok s' ∧ Rep3 s' (upd ρ x (.held v k o)) ∧ s'.dim = s.dim := by
  refine h.one (.held v k o) (h.v.copy (by rw [vx, hx]; rfl) (by rw [vx, hy]; rfl))
    (h.i.copy (by rw [ix_key, hx]; rfl) (by rw [ix_key, hy]; rfl)) fun w hw =>
    hw.copy (by rw [put_ne (off_ne_key x x), ix_off, hx]; rfl) (by rw [put_ne (off_ne_key y x), ix_off, hy]; rfl)

theorem Rep3.assign3 (h : Rep3 s ρ) {v : Buf R} {k o : Buf Nat} (hx : ρ x ≠ .gone) (hy : ρ y = .held v k o) :
    ∃ s', s.assign3 x y = .ok s' ∧ Rep3 s' (upd ρ x (.held v k o)) ∧ s'.dim = s.dim := by
  refine h.one (.held v k o) (h.v.assign (by rw [vx, ne_eq, Slot3.gone_iff.1]; exact hx) (by rw [vx, hy]; rfl))
    (h.i.assign (by rw [ix_key, ne_eq, Slot3.gone_iff.2.1]; exact hx) (by rw [ix_key, hy]; rfl)) fun w hw =>
    hw.assign (by rw [put_ne (off_ne_key x x), ix_off, ne_eq, Slot3.gone_iff.2.2]; exact hx) (by rw [put_ne (off_ne_key y x), ix_off, hy]; rfl)

theorem Rep3.move3 (h : Rep3 s ρ) {v : Buf R} {k o : Buf Nat} (hx : ρ x = .gone) (hy : ρ y = .held v k o) :
    ∃ s', s.move3 x y = .ok s' ∧ Rep3 s' (upd (upd ρ x (.held v k o)) y .hollow) ∧ s'.dim = s.dim := by
  refine h.two (.held v k o) .hollow (h.v.move (by rw [vx, hx]; rfl) (by rw [vx, hy]; rfl))
    (h.i.move (by rw [ix_key, hx]; rfl) (by rw [ix_key, hy]; rfl)) fun w hw =>
    hw.move (by rw [put_ne (off_ne_key x y), put_ne (off_ne_key x x), ix_off, hx]; rfl)
      (by rw [put_ne (off_ne_key y y), put_ne (off_ne_key y x), ix_off, hy]; rfl)

theorem Rep3.moveAssign3 (h : Rep3 s ρ) {v : Buf R} {k o : Buf Nat} (hx : ρ x ≠ .gone) (hy : ρ y = .held v k o) (hxy : x ≠ y) :
    ∃ s', s.moveAssign3 x y = .ok s' ∧ Rep3 s' (upd (upd ρ x (.held v k o)) y .hollow) ∧ s'.dim = s.dim := by
  refine h.two (.held v k o) .hollow (h.v.moveAssign (by rw [vx, ne_eq, Slot3.gone_iff.1]; exact hx) (by rw [vx, hy]; rfl) hxy)
    (h.i.moveAssign (by rw [ix_key, ne_eq, Slot3.gone_iff.2.1]; exact hx) (by rw [ix_key, hy]; rfl) (fun hc => hxy (key_inj.1 hc))) fun w hw =>
    hw.moveAssign (by rw [put_ne (off_ne_key x y), put_ne (off_ne_key x x), ix_off, ne_eq, Slot3.gone_iff.2.2]; exact hx)
      (by rw [put_ne (off_ne_key y y), put_ne (off_ne_key y x), ix_off, hy]; rfl) (fun hc => hxy (off_inj.1 hc))

theorem Rep3.dtor3 (h : Rep3 s ρ) (hx : ρ x ≠ .gone) :
    ∃ s', s.dtor3 x = .ok s' ∧ Rep3 s' (upd ρ x .gone) ∧ s'.dim = s.dim := by
  refine h.one .gone (h.v.dtor (by rw [vx, ne_eq, Slot3.gone_iff.1]; exact hx))
    (h.i.dtor (by rw [ix_key, ne_eq, Slot3.gone_iff.2.1]; exact hx)) fun w hw =>
    hw.dtor (by rw [put_ne (off_ne_key x x), ix_off, ne_eq, Slot3.gone_iff.2.2]; exact hx)

theorem Rep3.resize3 (h : Rep3 s ρ) {v : Buf R} {k o : Buf Nat} (hx : ρ x = .held v k o) (n m : Nat) :
    ∃ s', s.resize3 x n m = .ok s' ∧
      Rep3 s' (upd ρ x (.held (Dense.resizeBuf v n) (Dense.resizeBuf k n) (Dense.resizeBuf o m))) ∧ s'.dim = s.dim := by
  refine h.one (.held (Dense.resizeBuf v n) (Dense.resizeBuf k n) (Dense.resizeBuf o m)) (h.v.resize n (by rw [vx, hx]; rfl))
    (h.i.resize n (by rw [ix_key, hx]; rfl)) fun w hw => hw.resize m (by rw [put_ne (off_ne_key x x), ix_off, hx]; rfl)

theorem Rep3.swap3 (h : Rep3 s ρ) (hx : ρ x ≠ .gone) (hy : ρ y ≠ .gone) :
    ∃ s', s.all (.swap x y) (.swap (keyOf x) (keyOf y)) (.swap (offOf x) (offOf y)) = .ok s' ∧
      Rep3 s' (upd (upd ρ x (ρ y)) y (ρ x)) ∧ s'.dim = s.dim := by
  refine h.two (ρ y) (ρ x) (h.v.swap (by rw [vx, ne_eq, Slot3.gone_iff.1]; exact hx) (by rw [vx, ne_eq, Slot3.gone_iff.1]; exact hy)) ?_ fun w hw => ?_
  · have := h.i.swap (x := keyOf x) (y := keyOf y) (by rw [ix_key, ne_eq, Slot3.gone_iff.2.1]; exact hx)
      (by rw [ix_key, ne_eq, Slot3.gone_iff.2.1]; exact hy)
    rwa [ix_key, ix_key] at this
  · have e1 : ∀ z, (put (put (ix ρ) (keyOf x) (ρ y).key) (keyOf y) (ρ x).key) (offOf z) = (ρ z).off := fun z => by
      rw [put_ne (off_ne_key z y), put_ne (off_ne_key z x), ix_off]
    have := hw.swap (x := offOf x) (y := offOf y) (by rw [e1, ne_eq, Slot3.gone_iff.2.2]; exact hx)
      (by rw [e1, ne_eq, Slot3.gone_iff.2.2]; exact hy)
    rwa [e1, e1] at this

end lift

/-- Storing a computed array into a new one: the cells that are not written stay uninitialised. -/
theorem writeCells_fresh {A : Type} {w : World A} {σ : Nat → Slot A} (h : Rep w σ) {x : Nat} {d : Buf A} (hx : σ x = .held (Buf.alloc d.length)) :
    ∃ w', writeCells x d w = .ok w' ∧ Rep w' (put σ x (.held d)) := by
  have key : ∀ n, n ≤ d.length → ∃ w', loopN n (fun i w =>
      match d[i]? with
      | some (some v) => Own.step w (.write x i v)
      | _ => .ok w) w = .ok w' ∧ Rep w' (put σ x (.held (d.take n ++ Buf.alloc (d.length - n)))) := by
    intro n
    induction n with
    | zero =>
      intro _
      refine ⟨w, rfl, h.congr fun z => ?_⟩
      by_cases hz : z = x
      · subst hz; simp [put, hx]
      · simp [put, upd_ne _ _ hz]
    | succ n ih =>
      intro hn
      obtain ⟨w1, e1, r1⟩ := ih (by omega)
      have hn' : n < d.length := by omega
      have ha : Buf.alloc (d.length - n) = (none : Option A) :: Buf.alloc (d.length - (n + 1)) := by
        rw [show d.length - n = (d.length - (n + 1)) + 1 by omega]; rfl
      cases hv : d[n] with
      | none =>
        refine ⟨w1, ?_, r1.congr fun z => ?_⟩
        · simp only [loopN, e1, List.getElem?_eq_getElem hn', hv]; rfl
        · by_cases hz : z = x
          · subst hz
            simp only [put, upd_same]
            rw [ha, List.take_add_one, List.getElem?_eq_getElem hn', hv]
            simp
          · simp [put, upd_ne _ _ hz]
      | some v =>
        obtain ⟨w2, e2, r2⟩ := r1.write (x := x) (i := n) v put_same
          (by rw [List.length_append, List.length_take, Buf.length_alloc]; omega)
        refine ⟨w2, ?_, r2.congr fun z => ?_⟩
        · simp only [loopN, e1, List.getElem?_eq_getElem hn', hv]
          exact e2
        · by_cases hz : z = x
          · subst hz
            simp only [put, upd_same]
            rw [ha, List.take_add_one, List.getElem?_eq_getElem hn', hv]
            congr 1
            rw [List.set_append_right _ _ (by rw [List.length_take]; omega), List.length_take, Nat.min_eq_left (by omega), Nat.sub_self]
            simp
          · simp [put, upd_ne _ _ hz]
  obtain ⟨w', e1, r1⟩ := key d.length (le_refl _)
  refine ⟨w', e1, r1.congr fun z => ?_⟩
  by_cases hz : z = x
  · subst hz; simp [put, Buf.alloc]
  · simp [put, upd_ne _ _ hz]

theorem Rep3.writeAll {s : State R} {ρ : Nat → Slot3 R} (h : Rep3 s ρ) {x : Nat} {C : Sparse R} (hk : C.key.length = C.value.length)
    (hx : ρ x = .held (Buf.alloc C.value.length) (Buf.alloc C.value.length) (Buf.alloc C.offset.length)) :
    ∃ s', s.writeAll x C = .ok s' ∧ Rep3 s' (upd ρ x (.held C.value C.key C.offset)) ∧ s'.dim = s.dim := by
  obtain ⟨wv, e1, r1⟩ := writeCells_fresh h.v (x := x) (d := C.value) (by rw [vx, hx]; rfl)
  obtain ⟨wi, e2, r2⟩ := writeCells_fresh h.i (x := keyOf x) (d := C.key) (by rw [ix_key, hx, hk]; rfl)
  obtain ⟨wi', e3, r3⟩ := writeCells_fresh r2 (x := offOf x) (d := C.offset) (by rw [put_ne (off_ne_key x x), ix_off, hx]; rfl)
  refine ⟨⟨wv, wi', s.dim⟩, by simp only [State.writeAll, e1, e2, e3, bind_ok', pure_ok'], ⟨r1.congr fun z => ?_, r3.congr fun n => ?_⟩, rfl⟩
  · by_cases hz : z = x
    · subst hz; simp [vx, Slot3.val]
    · simp [vx, upd_ne _ _ hz]
  · apply ix_congr <;> intro z
    · rw [put_ne (key_ne_off z x)]
      by_cases hz : z = x
      · subst hz; simp [Slot3.key]
      · rw [put_ne (fun hc => hz (key_inj.1 hc)), ix_key, upd_ne _ _ hz]
    · by_cases hz : z = x
      · subst hz; simp [Slot3.off]
      · rw [put_ne (fun hc => hz (off_inj.1 hc)), put_ne (off_ne_key z x), ix_off, upd_ne _ _ hz]

theorem upd_upd {α : Type} (f : Nat → α) (x : Nat) (a b : α) : upd (upd f x a) x b = upd f x b := by
  funext z; by_cases hz : z = x
  · subst hz; simp
  · simp [upd_ne _ _ hz]

theorem resizeBuf_nil {A : Type} (n : Nat) : Dense.resizeBuf ([] : Buf A) n = Buf.alloc n := by
  unfold Dense.resizeBuf
  split
  · rename_i h; rw [← h]; rfl
  · rfl

/-- A computed matrix becomes the contents of a default constructed object. -/
theorem Rep3.fillIn {s : State R} {ρ : Nat → Slot3 R} (h : Rep3 s ρ) {x : Nat} {C : Sparse R} (hk : C.key.length = C.value.length)
    (hx : ρ x = .held [] [] []) :
    ∃ s', s.fillIn x C = .ok s' ∧ Rep3 s' (upd ρ x (.held C.value C.key C.offset)) ∧ s'.dim = upd s.dim x C.dim := by
  obtain ⟨s1, e1, r1, d1⟩ := h.resize3 hx C.value.length C.offset.length
  simp only [resizeBuf_nil] at r1
  have r1' : Rep3 (s1.setDim x C.dim) _ := ⟨r1.v, r1.i⟩
  obtain ⟨s2, e2, r2, d2⟩ := r1'.writeAll (x := x) hk (upd_same _ _ _)
  rw [upd_upd] at r2
  exact ⟨s2, by simp only [State.fillIn, e1, bind_ok', e2], r2, by rw [d2, State.setDim, d1]⟩

theorem Rep3.construct {s : State R} {ρ : Nat → Slot3 R} (h : Rep3 s ρ) {x : Nat} {C : Sparse R} (hk : C.key.length = C.value.length)
    (hx : ρ x = .gone) :
    ∃ s', s.construct x C = .ok s' ∧ Rep3 s' (upd ρ x (.held C.value C.key C.offset)) ∧ s'.dim = upd s.dim x C.dim := by
  obtain ⟨s1, e1, r1, d1⟩ := h.mk3 hx C.value.length C.offset.length
  have r1' : Rep3 (s1.setDim x C.dim) _ := ⟨r1.v, r1.i⟩
  obtain ⟨s2, e2, r2, d2⟩ := r1'.writeAll (x := x) hk (upd_same _ _ _)
  rw [upd_upd] at r2
  exact ⟨s2, by simp only [State.construct, e1, bind_ok', e2], r2, by rw [d2, State.setDim, d1]⟩

theorem Rep3.decl {s : State R} {ρ : Nat → Slot3 R} (h : Rep3 s ρ) {x : Nat} (hx : ρ x = .gone) :
    ∃ s', s.decl x = .ok s' ∧ Rep3 s' (upd ρ x (.held [] [] [])) ∧ s'.dim = upd s.dim x (Dim.mk' 0 0) := by
  obtain ⟨s1, e1, r1, d1⟩ := h.mk3 hx 0 0
  exact ⟨s1.setDim x (Dim.mk' 0 0), by simp only [State.decl, e1, bind_ok', pure_ok'], ⟨r1.v, r1.i⟩, by rw [State.setDim, d1]⟩

theorem Rep3.moveAssign {s : State R} {ρ : Nat → Slot3 R} (h : Rep3 s ρ) {x y : Nat} {v : Buf R} {k o : Buf Nat} (hx : ρ x ≠ .gone)
    (hy : ρ y = .held v k o) (hxy : x ≠ y) :
    ∃ s', s.moveAssign x y = .ok s' ∧ Rep3 s' (upd (upd ρ x (.held v k o)) y .hollow) ∧ s'.dim = upd s.dim x (s.dim y) := by
  obtain ⟨s1, e1, r1, d1⟩ := h.moveAssign3 hx hy hxy
  exact ⟨s1.setDim x (s.dim y), by simp only [State.moveAssign, e1, bind_ok', pure_ok'], ⟨r1.v, r1.i⟩, by rw [State.setDim, d1]⟩

theorem Rep3.deref {s : State R} {ρ : Nat → Slot3 R} (h : Rep3 s ρ) {x : Nat} {v : Buf R} {k o : Buf Nat} (hx : ρ x = .held v k o) :
    s.deref x = .ok ⟨.col, s.dim x, v, k, o⟩ := by
  obtain ⟨a1, h1, -, h3⟩ := h.v.held (x := x) (d := v) (by rw [vx, hx]; rfl)
  obtain ⟨b1, i1, -, i3⟩ := h.i.held (x := keyOf x) (d := k) (by rw [ix_key, hx]; rfl)
  obtain ⟨c1, j1, -, j3⟩ := h.i.held (x := offOf x) (d := o) (by rw [ix_off, hx]; rfl)
  simp only [State.deref, get_ok h1, get_ok i1, get_ok j1, bind_ok', h3, i3, j3, pure_ok']

/-! ## Values -/

/-- The value of variable `x` in the machine. -/
def ValOk (ρ : Nat → Slot3 R) (dim : Nat → Dim) (x : Nat) : Option (Val R) → Prop
  | none => ρ (var x) = .gone
  | some ⟨r, c, n, .stored f⟩ => dim (var x) = ⟨r, c, n⟩ ∧ ∃ v k o, ρ (var x) = .held v k o ∧
      (SMat.sparse ⟨.col, Dim.mk' r c, v, k, o⟩).Stores r c f
  | some ⟨r, c, n, .raw⟩ => dim (var x) = ⟨r, c, n⟩ ∧ ∃ v k o, ρ (var x) = .held v k o
  | some ⟨r, c, n, .hollow⟩ => dim (var x) = ⟨r, c, n⟩ ∧ ρ (var x) = .hollow

structure SimAt (s : State R) (E : Env R) (ρ : Nat → Slot3 R) : Prop where
  rep : Rep3 s ρ
  t0 : ρ tmp0 = .gone
  t1 : ρ tmp1 = .gone
  vals : ∀ x, ValOk ρ s.dim x (E x)

def Sim (s : State R) (E : Env R) : Prop := ∃ ρ, SimAt s E ρ

theorem var_inj {x y : Nat} : var x = var y ↔ x = y := by simp [var]
theorem var_ne {x y : Nat} (h : x ≠ y) : var x ≠ var y := fun hc => h (var_inj.1 hc)
theorem var_ne0 (x : Nat) : var x ≠ tmp0 := by simp [var, tmp0]
theorem var_ne1 (x : Nat) : var x ≠ tmp1 := by simp [var, tmp1]

theorem ValOk.congr {ρ τ : Nat → Slot3 R} {dim dim' : Nat → Dim} {x : Nat} {v : Option (Val R)} (h : ValOk ρ dim x v)
    (hσ : τ (var x) = ρ (var x)) (hd : dim' (var x) = dim (var x)) : ValOk τ dim' x v := by
  unfold ValOk at *
  rw [hσ, hd]; exact h

theorem SimAt.live {s : State R} {E : Env R} {ρ : Nat → Slot3 R} (h : SimAt s E ρ) {x : Nat} (hx : (E x).isSome = true) : ρ (var x) ≠ .gone := by
  have := h.vals x
  cases e : E x with
  | none => rw [e] at hx; cases hx
  | some v =>
    rw [e] at this
    obtain ⟨r, c, n, d⟩ := v
    cases d with
    | stored f => obtain ⟨-, v, k, o, h1, -⟩ := this; rw [h1]; simp
    | raw => obtain ⟨-, v, k, o, h1⟩ := this; rw [h1]; simp
    | hollow => rw [this.2]; simp

theorem SimAt.gone {s : State R} {E : Env R} {ρ : Nat → Slot3 R} (h : SimAt s E ρ) {x : Nat} (hx : ¬ (E x).isSome = true) : ρ (var x) = .gone := by
  have := h.vals x
  cases e : E x with
  | none => rw [e] at this; exact this
  | some v => rw [e] at hx; simp at hx

theorem SimAt.mat {s : State R} {E : Env R} {ρ : Nat → Slot3 R} (h : SimAt s E ρ) {x r c : Nat} {f : Nat → Nat → Option R}
    (hx : E.mat x = some (r, c, f)) : ∃ n v k o, s.dim (var x) = ⟨r, c, n⟩ ∧ ρ (var x) = .held v k o ∧
      (SMat.sparse ⟨.col, Dim.mk' r c, v, k, o⟩).Stores r c f := by
  have := h.vals x
  unfold Env.mat at hx
  split at hx
  · rename_i r' c' n f' e
    cases hx
    rw [e] at this
    obtain ⟨hd, v, k, o, h1, h2⟩ := this
    exact ⟨n, v, k, o, hd, h1, h2⟩
  · cases hx

/-- A variable that was not moved from holds three arrays, and its value is whatever those arrays are. -/
theorem SimAt.val {s : State R} {E : Env R} {ρ : Nat → Slot3 R} (h : SimAt s E ρ) {x : Nat} {v : Val R} (hx : E.val x = some v) :
    E x = some v ∧ s.dim (var x) = ⟨v.r, v.c, v.n⟩ ∧ ∃ a k o, ρ (var x) = .held a k o ∧ ∀ (τ : Nat → Slot3 R) (dim' : Nat → Dim) (y : Nat),
      dim' (var y) = ⟨v.r, v.c, v.n⟩ → τ (var y) = .held a k o → ValOk τ dim' y (some v) := by
  have := h.vals x
  unfold Env.val at hx
  split at hx
  · cases hx
  · rename_i hn
    rw [hx] at this
    obtain ⟨r, c, n, d⟩ := v
    cases d with
    | stored f =>
      obtain ⟨hd, a, k, o, h1, h2⟩ := this
      exact ⟨hx, hd, a, k, o, h1, fun τ dim' y e1 e2 => ⟨e1, a, k, o, e2, h2⟩⟩
    | raw =>
      obtain ⟨hd, a, k, o, h1⟩ := this
      exact ⟨hx, hd, a, k, o, h1, fun τ dim' y e1 e2 => ⟨e1, a, k, o, e2⟩⟩
    | hollow => exact absurd hx (hn _ _ _)

theorem SimAt.put {s s' : State R} {E : Env R} {ρ τ : Nat → Slot3 R} (h : SimAt s E ρ) {x : Nat} {v : Option (Val R)} (hr : Rep3 s' τ)
    (hτ : ∀ z, z ≠ var x → τ z = ρ z) (hd : ∀ z, z ≠ x → s'.dim (var z) = s.dim (var z)) (hv : ValOk τ s'.dim x v) :
    SimAt s' (E.put x v) τ where
  rep := hr
  t0 := by rw [hτ _ (var_ne0 x).symm]; exact h.t0
  t1 := by rw [hτ _ (var_ne1 x).symm]; exact h.t1
  vals := by
    intro z
    by_cases hz : z = x
    · subst hz; simp only [Env.put, if_true]; exact hv
    · simp only [Env.put, if_neg hz]
      exact (h.vals z).congr (hτ _ (var_ne hz)) (hd z hz)

theorem SimAt.put2 {s s' : State R} {E : Env R} {ρ τ : Nat → Slot3 R} (h : SimAt s E ρ) {x y : Nat} {v u : Option (Val R)} (hr : Rep3 s' τ)
    (hτ : ∀ z, z ≠ var x → z ≠ var y → τ z = ρ z) (hd : ∀ z, z ≠ x → z ≠ y → s'.dim (var z) = s.dim (var z))
    (hv : x ≠ y → ValOk τ s'.dim x v) (hu : ValOk τ s'.dim y u) : SimAt s' ((E.put x v).put y u) τ where
  rep := hr
  t0 := by rw [hτ _ (var_ne0 x).symm (var_ne0 y).symm]; exact h.t0
  t1 := by rw [hτ _ (var_ne1 x).symm (var_ne1 y).symm]; exact h.t1
  vals := by
    intro z
    by_cases hy : z = y
    · subst hy; simp only [Env.put, if_true]; exact hu
    · by_cases hz : z = x
      · subst hz; simp only [Env.put, if_neg hy, if_true]; exact hv hy
      · simp only [Env.put, if_neg hz, if_neg hy]
        exact (h.vals z).congr (hτ _ (var_ne hz) (var_ne hy)) (hd z hz hy)

theorem new_eq {E E' : Env R} {x : Nat} {v : Val R} (h : E.new x v = some E') : ¬ (E x).isSome = true ∧ E' = E.put x (some v) := by
  unfold Env.new at h
  split at h
  · cases h
  · rename_i h0; cases h; exact ⟨h0, rfl⟩

theorem assign_eq {E E' : Env R} {x : Nat} {v : Val R} (h : E.assign x v = some E') : (E x).isSome = true ∧ E' = E.put x (some v) := by
  unfold Env.assign at h
  split at h
  · rename_i h0; cases h; exact ⟨h0, rfl⟩
  · cases h

theorem stores_eq {S : Sparse R} {r c : Nat} {f : Nat → Nat → Option R} (h : (SMat.sparse S).Stores r c f) :
    S = ⟨.col, Dim.mk' r c, S.value, S.key, S.offset⟩ ∧ S.key.length = S.value.length := by
  obtain ⟨ho, L, hL, -⟩ := h
  obtain ⟨ori, ⟨a, b, n⟩, v, k, o⟩ := S
  have h1 := hL.rows; have h2 := hL.cols; have h3 := hL.size
  simp at ho h1 h2 h3
  subst ho h1 h2 h3
  exact ⟨rfl, hL.keyLen⟩

/-- The last two steps of an expression statement: `x` is move-assigned from the temporary, which is destroyed. -/
theorem finish0 {s s1 : State R} {E : Env R} {ρ τ : Nat → Slot3 R} (h : SimAt s E ρ) (hr : Rep3 s1 τ) {C : Sparse R} {r c x : Nat}
    {f : Nat → Nat → Option R} (h0 : τ tmp0 = .held C.value C.key C.offset) (hd0 : s1.dim tmp0 = C.dim) (hC : (SMat.sparse C).Stores r c f)
    (hτ : ∀ z, z ≠ tmp0 → τ z = ρ z) (hd : ∀ z, s1.dim (var z) = s.dim (var z)) (hx : (E x).isSome = true) :
    ∃ s', (do let s ← s1.moveAssign (var x) tmp0; s.dtor3 tmp0) = .ok s' ∧ Sim s' (E.put x (some (.ofStored r c f))) := by
  have hx1 : τ (var x) ≠ .gone := by rw [hτ _ (var_ne0 x)]; exact h.live hx
  obtain ⟨s2, e2, r2, d2⟩ := hr.moveAssign hx1 h0 (var_ne0 x)
  obtain ⟨s3, e3, r3, d3⟩ := r2.dtor3 (x := tmp0) (by rw [upd_same]; simp)
  refine ⟨s3, by simp only [e2, bind_ok', e3], _, h.put r3 ?_ ?_ ?_⟩
  · intro z hz
    by_cases hz0 : z = tmp0
    · subst hz0; rw [upd_same, h.t0]
    · rw [upd_ne _ _ hz0, upd_ne _ _ hz0, upd_ne _ _ hz, hτ _ hz0]
  · intro z hz
    rw [d3, d2, upd_ne _ _ (var_ne hz)]; exact hd z
  · obtain ⟨e, -⟩ := stores_eq hC
    refine ⟨?_, C.value, C.key, C.offset, ?_, ?_⟩
    · rw [d3, d2, upd_same, hd0, e]; rfl
    · rw [upd_ne _ _ (var_ne0 x), upd_ne _ _ (var_ne0 x), upd_same]
    · rw [← e]; exact hC

/-- Sparse ± Sparse of stored elements. -/
theorem binop_keeps (op : R → R → R) (un : R → R) {A B : Sparse R} {r c : Nat} {f g : Nat → Nat → Option R}
    (hA : (SMat.sparse A).Stores r c f) (hB : (SMat.sparse B).Stores r c g) :
    ∃ D, Sparse.binop op un A B (Sparse.empty .col) = .ok D ∧ (SMat.sparse D).Stores r c (fun i j => joinStored op un (f i j) (g i j)) := by
  obtain ⟨hAo, LA, hA, hf⟩ := hA
  obtain ⟨hBo, LB, hB, hg⟩ := hB
  obtain ⟨D, e, h1, -, LD, h3, h4⟩ := Sparse.binop_stored op un (Sparse.empty .col) hA hB (hBo.trans hAo.symm) hAo.symm (by rw [hAo]; rfl)
  refine ⟨D, e, h1.trans hAo, LD, h3, fun i j hi hj => ?_⟩
  show joinStored op un (f i j) (g i j) = _
  rw [hf i j hi hj, hg i j hi hj, h1, hAo, hBo]
  exact (h4 j i hj).symm

theorem ofDense_keeps (chk : R → Bool) (r c : Nat) (f : Nat → Nat → R) :
    ∃ C, Sparse.ofDense chk id .col ⟨.col, Dim.mk' r c, (List.range (r * c)).map fun t => some (f (t % r) (t / r))⟩ = .ok C ∧
      (SMat.sparse C).Stores r c (fun i j => if chk (f i j) then some (f i j) else none) := by
  obtain ⟨C, e, h1, -, h3⟩ := Sparse.ofDense_sat chk id .col (Dense.ofFn_is .col r c f) rfl
  refine ⟨C, e, h1, _, h3, fun i j hi hj => ?_⟩
  rw [h1]
  show _ = storedAt (List.getD _ j []) i
  have e1 : (Sparse.picks chk id (Ori.col.elem f) (Ori.col.majorIx r c) (Ori.col.minorIx r c)).getD j [] = Sparse.pick chk id (Ori.col.elem f) r j := by
    simp [Sparse.picks, List.getD, hj, Ori.minorIx, Ori.majorIx]
  rw [e1, storedAt_pick]
  by_cases hz : chk (f i j) = true
  · simp [hz, hi, Ori.elem]
  · simp [hz, Ori.elem]

end BB.SProg
