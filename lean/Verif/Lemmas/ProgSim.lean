import Verif.SpecProg
import Verif.Lemmas.StorageRep
import Verif.Lemmas.DenseOps
import Verif.Lemmas.DenseMul
import Verif.Lemmas.Norm
import Verif.Props.Alias

/-!
# Simulation of programs over dense matrix variables by their mathematical reading
-/
namespace BB.Prog

open Own

variable {R : Type}

/-- The value of variable `x` in the machine. -/
def ValOk (σ : Nat → Slot R) (dim : Nat → Dim) (x : Nat) : Option (SpecProg.Val R) → Prop
  | none => σ (var x) = .gone
  | some (.mat r c f) => ∃ d fs, σ (var x) = .held d ∧ dim (var x) = ⟨r, c, fs⟩ ∧ Dense.Is ⟨.col, Dim.mk' r c, d⟩ r c f
  | some (.hollow r c) => σ (var x) = .hollow ∧ ∃ fs, dim (var x) = ⟨r, c, fs⟩

/-- The machine state represents the environment, with the storages `σ`. -/
structure SimAt (s : State R) (E : SpecProg.Env R) (σ : Nat → Slot R) : Prop where
  rep : Rep s.w σ
  t0 : σ tmp0 = .gone
  t1 : σ tmp1 = .gone
  lazy : s.lazy = E.lazy
  vals : ∀ x, ValOk σ s.dim x (E.vars x)

def Sim (s : State R) (E : SpecProg.Env R) : Prop := ∃ σ, SimAt s E σ

theorem var_inj {x y : Nat} : var x = var y ↔ x = y := by simp [var]
theorem var_ne0 (x : Nat) : var x ≠ tmp0 := by simp [var, tmp0]
theorem var_ne1 (x : Nat) : var x ≠ tmp1 := by simp [var, tmp1]

theorem ValOk.congr {σ τ : Nat → Slot R} {dim dim' : Nat → Dim} {x : Nat} {v : Option (SpecProg.Val R)}
    (h : ValOk σ dim x v) (hσ : τ (var x) = σ (var x)) (hd : dim' (var x) = dim (var x)) : ValOk τ dim' x v := by
  unfold ValOk at *
  rw [hσ, hd]; exact h

theorem SimAt.live {s : State R} {E : SpecProg.Env R} {σ : Nat → Slot R} (h : SimAt s E σ) {x : Nat}
    (hx : (E.vars x).isSome = true) : σ (var x) ≠ .gone := by
  have := h.vals x
  cases e : E.vars x with
  | none => rw [e] at hx; cases hx
  | some v =>
    rw [e] at this
    cases v with
    | mat r c f => obtain ⟨d, fs, h1, -⟩ := this; rw [h1]; simp
    | hollow r c => rw [this.1]; simp

theorem SimAt.gone {s : State R} {E : SpecProg.Env R} {σ : Nat → Slot R} (h : SimAt s E σ) {x : Nat}
    (hx : ¬ (E.vars x).isSome = true) : σ (var x) = .gone := by
  have := h.vals x
  cases e : E.vars x with
  | none => rw [e] at this; exact this
  | some v => rw [e] at hx; simp at hx

theorem SimAt.mat {s : State R} {E : SpecProg.Env R} {σ : Nat → Slot R} (h : SimAt s E σ) {x r c : Nat}
    {f : Nat → Nat → R} (hx : E.mat x = some (r, c, f)) :
    ∃ d fs, σ (var x) = .held d ∧ s.dim (var x) = ⟨r, c, fs⟩ ∧ Dense.Is ⟨.col, Dim.mk' r c, d⟩ r c f := by
  have := h.vals x
  unfold SpecProg.Env.mat at hx
  cases e : E.vars x with
  | none => rw [e] at hx; cases hx
  | some v =>
    rw [e] at this hx
    cases v with
    | mat r c f => simp at hx; obtain ⟨rfl, rfl, rfl⟩ := hx; exact this
    | hollow r c => simp at hx

/-- Reading an object as a value. -/
theorem deref_held {s : State R} {σ : Nat → Slot R} (h : Rep s.w σ) {x : Nat} {d : Buf R} (hx : σ x = .held d) :
    s.deref x = .ok ⟨.col, s.dim x, d⟩ := by
  obtain ⟨o, h1, -, h3⟩ := h.held hx
  simp only [State.deref, get_ok h1, bind_ok', h3, pure_ok']

/-- Storing a computed array of the right length whose cells are all initialised. -/
theorem writeCells_ok {w : World R} {σ : Nat → Slot R} (h : Rep w σ) {x : Nat} {d e : Buf R} (hx : σ x = .held e)
    (hl : e.length = d.length) (hd : ∀ i, i < d.length → ∃ v, d[i]? = some (some v)) :
    ∃ w', writeCells x d w = .ok w' ∧ Rep w' (put σ x (.held d)) := by
  have key : ∀ n, n ≤ d.length → ∃ w', loopN n (fun i w =>
      match d[i]? with
      | some (some v) => Own.step w (.write x i v)
      | _ => .ok w) w = .ok w' ∧ Rep w' (put σ x (.held (d.take n ++ e.drop n))) := by
    intro n
    induction n with
    | zero =>
      intro _
      refine ⟨w, rfl, h.congr fun z => ?_⟩
      by_cases hz : z = x
      · subst hz; simp [put, hx]
      · simp [put, upd_ne _ _ hz]
    | succ n ih =>
      intro hn
      obtain ⟨w1, e1, r1⟩ := ih (by omega)
      obtain ⟨v, hv⟩ := hd n (by omega)
      obtain ⟨w2, e2, r2⟩ := r1.write (x := x) (i := n) v (upd_same _ _ _)
        (by rw [List.length_append, List.length_take, List.length_drop]; omega)
      refine ⟨w2, ?_, r2.congr fun z => ?_⟩
      · simp only [loopN, e1, hv]
        exact e2
      · by_cases hz : z = x
        · subst hz
          simp only [put, upd_same]
          congr 1
          apply List.ext_getElem?
          intro i
          have hn' : n < d.length := by omega
          rw [List.getElem?_set, List.length_append, List.length_take, List.length_drop]
          rw [List.getElem?_append, List.getElem?_append]
          simp only [List.length_take, List.getElem?_take, List.getElem?_drop]
          by_cases h1 : n = i
          · subst h1
            have : n < min n d.length + (e.length - n) := by omega
            have hv' := (List.getElem?_eq_some_iff.1 hv).2
            simp [this, hn', hv']
          · simp only [h1, if_false]
            by_cases h2 : i < n
            · have a1 : i < min n d.length := by omega
              have a2 : i < min (n + 1) d.length := by omega
              have a3 : i < n + 1 := by omega
              simp [a1, a2, h2, a3]
            · have a1 : ¬ i < min n d.length := by omega
              have a2 : ¬ i < min (n + 1) d.length := by omega
              simp only [a1, a2, if_false]
              congr 1; omega
        · simp [put, upd_ne _ _ hz]
  obtain ⟨w', e1, r1⟩ := key d.length (le_refl _)
  refine ⟨w', e1, r1.congr fun z => ?_⟩
  by_cases hz : z = x
  · subst hz; simp [put, hl]
  · simp [put, upd_ne _ _ hz]

/-- The cells of a fully defined matrix are initialised. -/
theorem is_init {o : Ori} {r c : Nat} {dm : Dim} {d : Buf R} {f : Nat → Nat → R} (h : Dense.Is ⟨o, dm, d⟩ r c f) :
    ∀ i, i < d.length → ∃ v, d[i]? = some (some v) := by
  intro i hi
  have := Buf.read_ok.1 (h.raw (t := i) (by rw [← h.alloc]; exact hi))
  exact ⟨_, this⟩

theorem is_dim {o : Ori} {r c : Nat} {A : Dense R} {f : Nat → Nat → R} (h : A.Is r c f) (ho : A.ori = o) :
    A = ⟨o, Dim.mk' r c, A.data⟩ := by
  obtain ⟨ori, dm, d⟩ := A
  obtain ⟨a, b, fs⟩ := dm
  have h1 := h.rows; have h2 := h.cols; have h3 := h.size
  simp at h1 h2 h3 ho
  subst h1 h2 h3 ho
  rfl

/-- A computed matrix becomes the contents of a live object that owns its memory. -/
theorem fillIn_ok {s : State R} {σ : Nat → Slot R} (h : Rep s.w σ) {t r c : Nat} {e : Buf R} (ht : σ t = .held e)
    {C : Dense R} {f : Nat → Nat → R} (hC : C.Is r c f) :
    ∃ w', s.fillIn t C = .ok { s with w := w', dim := upd s.dim t C.dim } ∧ Rep w' (put σ t (.held C.data)) := by
  obtain ⟨w1, e1, r1⟩ := h.resize C.data.length ht
  obtain ⟨w2, e2, r2⟩ := writeCells_ok (d := C.data) r1 (x := t) (upd_same _ _ _)
    (Dense.length_resizeBuf _ _) (is_init (o := C.ori) (dm := C.dim) (f := f) hC)
  refine ⟨w2, ?_, r2.congr fun z => ?_⟩
  · simp only [State.fillIn, State.store, e1, bind_ok', pure_ok', State.writeAll, e2]
  · by_cases hz : z = t
    · subst hz; simp [put]
    · simp [put, upd_ne _ _ hz]


/-! ## One statement -/

/-- The environment after one variable got a new matrix. -/
theorem SimAt.putMat {s : State R} {E : SpecProg.Env R} {σ : Nat → Slot R} (h : SimAt s E σ) {w' : World R}
    {dim' : Nat → Dim} {σ' : Nat → Slot R} {x r c fs : Nat} {f : Nat → Nat → R} {d : Buf R} (hr : Rep w' σ')
    (hσ : ∀ z, z ≠ var x → σ' z = σ z) (hx : σ' (var x) = .held d)
    (hd : ∀ z, z ≠ x → dim' (var z) = s.dim (var z)) (hdx : dim' (var x) = ⟨r, c, fs⟩)
    (hI : Dense.Is ⟨.col, Dim.mk' r c, d⟩ r c f) :
    SimAt ⟨w', dim', s.lazy⟩ (E.put x (some (.mat r c f))) σ' where
  rep := hr
  t0 := by rw [hσ _ (var_ne0 x).symm]; exact h.t0
  t1 := by rw [hσ _ (var_ne1 x).symm]; exact h.t1
  lazy := h.lazy
  vals := by
    intro z
    by_cases hz : z = x
    · subst hz
      simp only [SpecProg.Env.put, if_true]
      exact ⟨d, fs, hx, hdx, hI⟩
    · simp only [SpecProg.Env.put, if_neg hz]
      exact (h.vals z).congr (hσ _ (fun hc => hz (var_inj.1 hc))) (hd z hz)

/-- The environment after one variable was moved from or destroyed. -/
theorem SimAt.putOff {s : State R} {E : SpecProg.Env R} {σ : Nat → Slot R} (h : SimAt s E σ) {w' : World R}
    {σ' : Nat → Slot R} {x : Nat} {v : Option (SpecProg.Val R)} (hr : Rep w' σ')
    (hσ : ∀ z, z ≠ var x → σ' z = σ z) (hv : ValOk σ' s.dim x v) :
    SimAt ⟨w', s.dim, s.lazy⟩ (E.put x v) σ' where
  rep := hr
  t0 := by rw [hσ _ (var_ne0 x).symm]; exact h.t0
  t1 := by rw [hσ _ (var_ne1 x).symm]; exact h.t1
  lazy := h.lazy
  vals := by
    intro z
    by_cases hz : z = x
    · subst hz; simp only [SpecProg.Env.put, if_true]; exact hv
    · simp only [SpecProg.Env.put, if_neg hz]
      exact (h.vals z).congr (hσ _ (fun hc => hz (var_inj.1 hc))) rfl

theorem new_eq {E E' : SpecProg.Env R} {x r c : Nat} {f : Nat → Nat → R} (h : E.new x r c f = some E') :
    ¬ (E.vars x).isSome = true ∧ E' = E.put x (some (.mat r c f)) := by
  unfold SpecProg.Env.new at h
  split at h
  · cases h
  · rename_i h0; cases h; exact ⟨h0, rfl⟩

theorem assign_eq {E E' : SpecProg.Env R} {x r c : Nat} {f : Nat → Nat → R} (h : E.assign x r c f = some E') :
    (E.vars x).isSome = true ∧ E' = E.put x (some (.mat r c f)) := by
  unfold SpecProg.Env.assign at h
  split at h
  · rename_i h0; cases h; exact ⟨h0, rfl⟩
  · cases h

theorem put_ne {σ : Nat → Slot R} {x z : Nat} {v : Slot R} (h : z ≠ x) : put σ x v z = σ z := upd_ne _ _ h
theorem put_same {σ : Nat → Slot R} {x : Nat} {v : Slot R} : put σ x v x = v := upd_same _ _ _

/-- The last two steps of an expression statement: `x` is move-assigned from the temporary, which is destroyed. -/
theorem finish0 {s s1 : State R} {E : SpecProg.Env R} {σ σ1 : Nat → Slot R} (h : SimAt s E σ) (hr : Rep s1.w σ1)
    {C : Dense R} {r c x : Nat} {f : Nat → Nat → R} (h0 : σ1 tmp0 = .held C.data) (hd0 : s1.dim tmp0 = C.dim)
    (hC : C.Is r c f) (hCo : C.ori = .col) (hσ : ∀ z, z ≠ tmp0 → σ1 z = σ z)
    (hd : ∀ z, s1.dim (var z) = s.dim (var z)) (hl : s1.lazy = s.lazy) (hx : (E.vars x).isSome = true) :
    ∃ s', (do let s ← s1.moveAssign (var x) tmp0; s.data (.dtor tmp0)) = .ok s' ∧
      Sim s' (E.put x (some (.mat r c f))) := by
  have hx1 : σ1 (var x) ≠ .gone := by rw [hσ _ (var_ne0 x)]; exact h.live hx
  obtain ⟨w2, e2, r2⟩ := hr.moveAssign hx1 h0 (var_ne0 x)
  obtain ⟨w3, e3, r3⟩ := r2.dtor (x := tmp0) (by rw [put_same]; simp)
  refine ⟨⟨w3, upd s1.dim (var x) (s1.dim tmp0), s1.lazy⟩, ?_,
    put (put (put σ1 (var x) (.held C.data)) tmp0 .hollow) tmp0 .gone, ?_⟩
  · simp only [State.moveAssign, State.store, e2, bind_ok', pure_ok', State.data, e3]
  · have hI : Dense.Is ⟨.col, Dim.mk' r c, C.data⟩ r c f := by rw [← is_dim hC hCo]; exact hC
    rw [hl]
    refine h.putMat (fs := C.dim.fullSize) r3 ?_ ?_ ?_ ?_ hI
    · intro z hz
      by_cases hz0 : z = tmp0
      · subst hz0; rw [put_same, h.t0]
      · rw [put_ne hz0, put_ne hz0, put_ne hz, hσ _ hz0]
    · rw [put_ne (var_ne0 x), put_ne (var_ne0 x), put_same]
    · intro z hz
      rw [upd_ne _ _ (fun hc => hz (var_inj.1 hc))]; exact hd z
    · rw [upd_same, hd0, is_dim hC hCo]; rfl


/-- The dimension member `full_size_` has no influence on an operation's result. -/
theorem deref_mat {s : State R} {σ : Nat → Slot R} (hr : Rep s.w σ) {x r c fs : Nat} {d : Buf R} (hx : σ x = .held d)
    (hd : s.dim x = ⟨r, c, fs⟩) : s.deref x = .ok ⟨.col, ⟨r, c, fs⟩, d⟩ := by rw [deref_held hr hx, hd]

/-! Each step of a statement produces some state with known parts. -/

theorem store_ex {s : State R} {op : Op R} {σ' : Nat → Slot R} (x : Nat) (d : Dim)
    (h : ∃ w', Own.step s.w op = .ok w' ∧ Rep w' σ') :
    ∃ s1, s.store op x d = .ok s1 ∧ Rep s1.w σ' ∧ s1.dim = upd s.dim x d ∧ s1.lazy = s.lazy := by
  obtain ⟨w', e, hr⟩ := h
  exact ⟨⟨w', upd s.dim x d, s.lazy⟩, by simp only [State.store, e, bind_ok', pure_ok'], hr, rfl, rfl⟩

theorem data_ex {s : State R} {op : Op R} {σ' : Nat → Slot R} (h : ∃ w', Own.step s.w op = .ok w' ∧ Rep w' σ') :
    ∃ s1, s.data op = .ok s1 ∧ Rep s1.w σ' ∧ s1.dim = s.dim ∧ s1.lazy = s.lazy := by
  obtain ⟨w', e, hr⟩ := h
  exact ⟨⟨w', s.dim, s.lazy⟩, by simp only [State.data, e, bind_ok', pure_ok'], hr, rfl, rfl⟩

theorem fillIn_ex {s : State R} {σ : Nat → Slot R} (h : Rep s.w σ) {t r c : Nat} {e : Buf R} (ht : σ t = .held e)
    {C : Dense R} {f : Nat → Nat → R} (hC : C.Is r c f) :
    ∃ s1, s.fillIn t C = .ok s1 ∧ Rep s1.w (put σ t (.held C.data)) ∧ s1.dim = upd s.dim t C.dim ∧ s1.lazy = s.lazy := by
  obtain ⟨w', e, hr⟩ := fillIn_ok h ht hC
  exact ⟨_, e, hr, rfl, rfl⟩

theorem writeAll_ex {s : State R} {σ : Nat → Slot R} (h : Rep s.w σ) {t : Nat} {d e : Buf R} (ht : σ t = .held e)
    (hl : e.length = d.length) (hd : ∀ i, i < d.length → ∃ v, d[i]? = some (some v)) :
    ∃ s1, s.writeAll t d = .ok s1 ∧ Rep s1.w (put σ t (.held d)) ∧ s1.dim = s.dim ∧ s1.lazy = s.lazy := by
  obtain ⟨w', e, hr⟩ := writeCells_ok h ht hl hd
  exact ⟨⟨w', s.dim, s.lazy⟩, by simp only [State.writeAll, e, bind_ok', pure_ok'], hr, rfl, rfl⟩

theorem sim_moved {s s1 : State R} {E : SpecProg.Env R} {σ : Nat → Slot R} (h : SimAt s E σ) {x y r c fy : Nat}
    {f : Nat → Nat → R} {dy : Buf R} (hxy : x ≠ y) (y2 : s.dim (var y) = ⟨r, c, fy⟩)
    (y3 : Dense.Is ⟨.col, Dim.mk' r c, dy⟩ r c f)
    (r1 : Rep s1.w (put (put σ (var x) (.held dy)) (var y) .hollow)) (d1 : s1.dim = upd s.dim (var x) (s.dim (var y)))
    (l1 : s1.lazy = s.lazy) :
    SimAt s1 ((E.put x (some (.mat r c f))).put y (some (.hollow r c))) (put (put σ (var x) (.held dy)) (var y) .hollow) := by
  have hxy' : var x ≠ var y := fun hc => hxy (var_inj.1 hc)
  refine ⟨r1, ?_, ?_, l1.trans h.lazy, ?_⟩
  · rw [put_ne (var_ne0 y).symm, put_ne (var_ne0 x).symm]; exact h.t0
  · rw [put_ne (var_ne1 y).symm, put_ne (var_ne1 x).symm]; exact h.t1
  · intro z
    by_cases hzy : z = y
    · subst hzy
      simp only [SpecProg.Env.put, if_true]
      exact ⟨put_same, fy, by rw [d1, upd_ne _ _ hxy'.symm]; exact y2⟩
    · have hzy' : var z ≠ var y := fun hc => hzy (var_inj.1 hc)
      by_cases hzx : z = x
      · subst hzx
        simp only [SpecProg.Env.put, if_neg hzy, if_true]
        exact ⟨dy, fy, by rw [put_ne hzy', put_same], by rw [d1, upd_same]; exact y2, y3⟩
      · have hzx' : var z ≠ var x := fun hc => hzx (var_inj.1 hc)
        simp only [SpecProg.Env.put, if_neg hzy, if_neg hzx]
        exact (h.vals z).congr (by rw [put_ne hzy', put_ne hzx']) (by rw [d1, upd_ne _ _ hzx'])

section
variable [Zero R] [Add R] [Mul R]

theorem sim_mul {s : State R} {E E' : SpecProg.Env R} (h : Sim s E) {x y z : Nat} (he : E.mul x y z = some E') :
    ∃ s', s.mul (var x) (var y) (var z) = .ok s' ∧ Sim s' E' := by
  obtain ⟨σ, h⟩ := h
  unfold SpecProg.Env.mul at he
  split at he
  · rename_i r k f k' c g hy hz
    split at he
    · rename_i hk; subst hk
      obtain ⟨hx, rfl⟩ := assign_eq he
      obtain ⟨dy, fy, y1, y2, y3⟩ := h.mat hy
      obtain ⟨dz, fz, z1, z2, z3⟩ := h.mat hz
      obtain ⟨s1, e1, r1, d1, l1⟩ := store_ex tmp0 (Dim.mk' 0 0) (h.rep.dflt h.t0)
      obtain ⟨s2, e2, r2, d2, l2⟩ := store_ex tmp1 (Dim.mk' 0 0) (r1.dflt (x := tmp1) (by rw [put_ne (by decide)]; exact h.t1))
      have rd2 : ∀ v, s2.dim (var v) = s.dim (var v) := fun v => by
        rw [d2, d1, upd_ne _ _ (var_ne1 v), upd_ne _ _ (var_ne0 v)]
      have dy2 := deref_mat (s := s2) r2
        (by rw [put_ne (var_ne1 y), put_ne (var_ne0 y)]; exact y1) ((rd2 y).trans y2)
      have dz2 := deref_mat (s := s2) r2
        (by rw [put_ne (var_ne1 z), put_ne (var_ne0 z)]; exact z1) ((rd2 z).trans z2)
      obtain ⟨C, eC, hCo, hC⟩ := Dense.mulGeneral_sat (Dense.empty .col) y3 z3 rfl rfl rfl
      have eC' : Dense.mulGeneral ⟨.col, ⟨r, k, fy⟩, dy⟩ ⟨.col, ⟨k, c, fz⟩, dz⟩ (Dense.empty .col) = .ok C := eC
      obtain ⟨s3, e3, r3, d3, l3⟩ := fillIn_ex r2 (t := tmp1) put_same hC
      obtain ⟨s4, e4, r4, d4, l4⟩ := store_ex tmp0 (s3.dim tmp1) (r3.moveAssign (x := tmp0) (y := tmp1)
        (by rw [put_ne (by decide), put_ne (by decide), put_same]; simp) put_same (by decide))
      obtain ⟨s5, e5, r5, d5, l5⟩ := data_ex (r4.dtor (x := tmp1) (by rw [put_same]; simp))
      obtain ⟨s', e', hs'⟩ := finish0 (s1 := s5) (C := C) (x := x) h r5
        (by rw [put_ne (by decide), put_ne (by decide), put_same]) (by rw [d5, d4, upd_same, d3, upd_same]) hC hCo
        (by
          intro v hv
          by_cases h1 : v = tmp1
          · subst h1; rw [put_same, h.t1]
          · rw [put_ne h1, put_ne h1, put_ne hv, put_ne h1, put_ne h1, put_ne hv])
        (by intro v; rw [d5, d4, d3, upd_ne _ _ (var_ne0 v), upd_ne _ _ (var_ne1 v)]; exact rd2 v)
        (by rw [l5, l4, l3, l2, l1]) hx
      refine ⟨s', ?_, hs'⟩
      unfold State.mul
      simp only [e1, e2, bind_ok', dy2, dz2, eC', e3]
      unfold State.moveAssign at *
      simp only [e4, e5, bind_ok']
      exact e'
    · cases he
  · cases he

theorem sim_bin (op : R → R → R) {s : State R} {E E' : SpecProg.Env R} (h : Sim s E) {x y z : Nat}
    (he : SpecProg.step E (.bin op x y z) = some E') : ∃ s', step s (.bin op x y z) = .ok s' ∧ Sim s' E' := by
  obtain ⟨σ, h⟩ := h
  simp only [SpecProg.step] at he
  split at he
  · rename_i r c f r' c' g hy hz
    split at he
    · rename_i hk; obtain ⟨rfl, rfl⟩ := hk
      obtain ⟨hx, rfl⟩ := assign_eq he
      obtain ⟨dy, fy, y1, y2, y3⟩ := h.mat hy
      obtain ⟨dz, fz, z1, z2, z3⟩ := h.mat hz
      obtain ⟨s1, e1, r1, d1, l1⟩ := store_ex tmp0 (Dim.mk' 0 0) (h.rep.dflt h.t0)
      have rd1 : ∀ v, s1.dim (var v) = s.dim (var v) := fun v => by rw [d1, upd_ne _ _ (var_ne0 v)]
      have dy1 := deref_mat (s := s1) r1 (by rw [put_ne (var_ne0 y)]; exact y1) ((rd1 y).trans y2)
      have dz1 := deref_mat (s := s1) r1 (by rw [put_ne (var_ne0 z)]; exact z1) ((rd1 z).trans z2)
      obtain ⟨C, eC, hCo, hC⟩ := Dense.binop_sat op (Dense.empty .col) y3 z3 rfl rfl
      have eC' : Dense.binop op ⟨.col, ⟨r, c, fy⟩, dy⟩ ⟨.col, ⟨r, c, fz⟩, dz⟩ (Dense.empty .col) = .ok C := eC
      obtain ⟨s3, e3, r3, d3, l3⟩ := fillIn_ex r1 (t := tmp0) put_same hC
      obtain ⟨s', e', hs'⟩ := finish0 (s1 := s3) (C := C) (x := x) h r3
        put_same (by rw [d3, upd_same]) hC hCo
        (by intro v hv; rw [put_ne hv, put_ne hv])
        (by intro v; rw [d3, upd_ne _ _ (var_ne0 v)]; exact rd1 v)
        (by rw [l3, l1]) hx
      refine ⟨s', ?_, hs'⟩
      simp only [step, e1, bind_ok', dy1, dz1, eC', e3]
      exact e'
    · cases he
  · cases he

theorem sim_trans {s : State R} {E E' : SpecProg.Env R} (h : Sim s E) {x y : Nat}
    (he : SpecProg.step E (.trans x y) = some E') : ∃ s', step s (.trans x y) = .ok s' ∧ Sim s' E' := by
  obtain ⟨σ, h⟩ := h
  simp only [SpecProg.step] at he
  split at he
  · rename_i r c f hy
    obtain ⟨hx, rfl⟩ := assign_eq he
    obtain ⟨dy, fy, y1, y2, y3⟩ := h.mat hy
    have dy1 := deref_mat h.rep y1 y2
    obtain ⟨T, eT, hTo, hT⟩ := Dense.transpose_sat y3
    have eT' : Dense.transpose ⟨.col, ⟨r, c, fy⟩, dy⟩ = .ok T := eT
    obtain ⟨s1, e1, r1, d1, l1⟩ := store_ex tmp0 T.dim (h.rep.size T.data.length h.t0)
    obtain ⟨s2, e2, r2, d2, l2⟩ := writeAll_ex (d := T.data) r1 (t := tmp0) put_same (by rw [Buf.length_alloc])
      (is_init (o := T.ori) (dm := T.dim) hT)
    obtain ⟨s', e', hs'⟩ := finish0 (s1 := s2) (C := T) (x := x) h r2
      put_same (by rw [d2, d1, upd_same]) hT hTo
      (by intro v hv; rw [put_ne hv, put_ne hv])
      (by intro v; rw [d2, d1, upd_ne _ _ (var_ne0 v)])
      (by rw [l2, l1]) hx
    refine ⟨s', ?_, hs'⟩
    simp only [step, dy1, bind_ok', eT', e1, e2]
    exact e'
  · cases he

theorem sim_inplace (op : R → R → R) {s : State R} {E E' : SpecProg.Env R} (h : Sim s E) {x y : Nat}
    (he : SpecProg.step E (.inplace op x y) = some E') : ∃ s', step s (.inplace op x y) = .ok s' ∧ Sim s' E' := by
  obtain ⟨σ, h⟩ := h
  simp only [SpecProg.step] at he
  split at he
  · rename_i r c f r' c' g hx hy
    split at he
    · rename_i hk; obtain ⟨rfl, rfl⟩ := hk
      obtain ⟨hl, rfl⟩ := assign_eq he
      obtain ⟨dx, fx, x1, x2, x3⟩ := h.mat hx
      obtain ⟨dy, fy, y1, y2, y3⟩ := h.mat hy
      have key : ∃ D : Dense R, (if x = y then Alias.assignSelf op ⟨.col, ⟨r, c, fx⟩, dx⟩ else do
          let B ← s.deref (var y)
          Dense.binassign op ⟨.col, ⟨r, c, fx⟩, dx⟩ B) = .ok D ∧
          Dense.Is ⟨.col, Dim.mk' r c, D.data⟩ r c (fun i j => op (f i j) (g i j)) := by
        by_cases hxy : x = y
        · subst hxy
          rw [hx] at hy; obtain ⟨rfl⟩ : f = g := by simpa using hy
          obtain ⟨D, e, ho, hD⟩ := Alias.C72_self op x3
          refine ⟨{ D with dim := ⟨r, c, fx⟩ }, ?_, ?_⟩
          · rw [if_pos rfl]
            have e' : ((Alias.assignSelf op ⟨.col, Dim.mk' r c, dx⟩).map (fun D => { D with dim := ⟨r, c, fx⟩ })) =
                Alias.assignSelf op ⟨.col, ⟨r, c, fx⟩, dx⟩ := by
              unfold Alias.assignSelf
              cases (ptrLoop 0 dx.length 1 (fun p (s : Nat × Buf R) => do
                let a ← s.2.read p
                let b ← s.2.read s.1
                let d ← s.2.write p (op a b)
                return (s.1 + 1, d)) (0, dx)) <;> rfl
            rw [← e', e]; rfl
          · show Dense.Is ⟨.col, Dim.mk' r c, D.data⟩ r c _
            rw [← is_dim hD ho]; exact hD
        · rw [if_neg hxy, deref_mat h.rep y1 y2, bind_ok']
          obtain ⟨D, e, ho, hD⟩ := Dense.binassign_sat op x3 y3 rfl
          refine ⟨{ D with dim := ⟨r, c, fx⟩ }, ?_, ?_⟩
          · have e' : ((Dense.binassign op ⟨.col, Dim.mk' r c, dx⟩ ⟨.col, Dim.mk' r c, dy⟩).map (fun D => { D with dim := ⟨r, c, fx⟩ })) =
                Dense.binassign op ⟨.col, ⟨r, c, fx⟩, dx⟩ ⟨.col, ⟨r, c, fy⟩, dy⟩ := by
              unfold Dense.binassign
              show Except.map _ (_ >>= _) = _ >>= _
              generalize (ptrLoop _ _ _ _ _ : Res (Nat × Buf R)) = q
              cases q <;> rfl
            rw [← e', e]; rfl
          · show Dense.Is ⟨.col, Dim.mk' r c, D.data⟩ r c _
            rw [← is_dim hD ho]; exact hD
      obtain ⟨D, eD, hD⟩ := key
      obtain ⟨s1, e1, r1, d1, l1⟩ := writeAll_ex (d := D.data) h.rep x1 (x3.alloc.trans hD.alloc.symm) (is_init hD)
      refine ⟨s1, ?_, put σ (var x) (.held D.data), ?_⟩
      · simp only [step, deref_mat h.rep x1 x2, bind_ok']
        by_cases hxy : x = y
        · rw [if_pos hxy] at eD ⊢; rw [eD]; exact e1
        · rw [if_neg hxy, deref_mat h.rep y1 y2, bind_ok'] at eD ⊢; rw [eD]; exact e1
      · have := h.putMat (dim' := s1.dim) r1 (fun z hz => put_ne hz) put_same (fun z _ => by rw [d1]) (by rw [d1]; exact x2) hD
        rw [← l1] at this; exact this
    · cases he
  · cases he

/-- A statement that the language's rules allow does not fail, and has the effect the rules describe. -/
theorem sim_step {s : State R} {E E' : SpecProg.Env R} (h : Sim s E) (t : Stmt R) (he : SpecProg.step E t = some E') :
    ∃ s', step s t = .ok s' ∧ Sim s' E' := by
  cases t with
  | bin op x y z => exact sim_bin op h he
  | inplace op x y => exact sim_inplace op h he
  | mul x y z => exact sim_mul h he
  | trans x y => exact sim_trans h he
  | eval x p =>
    simp only [SpecProg.step] at he
    split at he
    · rename_i y z hp
      obtain ⟨s', e, hs⟩ := sim_mul h he
      obtain ⟨σ, h⟩ := h
      exact ⟨s', by simp only [step, h.lazy, hp]; exact e, hs⟩
    · cases he
  | decl x =>
    obtain ⟨σ, h⟩ := h
    obtain ⟨hx, rfl⟩ := new_eq he
    obtain ⟨s1, e1, r1, d1, l1⟩ := store_ex (var x) (Dim.mk' 0 0) (h.rep.dflt (h.gone hx))
    refine ⟨s1, e1, put σ (var x) (.held []), ?_⟩
    have := h.putMat (dim' := s1.dim) (r := 0) (c := 0) (f := fun _ _ => (0 : R)) r1 (fun z hz => put_ne hz) put_same
      (fun z hz => by rw [d1, upd_ne _ _ (fun hc => hz (var_inj.1 hc))]) (by rw [d1, upd_same]; rfl)
      (Dense.is_mk rfl (fun i j hi => absurd hi (Nat.not_lt_zero _)))
    rw [← l1] at this; exact this
  | new x r c v =>
    obtain ⟨σ, h⟩ := h
    obtain ⟨hx, rfl⟩ := new_eq he
    obtain ⟨s1, e1, r1, d1, l1⟩ := store_ex (var x) (Dim.mk' r c) (h.rep.size (r * c) (h.gone hx))
    obtain ⟨s2, e2, r2, d2, l2⟩ := data_ex (r1.fill v put_same)
    refine ⟨s2, by simp only [step, e1, bind_ok']; exact e2, put (put σ (var x) (.held (Buf.alloc (r * c)))) (var x)
      (.held (List.replicate (List.length (Buf.alloc (r * c) : Buf R)) (some v))), ?_⟩
    have := h.putMat (dim' := s2.dim) (r := r) (c := c) (f := fun _ _ => v) r2
      (fun z hz => by rw [put_ne hz, put_ne hz]) put_same
      (fun z hz => by rw [d2, d1, upd_ne _ _ (fun hc => hz (var_inj.1 hc))]) (by rw [d2, d1, upd_same]; rfl)
      (Dense.is_mk (by rw [List.length_replicate, Buf.length_alloc]) (by rw [Buf.length_alloc]; exact Dense.replicate_cells _ _ _ _))
    rw [← l1, ← l2] at this; exact this
  | copyNew x y =>
    obtain ⟨σ, h⟩ := h
    simp only [SpecProg.step] at he
    split at he
    · rename_i r c f hy
      obtain ⟨hx, rfl⟩ := new_eq he
      obtain ⟨dy, fy, y1, y2, y3⟩ := h.mat hy
      obtain ⟨s1, e1, r1, d1, l1⟩ := store_ex (var x) (s.dim (var y)) (h.rep.copy (h.gone hx) y1)
      refine ⟨s1, e1, ?_⟩
      have := h.putMat (dim' := s1.dim) r1 (fun z hz => put_ne hz) put_same
        (fun z hz => by rw [d1, upd_ne _ _ (fun hc => hz (var_inj.1 hc))]) (by rw [d1, upd_same]; exact y2) y3
      rw [← l1] at this; exact ⟨_, this⟩
    · cases he
  | assign x y =>
    obtain ⟨σ, h⟩ := h
    simp only [SpecProg.step] at he
    split at he
    · rename_i r c f hy
      obtain ⟨hx, rfl⟩ := assign_eq he
      obtain ⟨dy, fy, y1, y2, y3⟩ := h.mat hy
      obtain ⟨s1, e1, r1, d1, l1⟩ := store_ex (var x) (s.dim (var y)) (h.rep.assign (h.live hx) y1)
      refine ⟨s1, e1, ?_⟩
      have := h.putMat (dim' := s1.dim) r1 (fun z hz => put_ne hz) put_same
        (fun z hz => by rw [d1, upd_ne _ _ (fun hc => hz (var_inj.1 hc))]) (by rw [d1, upd_same]; exact y2) y3
      rw [← l1] at this; exact ⟨_, this⟩
    · cases he
  | moveNew x y =>
    obtain ⟨σ, h⟩ := h
    simp only [SpecProg.step] at he
    split at he
    · rename_i r c f hy
      obtain ⟨E1, h1, rfl⟩ := Option.map_eq_some_iff.1 he
      obtain ⟨hx, rfl⟩ := new_eq h1
      obtain ⟨dy, fy, y1, y2, y3⟩ := h.mat hy
      have hxy : x ≠ y := by
        intro hc; subst hc
        rw [h.gone hx] at y1; cases y1
      obtain ⟨s1, e1, r1, d1, l1⟩ := store_ex (var x) (s.dim (var y)) (h.rep.move (h.gone hx) y1)
      refine ⟨s1, e1, put (put σ (var x) (.held dy)) (var y) .hollow, ?_⟩
      exact sim_moved h hxy y2 y3 r1 d1 l1
    · cases he
  | move x y =>
    obtain ⟨σ, h⟩ := h
    simp only [SpecProg.step] at he
    split at he
    · rename_i r c f hy
      split at he
      · cases he
      · rename_i hxy
        obtain ⟨E1, h1, rfl⟩ := Option.map_eq_some_iff.1 he
        obtain ⟨hx, rfl⟩ := assign_eq h1
        obtain ⟨dy, fy, y1, y2, y3⟩ := h.mat hy
        obtain ⟨s1, e1, r1, d1, l1⟩ := store_ex (var x) (s.dim (var y)) (h.rep.moveAssign (h.live hx) y1
          (fun hc => hxy (var_inj.1 hc)))
        refine ⟨s1, e1, put (put σ (var x) (.held dy)) (var y) .hollow, ?_⟩
        exact sim_moved h hxy y2 y3 r1 d1 l1
    · cases he
  | set x i j v =>
    obtain ⟨σ, h⟩ := h
    simp only [SpecProg.step] at he
    split at he
    · rename_i r c f hx
      split at he
      · rename_i hij
        obtain ⟨hl, rfl⟩ := assign_eq he
        obtain ⟨dx, fx, x1, x2, x3⟩ := h.mat hx
        have hfit := x3.fits
        obtain ⟨d', ew, hl', hc', -⟩ := x3.cells.write hfit v hij.1 hij.2
        have hb := hfit.bound i j hij.1 hij.2
        have ew' : d' = dx.set ((View.plain .col r c).pos i j) (some v) := by
          have e := ew
          unfold Buf.write at e
          rw [if_pos hb] at e
          cases e
          show dx.set (0 + _) _ = _
          rw [Nat.zero_add]; rfl
        have hb' : (View.plain .col r c).pos i j < dx.length := by
          have : 0 + (View.plain .col r c).pos i j < dx.length := hb
          omega
        obtain ⟨s1, e1, r1, d1, l1⟩ := data_ex (h.rep.write v x1 hb')
        refine ⟨s1, by simp only [step, x2, hij.1, hij.2, decide_true, assertThat]; exact e1, ?_⟩
        have := h.putMat (dim' := s1.dim) (r := r) (c := c) (f := fun k l => if k = i ∧ l = j then v else f k l) r1
          (fun z hz => put_ne hz) put_same (fun z hz => by rw [d1]) (by rw [d1]; exact x2)
          (Dense.is_mk (by rw [List.length_set]; exact x3.alloc) (by
            rw [← ew']
            intro k l hk hl2
            have := hc' k l hk hl2
            show d'[0 + (View.plain .col r c).pos k l]? = _
            rw [show d'[0 + (View.plain .col r c).pos k l]? = _ from this]
            by_cases hh : k = i ∧ l = j
            · simp only [if_pos hh]
            · simp only [if_neg hh]))
        rw [← l1] at this; exact ⟨_, this⟩
      · cases he
    · cases he
  | fill x v =>
    obtain ⟨σ, h⟩ := h
    simp only [SpecProg.step] at he
    split at he
    · rename_i r c f hx
      obtain ⟨hl, rfl⟩ := assign_eq he
      obtain ⟨dx, fx, x1, x2, x3⟩ := h.mat hx
      obtain ⟨s1, e1, r1, d1, l1⟩ := data_ex (h.rep.fill v x1)
      refine ⟨s1, e1, ?_⟩
      have hlen : dx.length = r * c := x3.alloc
      have := h.putMat (dim' := s1.dim) (r := r) (c := c) (f := fun _ _ => v) r1
        (fun z hz => put_ne hz) put_same (fun z hz => by rw [d1]) (by rw [d1]; exact x2)
        (Dense.is_mk (by rw [List.length_replicate]; exact hlen) (by rw [hlen]; exact Dense.replicate_cells _ _ _ _))
      rw [← l1] at this; exact ⟨_, this⟩
    · cases he
  | resize x r c v =>
    obtain ⟨σ, h⟩ := h
    simp only [SpecProg.step] at he
    split at he
    · rename_i p hx
      obtain ⟨r0, c0, f0⟩ := p
      obtain ⟨hl, rfl⟩ := assign_eq he
      obtain ⟨dx, fx, x1, x2, x3⟩ := h.mat hx
      obtain ⟨s1, e1, r1, d1, l1⟩ := store_ex (var x) (Dim.mk' r c) (h.rep.resize (r * c) x1)
      obtain ⟨s2, e2, r2, d2, l2⟩ := data_ex (r1.fill v put_same)
      refine ⟨s2, by simp only [step, e1, bind_ok']; exact e2, ?_⟩
      have := h.putMat (dim' := s2.dim) (r := r) (c := c) (f := fun _ _ => v) r2
        (fun z hz => by rw [put_ne hz, put_ne hz]) put_same
        (fun z hz => by rw [d2, d1, upd_ne _ _ (fun hc => hz (var_inj.1 hc))]) (by rw [d2, d1, upd_same]; rfl)
        (Dense.is_mk (by rw [List.length_replicate, Dense.length_resizeBuf])
          (by rw [Dense.length_resizeBuf]; exact Dense.replicate_cells _ _ _ _))
      rw [← l1, ← l2] at this; exact ⟨_, this⟩
    · cases he
  | swap x y =>
    obtain ⟨σ, h⟩ := h
    simp only [SpecProg.step] at he
    split at he
    · rename_i v u hx hy
      cases he
      obtain ⟨w', e, hr⟩ := h.rep.swap (h.live (x := x) (by rw [hx]; rfl)) (h.live (x := y) (by rw [hy]; rfl))
      refine ⟨_, by simp only [step, e, bind_ok', pure_ok']; rfl, put (put σ (var x) (σ (var y))) (var y) (σ (var x)), ?_⟩
      have vx := h.vals x
      have vy := h.vals y
      rw [hx] at vx; rw [hy] at vy
      have move : ∀ {a b : Nat} {v : SpecProg.Val R} {τ : Nat → Slot R} {dm : Nat → Dim} {fs : Nat}, ValOk σ s.dim a (some v) →
          τ (var b) = σ (var a) → dm (var b) = { s.dim (var a) with fullSize := fs } → ValOk τ dm b (some v) := by
        intro a b v τ dm fs hv ht hd
        cases v with
        | mat r c f =>
          obtain ⟨d, fs', h1, h2, h3⟩ := hv
          exact ⟨d, fs, by rw [ht, h1], by rw [hd, h2], h3⟩
        | hollow r c =>
          obtain ⟨h1, fs', h2⟩ := hv
          exact ⟨by rw [ht, h1], fs, by rw [hd, h2]⟩
      refine ⟨hr, ?_, ?_, h.lazy, ?_⟩
      · rw [put_ne (var_ne0 y).symm, put_ne (var_ne0 x).symm]; exact h.t0
      · rw [put_ne (var_ne1 y).symm, put_ne (var_ne1 x).symm]; exact h.t1
      · intro z
        by_cases hzy : z = y
        · subst hzy
          simp only [SpecProg.Env.put, if_true]
          exact move vx put_same (upd_same _ _ _)
        · have hzy' : var z ≠ var y := fun hc => hzy (var_inj.1 hc)
          by_cases hzx : z = x
          · subst hzx
            simp only [SpecProg.Env.put, if_neg hzy, if_true]
            exact move vy (by rw [put_ne hzy', put_same]) (by rw [upd_ne _ _ hzy', upd_same])
          · have hzx' : var z ≠ var x := fun hc => hzx (var_inj.1 hc)
            simp only [SpecProg.Env.put, if_neg hzy, if_neg hzx]
            exact (h.vals z).congr (by rw [put_ne hzy', put_ne hzx']) (by rw [upd_ne _ _ hzy', upd_ne _ _ hzx'])
    · cases he
  | lazy p y z =>
    obtain ⟨σ, h⟩ := h
    simp only [SpecProg.step] at he
    cases he
    refine ⟨_, rfl, σ, h.rep, h.t0, h.t1, ?_, h.vals⟩
    funext q
    by_cases hq : q = p
    · subst hq; simp [upd]
    · simp [upd, hq, h.lazy]
  | destroy x =>
    obtain ⟨σ, h⟩ := h
    simp only [SpecProg.step] at he
    split at he
    · rename_i hx
      cases he
      obtain ⟨s1, e1, r1, d1, l1⟩ := data_ex (h.rep.dtor (h.live hx))
      refine ⟨s1, e1, put σ (var x) .gone, ?_⟩
      have := h.putOff (x := x) (v := none) r1 (fun z hz => put_ne hz) put_same
      rw [← l1, ← d1] at this; exact this
    · cases he

/-- … and so for programs. -/
theorem sim_run (prog : List (Stmt R)) {s : State R} {E E' : SpecProg.Env R} (h : Sim s E)
    (he : SpecProg.run prog E = some E') : ∃ s', run prog s = .ok s' ∧ Sim s' E' := by
  induction prog generalizing s E with
  | nil => cases he; exact ⟨s, rfl, h⟩
  | cons t ts ih =>
    simp only [SpecProg.run] at he
    obtain ⟨E1, h1, h2⟩ := Option.bind_eq_some_iff.1 he
    obtain ⟨s1, e1, hs1⟩ := sim_step h t h1
    obtain ⟨s2, e2, hs2⟩ := ih hs1 h2
    exact ⟨s2, by simp only [run, e1, bind_ok']; exact e2, hs2⟩

omit [Zero R] [Add R] [Mul R] in
theorem sim_init : Sim (State.init : State R) SpecProg.Env.init :=
  ⟨fun _ => .gone, Rep.init, rfl, rfl, rfl, fun _ => rfl⟩

end

end BB.Prog
