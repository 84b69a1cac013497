import Verif.Lemmas.ProgSim
import Verif.Props.Storage

/-!
# C89 – C91: programs over dense matrix variables

`SpecProg.run` is the mathematical reading of a program: variables are matrices, no memory.  `Prog.run` executes it
with heap, storages and temporaries.
-/
namespace BB.Prog

open Own

variable {R : Type} [Zero R] [Add R] [Mul R]

/-- The machine agrees with the mathematical reading on everything a program can observe. -/
structure Agrees (s : State R) (E : SpecProg.Env R) : Prop where
  dims : ∀ x r c f, E.vars x = some (.mat r c f) → rows s x = r ∧ cols s x = c
  elems : ∀ x r c f, E.vars x = some (.mat r c f) → ∀ i j, i < r → j < c → read s x i j = .ok (f i j)
  alive : ∀ x, (s.w.obj (var x)).isSome = (E.vars x).isSome

omit [Zero R] [Add R] [Mul R] in
theorem Sim.agrees {s : State R} {E : SpecProg.Env R} (h : Sim s E) : Agrees s E := by
  obtain ⟨σ, h⟩ := h
  refine ⟨?_, ?_, ?_⟩
  · intro x r c f hx
    have hv := h.vals x; rw [hx] at hv
    obtain ⟨d, fs, -, h2, -⟩ := hv
    exact ⟨by rw [rows, h2], by rw [cols, h2]⟩
  · intro x r c f hx i j hi hj
    have hv := h.vals x; rw [hx] at hv
    obtain ⟨d, fs, h1, h2, h3⟩ := hv
    rw [read, deref_mat h.rep h1 h2, bind_ok']
    exact h3.elems i j hi hj
  · intro x
    cases e : E.vars x with
    | none =>
      have hv := h.vals x; rw [e] at hv
      rw [(obj_of_rep h.rep).1 hv]; rfl
    | some v =>
      obtain ⟨o, ho⟩ := h.rep.live (h.live (x := x) (by rw [e]; rfl))
      rw [ho]; rfl

/-- C89.  Every program whose mathematical reading is defined runs without undefined behaviour, exception or failed
assertion, and afterwards every variable has the dimensions and elements of the mathematical reading: whatever shares
operands, is assigned to itself, was moved, swapped, resized or destroyed in between. -/
theorem C89_programs (prog : List (Stmt R)) (E : SpecProg.Env R) (h : SpecProg.run prog .init = some E) :
    ∃ s, run prog .init = .ok s ∧ Agrees s E := by
  obtain ⟨s, e, hs⟩ := sim_run prog sim_init h
  exact ⟨s, e, hs.agrees⟩

/-- C89.  When the variables are gone, so is all memory, including that of all temporaries. -/
theorem C89_no_leak (prog : List (Stmt R)) (E : SpecProg.Env R) (h : SpecProg.run prog .init = some E)
    (hE : ∀ x, E.vars x = none) : ∃ s, run prog .init = .ok s ∧ ∀ b blk, s.w.heap b = some blk → blk.user = true := by
  obtain ⟨s, e, σ, hs⟩ := sim_run prog sim_init h
  refine ⟨s, e, C60_no_leak_partial s.w hs.rep.1 ?_⟩
  intro z
  match z with
  | 0 => exact (obj_of_rep hs.rep).1 hs.t0
  | 1 => exact (obj_of_rep hs.rep).1 hs.t1
  | z + 2 =>
    have hv := hs.vals z; rw [hE z] at hv
    exact (obj_of_rep hs.rep).1 hv

/-- `run` of a concatenation. -/
theorem run_append (p q : List (Stmt R)) (s : State R) : run (p ++ q) s = (run p s >>= run q) := by
  induction p generalizing s with
  | nil => rfl
  | cons t ts ih =>
    simp only [List.cons_append, run]
    cases step s t with
    | error e => rfl
    | ok s1 => exact ih s1

theorem run_snoc {p : List (Stmt R)} {t : Stmt R} {s0 s : State R} (h : run p s0 = .ok s) :
    run (p ++ [t]) s0 = step s t := by
  rw [run_append, h, bind_ok']
  simp only [run]
  cases step s t <;> rfl

/-- C89.  Sums, differences and products of matrices that do not fit are stopped by an assertion, after any program. -/
theorem C89_misfit (prog : List (Stmt R)) (E : SpecProg.Env R) (h : SpecProg.run prog .init = some E) (x y z : Nat)
    {r c r' c' : Nat} {f g : Nat → Nat → R} (hy : E.vars y = some (.mat r c f)) (hz : E.vars z = some (.mat r' c' g)) :
    (∀ op, ¬ (r = r' ∧ c = c') → run (prog ++ [.bin op x y z]) .init = .error .assertFail) ∧
    (c ≠ r' → run (prog ++ [.mul x y z]) .init = .error .assertFail) := by
  obtain ⟨s, e, σ, hs⟩ := sim_run prog sim_init h
  have hy' := hs.vals y; rw [hy] at hy'
  have hz' := hs.vals z; rw [hz] at hz'
  obtain ⟨dy, fy, y1, y2, y3⟩ := hy'
  obtain ⟨dz, fz, z1, z2, z3⟩ := hz'
  obtain ⟨s1, e1, r1, d1, l1⟩ := store_ex tmp0 (Dim.mk' 0 0) (hs.rep.dflt hs.t0)
  constructor
  · intro op hne
    rw [run_snoc e]
    have rd1 : ∀ v, s1.dim (var v) = s.dim (var v) := fun v => by rw [d1, upd_ne _ _ (var_ne0 v)]
    have dy1 := deref_mat (s := s1) r1 (by rw [put_ne (var_ne0 y)]; exact y1) ((rd1 y).trans y2)
    have dz1 := deref_mat (s := s1) r1 (by rw [put_ne (var_ne0 z)]; exact z1) ((rd1 z).trans z2)
    simp only [step, e1, bind_ok', dy1, dz1, Dense.binop]
    by_cases hr : r = r'
    · have hc : c ≠ c' := fun hc => hne ⟨hr, hc⟩
      simp [assertThat, hr, hc]
    · simp [assertThat, hr]
  · intro hne
    obtain ⟨s2, e2, r2, d2, l2⟩ := store_ex tmp1 (Dim.mk' 0 0) (r1.dflt (x := tmp1) (by rw [put_ne (by decide)]; exact hs.t1))
    rw [run_snoc e]
    have rd2 : ∀ v, s2.dim (var v) = s.dim (var v) := fun v => by
      rw [d2, d1, upd_ne _ _ (var_ne1 v), upd_ne _ _ (var_ne0 v)]
    have dy2 := deref_mat (s := s2) r2
      (by rw [put_ne (var_ne1 y), put_ne (var_ne0 y)]; exact y1) ((rd2 y).trans y2)
    have dz2 := deref_mat (s := s2) r2
      (by rw [put_ne (var_ne1 z), put_ne (var_ne0 z)]; exact z1) ((rd2 z).trans z2)
    simp only [step, State.mul, e1, e2, bind_ok', dy2, dz2, Dense.mulGeneral]
    simp [assertThat, hne]

/-- C89.  Element access outside the matrix is stopped by an assertion, after any program. -/
theorem C89_out_of_range (prog : List (Stmt R)) (E : SpecProg.Env R) (h : SpecProg.run prog .init = some E) (x : Nat)
    {r c : Nat} {f : Nat → Nat → R} (hx : E.vars x = some (.mat r c f)) (i j : Nat) (hij : ¬ (i < r ∧ j < c)) (v : R) :
    ∃ s, run prog .init = .ok s ∧ read s x i j = .error .assertFail ∧
      run (prog ++ [.set x i j v]) .init = .error .assertFail := by
  obtain ⟨s, e, σ, hs⟩ := sim_run prog sim_init h
  have hx' := hs.vals x; rw [hx] at hx'
  obtain ⟨dx, fx, x1, x2, x3⟩ := hx'
  refine ⟨s, e, ?_, ?_⟩
  · rw [read, deref_mat hs.rep x1 x2, bind_ok']
    by_cases hi : i < r
    · have hj : ¬ j < c := fun hj => hij ⟨hi, hj⟩
      simp [Dense.get, View.get, Dense.view, View.plain, hi, hj, assertThat]
    · simp [Dense.get, View.get, Dense.view, View.plain, hi, assertThat]
  · rw [run_snoc e]
    by_cases hi : i < r
    · have hj : ¬ j < c := fun hj => hij ⟨hi, hj⟩
      simp [step, x2, hi, hj, assertThat]
    · simp [step, x2, hi, assertThat]

/-! ## C90: product expressions -/

/-- `s` with other product expressions. -/
def State.setLazy (l : Nat → Option (Nat × Nat)) (s : State R) : State R := { s with lazy := l }

/-- The statement neither creates nor evaluates the product expression `p`. -/
def Stmt.avoids (p : Nat) : Stmt R → Prop
  | .lazy q _ _ => q ≠ p
  | .eval _ q => q ≠ p
  | _ => True

section
omit [Zero R] [Add R] [Mul R]
variable (l : Nat → Option (Nat × Nat)) (s : State R)

theorem store_lazy (op : Op R) (x : Nat) (d : Dim) :
    (s.setLazy l).store op x d = (s.store op x d).map (State.setLazy l) := by
  simp only [State.store, State.setLazy]
  cases Own.step s.w op <;> rfl

theorem data_lazy (op : Op R) : (s.setLazy l).data op = (s.data op).map (State.setLazy l) := by
  simp only [State.data, State.setLazy]
  cases Own.step s.w op <;> rfl

theorem deref_lazy (x : Nat) : (s.setLazy l).deref x = s.deref x := rfl

theorem writeAll_lazy (x : Nat) (d : Buf R) : (s.setLazy l).writeAll x d = (s.writeAll x d).map (State.setLazy l) := by
  simp only [State.writeAll, State.setLazy]
  cases writeCells x d s.w <;> rfl

theorem map_bind {α β γ : Type} (x : Res α) (g : α → β) (f : β → Res γ) : (x.map g >>= f) = (x >>= fun a => f (g a)) := by
  cases x <;> rfl

theorem bind_map {α β γ : Type} (x : Res α) (f : α → Res β) (g : β → γ) : (x >>= f).map g = (x >>= fun a => (f a).map g) := by
  cases x <;> rfl

theorem fillIn_lazy (t : Nat) (C : Dense R) : (s.setLazy l).fillIn t C = (s.fillIn t C).map (State.setLazy l) := by
  simp only [State.fillIn, store_lazy, map_bind, bind_map, writeAll_lazy]

theorem moveAssign_lazy (x y : Nat) : (s.setLazy l).moveAssign x y = (s.moveAssign x y).map (State.setLazy l) := by
  simp only [State.moveAssign, ← store_lazy]; rfl

end

theorem mul_lazy (l : Nat → Option (Nat × Nat)) (s : State R) (x y z : Nat) :
    (s.setLazy l).mul x y z = (s.mul x y z).map (State.setLazy l) := by
  simp only [State.mul, store_lazy, map_bind, bind_map, deref_lazy, fillIn_lazy, moveAssign_lazy, data_lazy]

/-- A statement other than `lazy` and `eval` does not see the stored expressions. -/
theorem step_lazy (l : Nat → Option (Nat × Nat)) (s : State R) (t : Stmt R) (h1 : ∀ p y z, t ≠ .lazy p y z)
    (h2 : ∀ x p, t ≠ .eval x p) : step (s.setLazy l) t = (step s t).map (State.setLazy l) := by
  cases t with
  | lazy p y z => exact absurd rfl (h1 p y z)
  | eval x p => exact absurd rfl (h2 x p)
  | swap x y =>
    simp only [step]
    show (Own.step s.w _ >>= _) = _
    cases Own.step s.w (.swap (var x) (var y)) <;> rfl
  | inplace op x y =>
    simp only [step, deref_lazy]
    by_cases hxy : x = y
    · simp only [if_pos hxy, bind_map, writeAll_lazy]
    · simp only [if_neg hxy, bind_map, writeAll_lazy]
  | copyNew x y => exact store_lazy l s _ _ _
  | moveNew x y => exact store_lazy l s _ _ _
  | assign x y => exact store_lazy l s _ _ _
  | set x i j v =>
    have hd : (s.setLazy l).dim = s.dim := rfl
    simp only [step, hd, data_lazy, bind_map]
  | _ =>
    simp only [step, store_lazy, map_bind, bind_map, deref_lazy, fillIn_lazy, moveAssign_lazy, data_lazy, mul_lazy, writeAll_lazy]

theorem step_lazy_eq {s s' : State R} {t : Stmt R} (h1 : ∀ p y z, t ≠ .lazy p y z) (h2 : ∀ x p, t ≠ .eval x p)
    (e : step s t = .ok s') : s'.lazy = s.lazy := by
  have h := step_lazy s.lazy s t h1 h2
  rw [show s.setLazy s.lazy = s from rfl, e] at h
  have : s' = s'.setLazy s.lazy := by injection h
  rw [this]; rfl

/-- The state with the product expression `p` bound to the references `v`. -/
def State.bound (p : Nat) (v : Nat × Nat) (s : State R) : State R := s.setLazy (upd s.lazy p (some v))

theorem step_bound (p : Nat) (v : Nat × Nat) (s : State R) (t : Stmt R) (h : t.avoids p) :
    step (s.bound p v) t = (step s t).map (State.bound p v) := by
  by_cases h1 : ∃ q y z, t = .lazy q y z
  · obtain ⟨q, y, z, rfl⟩ := h1
    simp only [step, Except.map, State.bound, State.setLazy]
    congr 2
    funext k
    have hq : q ≠ p := h
    by_cases hk : k = q
    · subst hk; rw [upd_same, upd_ne _ _ hq, upd_same]
    · by_cases hk' : k = p
      · subst hk'; rw [upd_ne _ _ hk, upd_same, upd_same]
      · rw [upd_ne _ _ hk, upd_ne _ _ hk', upd_ne _ _ hk', upd_ne _ _ hk]
  · by_cases h2 : ∃ x q, t = .eval x q
    · obtain ⟨x, q, rfl⟩ := h2
      have hq : q ≠ p := h
      have hl : (s.bound p v).lazy q = s.lazy q := upd_ne _ _ hq
      simp only [step, hl]
      cases e : s.lazy q with
      | none => rfl
      | some yz =>
        simp only
        rw [State.bound, mul_lazy]
        cases em : s.mul (var x) (var yz.1) (var yz.2) with
        | error f => rfl
        | ok s' =>
          have : s'.lazy = s.lazy := step_lazy_eq (t := .mul x yz.1 yz.2) (fun _ _ _ hc => by cases hc) (fun _ _ hc => by cases hc) em
          simp only [Except.map, State.bound, this]
    · have h1' : ∀ q y z, t ≠ .lazy q y z := fun q y z hc => h1 ⟨q, y, z, hc⟩
      have h2' : ∀ x q, t ≠ .eval x q := fun x q hc => h2 ⟨x, q, hc⟩
      rw [State.bound, step_lazy _ _ _ h1' h2']
      cases e : step s t with
      | error f => rfl
      | ok s' => simp only [Except.map, State.bound, step_lazy_eq h1' h2' e]

theorem run_bound (p : Nat) (v : Nat × Nat) (ss : List (Stmt R)) (h : ∀ t ∈ ss, t.avoids p) (s : State R) :
    run ss (s.bound p v) = (run ss s).map (State.bound p v) := by
  induction ss generalizing s with
  | nil => rfl
  | cons t ts ih =>
    simp only [run]
    rw [step_bound p v s t (h t (List.mem_cons_self ..)), map_bind, bind_map]
    congr 1; funext s'
    exact ih (fun u hu => h u (List.mem_cons_of_mem _ hu)) s'

/-- What is left of a run if one does not look at the stored expressions: memory and dimensions, or the failure. -/
def memory (r : Res (State R)) : Res (World R × (Nat → Dim)) := r.map fun s => (s.w, s.dim)

/-- C90.  A product that is written down first (`auto p = y * z;`) and used later, after any statements, is the product
of what `y` and `z` are *then*: the program does exactly what it does with `x = y * z` in the place of `x = p`,
memory, dimensions and failures included. -/
theorem C90_deferred (p x y z : Nat) (ss : List (Stmt R)) (h : ∀ t ∈ ss, t.avoids p) (s : State R) :
    memory (run (.lazy p y z :: ss ++ [.eval x p]) s) = memory (run (ss ++ [.mul x y z]) s) := by
  have e1 : run (.lazy p y z :: ss ++ [.eval x p]) s = run (ss ++ [.eval x p]) (s.bound p (y, z)) := rfl
  rw [e1, run_append, run_append, run_bound p (y, z) ss h, map_bind]
  cases run ss s with
  | error f => rfl
  | ok s' =>
    simp only [bind_ok']
    have hl : (s'.bound p (y, z)).lazy p = some (y, z) := upd_same _ _ _
    simp only [run, step, hl]
    rw [State.bound, mul_lazy]
    cases s'.mul (var x) (var y) (var z) <;> rfl

/-- C90.  In particular the target has the elements of the product of the operands' current values. -/
theorem C90_current (prog : List (Stmt R)) (E : SpecProg.Env R) (h : SpecProg.run prog .init = some E) (x p y z : Nat)
    (hp : E.lazy p = some (y, z)) {m k n : Nat} {f g : Nat → Nat → R} (hy : E.vars y = some (.mat m k f))
    (hz : E.vars z = some (.mat k n g)) (hx : E.vars x ≠ none) :
    ∃ s, run (prog ++ [.eval x p]) .init = .ok s ∧ rows s x = m ∧ cols s x = n ∧
      ∀ i j, i < m → j < n → read s x i j = .ok (dotSeq f g k i j) := by
  obtain ⟨s, e, hs⟩ := sim_run prog sim_init h
  have hx' : (E.vars x).isSome = true := by cases hv : E.vars x with
    | none => exact absurd hv hx
    | some v => rfl
  have hm : E.mul x y z = some (E.put x (some (.mat m n fun i j => dotSeq f g k i j))) := by
    simp only [SpecProg.Env.mul, SpecProg.Env.mat, hy, hz, if_true, SpecProg.Env.assign, hx']
  obtain ⟨s', e', hs'⟩ := sim_step hs (.eval x p) (E' := E.put x (some (.mat m n fun i j => dotSeq f g k i j)))
    (by simp only [SpecProg.step, hp]; exact hm)
  have hv : (E.put x (some (.mat m n fun i j => dotSeq f g k i j))).vars x = some (.mat m n fun i j => dotSeq f g k i j) := by
    simp [SpecProg.Env.put]
  exact ⟨s', by rw [run_snoc e]; exact e', (hs'.agrees.dims _ _ _ _ hv).1, (hs'.agrees.dims _ _ _ _ hv).2,
    hs'.agrees.elems _ _ _ _ hv⟩

omit [Zero R] [Add R] [Mul R] in
/-- Reading any live object as a value succeeds. -/
theorem deref_live {s : State R} {σ : Nat → Slot R} (h : Rep s.w σ) {x : Nat} (hx : σ x ≠ .gone) :
    ∃ A, s.deref x = .ok A := by
  cases e : σ x with
  | gone => exact absurd e hx
  | held d => exact ⟨_, deref_held h e⟩
  | hollow =>
    have ho := (obj_of_rep h).2 e
    exact ⟨⟨.col, s.dim x, []⟩, by simp only [State.deref, get_ok ho, bind_ok', World.cells, if_true, pure_ok']⟩

omit [Zero R] [Add R] [Mul R] in
theorem deref_gone {s : State R} {σ : Nat → Slot R} (h : Rep s.w σ) {x : Nat} (hx : σ x = .gone) : s.deref x = .error .ub := by
  have ho := (obj_of_rep h).1 hx
  simp only [State.deref, World.get, ho, bind_error']

/-- C90.  The expression does not keep its operands alive: using it after one of them is gone is undefined behaviour,
whatever program came before. -/
theorem C90_dangling (prog : List (Stmt R)) (E : SpecProg.Env R) (h : SpecProg.run prog .init = some E) (x p y z : Nat)
    (hp : E.lazy p = some (y, z)) (hd : E.vars y = none ∨ E.vars z = none) :
    run (prog ++ [.eval x p]) .init = .error .ub := by
  obtain ⟨s, e, σ, hs⟩ := sim_run prog sim_init h
  rw [run_snoc e]
  simp only [step, hs.lazy, hp]
  obtain ⟨s1, e1, r1, d1, l1⟩ := store_ex tmp0 (Dim.mk' 0 0) (hs.rep.dflt hs.t0)
  obtain ⟨s2, e2, r2, d2, l2⟩ := store_ex tmp1 (Dim.mk' 0 0) (r1.dflt (x := tmp1) (by rw [put_ne (by decide)]; exact hs.t1))
  simp only [State.mul, e1, e2, bind_ok']
  have hgone : ∀ v, E.vars v = none → s2.deref (var v) = .error .ub := by
    intro v hv
    have := hs.vals v; rw [hv] at this
    exact deref_gone r2 (by rw [put_ne (var_ne1 v), put_ne (var_ne0 v)]; exact this)
  by_cases hy : E.vars y = none
  · rw [hgone y hy]; rfl
  · have hy' : (E.vars y).isSome = true := by cases hv : E.vars y with
      | none => exact absurd hv hy
      | some v => rfl
    obtain ⟨A, hA⟩ := deref_live (x := var y) r2 (by rw [put_ne (var_ne1 y), put_ne (var_ne0 y)]; exact hs.live hy')
    have hz := hd.resolve_left hy
    rw [hA, bind_ok', hgone z hz]; rfl

/-! ## C91: moved-from matrices -/

/-- C91, negative: after `x = std::move(y)` or `Matrix x(std::move(y))` the matrix `y` still reports its old
dimensions, although it has no elements: reading or writing any of them is undefined behaviour. -/
theorem C91_stale_dimensions (prog : List (Stmt R)) (E : SpecProg.Env R) (h : SpecProg.run prog .init = some E) {y r c : Nat}
    (hy : E.vars y = some (.hollow r c)) :
    ∃ s, run prog .init = .ok s ∧ rows s y = r ∧ cols s y = c ∧
      ∀ i j, i < r → j < c → read s y i j = .error .ub ∧ ∀ v, step s (.set y i j v) = .error .ub := by
  obtain ⟨s, e, σ, hs⟩ := sim_run prog sim_init h
  have hv := hs.vals y; rw [hy] at hv
  obtain ⟨h1, fs, h2⟩ := hv
  have ho := (obj_of_rep hs.rep).2 h1
  refine ⟨s, e, by rw [rows, h2], by rw [cols, h2], fun i j hi hj => ⟨?_, fun v => ?_⟩⟩
  · have hd : s.deref (var y) = .ok ⟨.col, ⟨r, c, fs⟩, []⟩ := by
      simp only [State.deref, get_ok ho, bind_ok', World.cells, if_true, pure_ok', h2]
    rw [read, hd, bind_ok']
    simp [Dense.get, View.get, Buf.read, Dense.view, View.plain, hi, hj, assertThat]
  · simp [step, h2, hi, hj, assertThat, State.data, Own.step, get_ok ho]

/-- C91, negative: it cannot be resized to hold elements again (the call throws) … -/
theorem C91_resize_throws (prog : List (Stmt R)) (E : SpecProg.Env R) (h : SpecProg.run prog .init = some E) {y r c : Nat}
    (hy : E.vars y = some (.hollow r c)) (r' c' : Nat) (v : R) (hn : r' * c' ≠ 0) :
    run (prog ++ [.resize y r' c' v]) .init = .error (.throw "resize storage with not own memory.") := by
  obtain ⟨s, e, σ, hs⟩ := sim_run prog sim_init h
  have hv := hs.vals y; rw [hy] at hv
  have ho := (obj_of_rep hs.rep).2 hv.1
  rw [run_snoc e]
  simp [step, State.store, Own.step, get_ok ho, Ne.symm hn]

/-- C91, negative: … and it can be the target of `+=` without any effect or error: nothing is added anywhere. -/
theorem C91_inplace_ignored (prog : List (Stmt R)) (E : SpecProg.Env R) (h : SpecProg.run prog .init = some E) {y r c : Nat}
    (hy : E.vars y = some (.hollow r c)) (op : R → R → R) (z : Nat) (hz : E.vars z ≠ none) :
    run (prog ++ [.inplace op y z]) .init = run prog .init := by
  obtain ⟨s, e, σ, hs⟩ := sim_run prog sim_init h
  have hv := hs.vals y; rw [hy] at hv
  have ho := (obj_of_rep hs.rep).2 hv.1
  have hz' : (E.vars z).isSome = true := by cases hv : E.vars z with
    | none => exact absurd hv hz
    | some v => rfl
  obtain ⟨B, hB⟩ := deref_live (x := var z) hs.rep (hs.live hz')
  have hd : s.deref (var y) = .ok ⟨.col, s.dim (var y), []⟩ := by
    simp only [State.deref, get_ok ho, bind_ok', World.cells, if_true, pure_ok']
  rw [run_snoc e, e]
  simp only [step, hd, bind_ok']
  by_cases hyz : y = z
  · rw [if_pos hyz]; rfl
  · rw [if_neg hyz, hB]; rfl

/-- C91, what does hold: a moved-from matrix may be assigned (by copy, by move or from an expression), exchanged and
destroyed; after an assignment it is a matrix like any other. -/
theorem C91_assignable_partial (prog : List (Stmt R)) (E : SpecProg.Env R) (h : SpecProg.run prog .init = some E) {y z r c m n : Nat}
    {f : Nat → Nat → R} (hy : E.vars y = some (.hollow r c)) (hz : E.vars z = some (.mat m n f)) :
    (∃ s, run (prog ++ [.destroy y]) .init = .ok s) ∧
    (∀ t ∈ [.assign y z, .move y z, .swap y z], ∃ s, run (prog ++ [t]) .init = .ok s ∧ rows s y = m ∧ cols s y = n ∧
      ∀ i j, i < m → j < n → read s y i j = .ok (f i j)) := by
  have hyz : y ≠ z := by intro hc; subst hc; rw [hy] at hz; cases hz
  obtain ⟨s, e, hs⟩ := sim_run prog sim_init h
  have fin : ∀ (t : Stmt R) (E' : SpecProg.Env R), SpecProg.step E t = some E' → E'.vars y = some (.mat m n f) →
      ∃ s, run (prog ++ [t]) .init = .ok s ∧ rows s y = m ∧ cols s y = n ∧
        ∀ i j, i < m → j < n → read s y i j = .ok (f i j) := by
    intro t E' h1 h2
    obtain ⟨s', e', hs'⟩ := sim_step hs t h1
    exact ⟨s', by rw [run_snoc e]; exact e', (hs'.agrees.dims _ _ _ _ h2).1, (hs'.agrees.dims _ _ _ _ h2).2,
      hs'.agrees.elems _ _ _ _ h2⟩
  constructor
  · obtain ⟨s', e', -⟩ := sim_step hs (.destroy y) (E' := E.put y none) (by simp [SpecProg.step, hy])
    exact ⟨s', by rw [run_snoc e]; exact e'⟩
  · intro t ht
    simp only [List.mem_cons, List.not_mem_nil, or_false] at ht
    rcases ht with rfl | rfl | rfl
    · exact fin _ (E.put y (some (.mat m n f))) (by simp [SpecProg.step, SpecProg.Env.mat, hz, SpecProg.Env.assign, hy])
        (by simp [SpecProg.Env.put])
    · exact fin _ ((E.put y (some (.mat m n f))).put z (some (.hollow m n)))
        (by simp [SpecProg.step, SpecProg.Env.mat, hz, SpecProg.Env.assign, hy, hyz]) (by simp [SpecProg.Env.put, hyz])
    · exact fin _ ((E.put y (some (.mat m n f))).put z (some (.hollow r c)))
        (by simp [SpecProg.step, hz, hy]) (by simp [SpecProg.Env.put, hyz])

/-! ## A concrete program -/

/-- Client code with self-assignment, `x += x`, a target that is its own operand, a product expression evaluated after
its operand changed, moves, an exchange and a resize. -/
def exProg : List (Stmt Int) :=
  [.new 0 2 2 1, .set 0 0 1 5, .copyNew 1 0, .lazy 0 0 1, .inplace (· + ·) 0 0, .assign 1 1, .mul 0 0 1,
   .bin (· - ·) 1 0 1, .trans 1 1, .new 2 1 2 7, .swap 1 2, .decl 3, .move 3 1, .resize 3 2 2 4, .eval 3 0, .mul 2 2 0]

/-- It is legal, ends with variable 1 moved from, the expression 0 refers to it, and 0, 2, 3 are the matrices one gets
with pencil and paper; here variable 0. -/
theorem exProg_legal : ∃ E, SpecProg.run (exProg.take 14) .init = some E ∧ E.vars 1 = some (.hollow 1 2) ∧
    E.lazy 0 = some (0, 1) ∧ ∃ f, E.vars 0 = some (.mat 2 2 f) ∧ f 0 0 = 12 ∧ f 0 1 = 20 ∧ f 1 0 = 4 ∧ f 1 1 = 12 :=
  ⟨_, rfl, rfl, rfl, _, rfl, by decide, by decide, by decide, by decide⟩

/-- Continued by a use of the expression whose operand is moved from the program is not legal; if the operand is
assigned first, it is, and the expression is the product of the new contents. -/
theorem exProg_moved : SpecProg.run (exProg.take 15) .init = none ∧ ∃ f, run (exProg.take 14 ++ [.assign 1 0, .eval 3 0]) .init = .ok f ∧
    read f 3 0 0 = .ok (12 * 12 + 20 * 4) := ⟨rfl, _, rfl, by decide +kernel⟩

/-- C91, negative: the sum of a moved-from matrix and another one of the same reported dimensions succeeds, and its
elements were never written. -/
theorem C91_sum_uninitialised :
    ∃ s, run [.new 0 1 1 (5 : Int), .decl 1, .move 1 0, .bin (· + ·) 2 0 1] .init = .error .ub ∧
      run [.new 0 1 1 (5 : Int), .decl 1, .decl 2, .move 1 0, .bin (· + ·) 2 0 1] .init = .ok s ∧
      rows s 2 = 1 ∧ cols s 2 = 1 ∧ read s 2 0 0 = .error .ub := ⟨_, rfl, rfl, rfl, rfl, rfl⟩

/-- A concrete case for C89_no_leak: three variables, temporaries, all destroyed. -/
theorem exDestroyed : ∃ E, SpecProg.run [.new 0 2 3 (1 : Int), .new 1 3 2 2, .decl 2, .mul 2 0 1, .moveNew 3 2, .destroy 0, .destroy 1,
    .destroy 2, .destroy 3] .init = some E ∧ ∀ x, E.vars x = none :=
  ⟨_, rfl, fun x => by
    simp [SpecProg.Env.put, SpecProg.Env.init]
    intro h3 h2 h1 h0
    simp [h0, h1, h2, h3]⟩

/-- A concrete case for C89_misfit and C89_out_of_range. -/
theorem exMisfit : ∃ E, SpecProg.run [.new 0 2 3 (1 : Int), .new 1 2 3 2] .init = some E ∧
    (∃ f, E.vars 0 = some (.mat 2 3 f)) ∧ ∃ g, E.vars 1 = some (.mat 2 3 g) := ⟨_, rfl, ⟨_, rfl⟩, _, rfl⟩

/-- A concrete case for C90_deferred: the operand changes between the expression and its use. -/
theorem exDeferred : (∀ t ∈ [Stmt.set 0 0 0 (9 : Int), .lazy 1 0 0], t.avoids 0) ∧
    ∃ s, run [.new 0 1 1 (2 : Int), .decl 1, .lazy 0 0 0, .set 0 0 0 9, .lazy 1 0 0, .eval 1 0] .init = .ok s ∧
      read s 1 0 0 = .ok 81 := ⟨by simp [Stmt.avoids], _, rfl, rfl⟩

/-- A concrete case for C90_dangling. -/
theorem exDangling : ∃ E, SpecProg.run [.new 0 1 1 (2 : Int), .decl 1, .lazy 0 0 0, .destroy 0] .init = some E ∧
    E.lazy 0 = some (0, 0) ∧ E.vars 0 = none := ⟨_, rfl, rfl, rfl⟩

end BB.Prog
