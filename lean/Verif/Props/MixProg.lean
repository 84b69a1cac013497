import Verif.Model.MixProg
import Verif.Lemmas.ProgSim
import Verif.Props.Prog
import Verif.Props.SparseProg
import Verif.Props.StoredProduct

/-!
# C122: programs over dense and sparse matrix variables

`specRun` is the mathematical reading of a program, `run` executes it with heaps, storages and temporaries.
-/
namespace BB

/-- A loop whose body commutes with `φ` commutes with `φ`. -/
theorem ptrLoop_map {σ τ : Type} (φ : σ → τ) {f : Nat → σ → Res σ} {g : Nat → τ → Res τ} (h : ∀ p s, g p (φ s) = (f p s).map φ)
    (cur stop stride : Nat) (s : σ) : ptrLoop cur stop stride g (φ s) = (ptrLoop cur stop stride f s).map φ := by
  unfold ptrLoop
  generalize stop + 1 = n
  induction n generalizing cur s with
  | zero => rfl
  | succ n ih =>
    simp only [ptrLoopAux]
    split
    · rfl
    · rw [h]
      cases f cur s with
      | error e => rfl
      | ok t => exact ih _ t

theorem Sparse.forRun_map {R σ τ : Type} (S : Sparse R) (q : Nat) (φ : σ → τ) {f : Nat → R → σ → Res σ} {g : Nat → R → τ → Res τ}
    (h : ∀ k x s, g k x (φ s) = (f k x s).map φ) (s : σ) : S.forRun q g (φ s) = (S.forRun q f s).map φ := by
  unfold Sparse.forRun
  cases S.offset.read q with
  | error e => rfl
  | ok b =>
    cases S.offset.read (q + 1) with
    | error e => rfl
    | ok e =>
      simp only [bind_ok']
      rw [ptrLoop_map (fun t : Nat × σ => (t.1, φ t.2)) (f := fun p (t : Nat × σ) => do
        let k ← S.key.read p
        let x ← S.value.read t.1
        let s ← f k x t.2
        return (t.1 + 1, s)) (s := (b, s))]
      · generalize (ptrLoop _ _ _ _ _ : Res (Nat × σ)) = q
        cases q <;> rfl
      · intro p t
        cases S.key.read p with
        | error e => rfl
        | ok k =>
          cases S.value.read t.1 with
          | error e => rfl
          | ok x =>
            simp only [bind_ok', h]
            cases f k x t.2 <;> rfl

/-- A dense matrix that reports another size. -/
def Dense.sized {R : Type} (n : Nat) (A : Dense R) : Dense R := { A with dim := { A.dim with fullSize := n } }

/-- The size a matrix reports has no influence on `+=` with a sparse matrix. -/
theorem Sparse.binassignDS_sized {R : Type} (op : R → R → R) (n : Nat) (A : Dense R) (B : Sparse R) :
    Sparse.binassignDS op (A.sized n) B = (Sparse.binassignDS op A B).map (Dense.sized n) := by
  unfold Sparse.binassignDS
  show (assertThat (A.dim.rows == B.dim.rows) >>= _) = _
  cases assertThat (A.dim.rows == B.dim.rows) with
  | error e => rfl
  | ok _ =>
    simp only [bind_ok']
    show (assertThat (A.dim.cols == B.dim.cols) >>= _) = _
    cases assertThat (A.dim.cols == B.dim.cols) with
    | error e => rfl
    | ok _ =>
      simp only [bind_ok', Sparse.forRuns]
      split
      · rfl
      · rw [show ((0, A.sized n) : Nat × Dense R) = (fun t : Nat × Dense R => (t.1, t.2.sized n)) (0, A) from rfl,
          ptrLoop_map (fun t : Nat × Dense R => (t.1, t.2.sized n)) (f := fun q (s : Nat × Dense R) => do
          let A ← B.forRun q (fun k x (A : Dense R) => do
            let y ← A.get k s.1
            A.set k s.1 (op y x)) s.2
          return (s.1 + 1, A))]
        · generalize (ptrLoop _ _ _ _ _ : Res (Nat × Dense R)) = q
          cases q <;> rfl
        · intro p t
          dsimp only
          rw [Sparse.forRun_map B p (Dense.sized n) (f := fun k x (A : Dense R) => do
            let y ← A.get k t.1
            A.set k t.1 (op y x))]
          · generalize (B.forRun p _ _ : Res (Dense R)) = q
            cases q <;> rfl
          · intro k x A
            show (A.get k t.1 >>= _) = _
            cases A.get k t.1 with
            | error e => rfl
            | ok y =>
              simp only [bind_ok', Dense.set]
              show (A.view.set A.data k t.1 (op y x) >>= _) = _
              cases A.view.set A.data k t.1 (op y x) <;> rfl

theorem Sparse.binopDS_sized {R : Type} (op : R → R → R) (n : Nat) (A : Dense R) (B : Sparse R) :
    Sparse.binopDS op (A.sized n) B = (Sparse.binopDS op A B).map (Dense.sized n) := by
  unfold Sparse.binopDS
  show (assertThat (A.dim.rows == B.dim.rows) >>= _) = _
  cases assertThat (A.dim.rows == B.dim.rows) with
  | error e => rfl
  | ok _ =>
    simp only [bind_ok']
    show (assertThat (A.dim.cols == B.dim.cols) >>= _) = _
    cases assertThat (A.dim.cols == B.dim.cols) with
    | error e => rfl
    | ok _ =>
      simp only [bind_ok']
      have key : ∀ q : Res (Nat × Buf R), (q >>= fun p => pure ({ A.sized n with data := p.2 } : Dense R)) =
          Except.map (Dense.sized n) (q >>= fun p => pure ({ A with data := p.2 } : Dense R)) := by
        intro q; cases q <;> rfl
      exact key _

namespace MProg

open Own

variable {R : Type}

/-- The machine state represents the environment. -/
def Sim (m : State R) (E : Env R) : Prop := Prog.Sim m.d E.d ∧ SProg.Sim m.s E.s ∧ m.lazy = E.lazy

/-- The last two steps of an expression statement: `x` is move-assigned from the temporary, which is destroyed. -/
theorem finish {s s1 : Prog.State R} {E : SpecProg.Env R} {σ σ1 : Nat → Slot R} (h : Prog.SimAt s E σ) (hr : Rep s1.w σ1)
    {r c fs x : Nat} {d : Buf R} {f : Nat → Nat → R} (h0 : σ1 Prog.tmp0 = .held d) (hd0 : s1.dim Prog.tmp0 = ⟨r, c, fs⟩)
    (hI : Dense.Is ⟨.col, Dim.mk' r c, d⟩ r c f) (hσ : ∀ z, z ≠ Prog.tmp0 → σ1 z = σ z)
    (hd : ∀ z, s1.dim (Prog.var z) = s.dim (Prog.var z)) (hl : s1.lazy = s.lazy) (hx : (E.vars x).isSome = true) :
    ∃ s2 s3, s1.moveAssign (Prog.var x) Prog.tmp0 = .ok s2 ∧ s2.data (.dtor Prog.tmp0) = .ok s3 ∧
      Prog.Sim s3 (E.put x (some (.mat r c f))) := by
  have hx1 : σ1 (Prog.var x) ≠ .gone := by rw [hσ _ (Prog.var_ne0 x)]; exact h.live hx
  obtain ⟨s2, e2, r2, d2, l2⟩ := Prog.store_ex (Prog.var x) (s1.dim Prog.tmp0) (hr.moveAssign hx1 h0 (Prog.var_ne0 x))
  obtain ⟨s3, e3, r3, d3, l3⟩ := Prog.data_ex (r2.dtor (x := Prog.tmp0) (by rw [Prog.put_same]; simp))
  refine ⟨s2, s3, e2, e3, put (put (put σ1 (Prog.var x) (.held d)) Prog.tmp0 .hollow) Prog.tmp0 .gone, ?_⟩
  have := h.putMat (x := x) (dim' := s3.dim) (fs := fs) r3 ?_ (d := d) ?_ ?_ ?_ hI
  · rw [show s3 = ⟨s3.w, s3.dim, s.lazy⟩ by rw [← hl, ← l2, ← l3]]
    exact this
  · intro z hz
    by_cases hz0 : z = Prog.tmp0
    · subst hz0; rw [Prog.put_same, h.t0]
    · rw [Prog.put_ne hz0, Prog.put_ne hz0, Prog.put_ne hz, hσ _ hz0]
  · rw [Prog.put_ne (Prog.var_ne0 x), Prog.put_ne (Prog.var_ne0 x), Prog.put_same]
  · intro z hz
    rw [d3, d2, upd_ne _ _ (fun hc => hz (Prog.var_inj.1 hc))]; exact hd z
  · rw [d3, d2, upd_same, hd0]

/-- The stored elements of a variable. -/
theorem stored {s : SProg.State R} {E : SProg.Env R} {ρ : Nat → SProg.Slot3 R} (h : SProg.SimAt s E ρ) {x r c : Nat}
    {f : Nat → Nat → Option R} (hx : E.mat x = some (r, c, f)) :
    ∃ n v k o, s.deref (SProg.var x) = .ok ⟨.col, ⟨r, c, n⟩, v, k, o⟩ ∧ ∃ L, Sparse.Valid ⟨.col, Dim.mk' r c, v, k, o⟩ r c L ∧
      ∀ i j, i < r → j < c → f i j = storedAt (L.getD j []) i := by
  obtain ⟨n, v, k, o, h1, h2, h3⟩ := h.mat hx
  have := h.rep.deref h2
  rw [h1] at this
  obtain ⟨-, L, hL, hf⟩ := h3
  exact ⟨n, v, k, o, this, L, hL, hf⟩

theorem onto_join (op : R → R → R) (a : R) (b : Option R) : (joinStored op id (some a) b).getD a = onto op a b := by
  cases b <;> rfl

/-- `C = A; C op= B` for a sparse `B`. -/
theorem binop_ok (op : R → R → R) {r c fs n : Nat} {d v : Buf R} {k o : Buf Nat} {f : Nat → Nat → R} {g : Nat → Nat → Option R}
    {L : List (List (Nat × R))} (hA : Dense.Is ⟨.col, Dim.mk' r c, d⟩ r c f) (hB : Sparse.Valid ⟨.col, Dim.mk' r c, v, k, o⟩ r c L)
    (hg : ∀ i j, i < r → j < c → g i j = storedAt (L.getD j []) i) :
    ∃ d', Sparse.binopDS op ⟨.col, ⟨r, c, fs⟩, d⟩ ⟨.col, ⟨r, c, n⟩, v, k, o⟩ = .ok ⟨.col, ⟨r, c, fs⟩, d'⟩ ∧
      Dense.Is ⟨.col, Dim.mk' r c, d'⟩ r c (fun i j => onto op (f i j) (g i j)) := by
  obtain ⟨D, e, ho, hD⟩ := Sparse.binopDS_stored op hA hB rfl rfl
  have hD' := hD.congr (g := fun i j => onto op (f i j) (g i j)) fun i j hi hj => by rw [onto_join, hg i j hi hj]
  refine ⟨D.data, ?_, by rw [← Prog.is_dim hD' ho]; exact hD'⟩
  have := Sparse.binopDS_sized op fs ⟨.col, Dim.mk' r c, d⟩ ⟨.col, ⟨r, c, n⟩, v, k, o⟩
  have e' : Sparse.binopDS op ⟨.col, Dim.mk' r c, d⟩ ⟨.col, ⟨r, c, n⟩, v, k, o⟩ = .ok D := e
  rw [e', Prog.is_dim hD ho] at this
  exact this

theorem binassign_ok (op : R → R → R) {r c fs n : Nat} {d v : Buf R} {k o : Buf Nat} {f : Nat → Nat → R} {g : Nat → Nat → Option R}
    {L : List (List (Nat × R))} (hA : Dense.Is ⟨.col, Dim.mk' r c, d⟩ r c f) (hB : Sparse.Valid ⟨.col, Dim.mk' r c, v, k, o⟩ r c L)
    (hg : ∀ i j, i < r → j < c → g i j = storedAt (L.getD j []) i) :
    ∃ d', Sparse.binassignDS op ⟨.col, ⟨r, c, fs⟩, d⟩ ⟨.col, ⟨r, c, n⟩, v, k, o⟩ = .ok ⟨.col, ⟨r, c, fs⟩, d'⟩ ∧
      Dense.Is ⟨.col, Dim.mk' r c, d'⟩ r c (fun i j => onto op (f i j) (g i j)) := by
  obtain ⟨D, e, ho, hD⟩ := Sparse.binassignDS_stored op hA hB rfl
  have hD' := hD.congr (g := fun i j => onto op (f i j) (g i j)) fun i j hi hj => by rw [onto_join, hg i j hi hj]
  refine ⟨D.data, ?_, by rw [← Prog.is_dim hD' ho]; exact hD'⟩
  have := Sparse.binassignDS_sized op fs ⟨.col, Dim.mk' r c, d⟩ ⟨.col, ⟨r, c, n⟩, v, k, o⟩
  have e' : Sparse.binassignDS op ⟨.col, Dim.mk' r c, d⟩ ⟨.col, ⟨r, c, n⟩, v, k, o⟩ = .ok D := e
  rw [e', Prog.is_dim hD ho] at this
  exact this

variable [Zero R] [Add R] [Mul R] [DecidableEq R]

omit [Zero R] [Add R] [Mul R] [DecidableEq R] in
theorem sim_bin (op : R → R → R) {m : State R} {E : Env R} (h : Sim m E) {x y z r c : Nat} {f : Nat → Nat → R} {g : Nat → Nat → Option R}
    (hy : E.d.mat y = some (r, c, f)) (hz : E.s.mat z = some (r, c, g)) (hx : (E.d.vars x).isSome = true) :
    ∃ m', m.bin op x y z = .ok m' ∧ Sim m' { E with d := E.d.put x (some (.mat r c fun i j => onto op (f i j) (g i j))) } := by
  obtain ⟨⟨σ, hd⟩, hS, hl⟩ := h
  obtain ⟨ρ, hs⟩ := id hS
  obtain ⟨dy, fy, y1, y2, y3⟩ := hd.mat hy
  obtain ⟨n, v, k, o, z1, L, hL, hg⟩ := stored hs hz
  obtain ⟨s1, e1, r1, d1, l1⟩ := Prog.store_ex Prog.tmp0 (Dim.mk' 0 0) (hd.rep.dflt hd.t0)
  have rd : ∀ v, s1.dim (Prog.var v) = m.d.dim (Prog.var v) := fun v => by rw [d1, upd_ne _ _ (Prog.var_ne0 v)]
  have hy1 := Prog.deref_mat (s := s1) r1 (by rw [Prog.put_ne (Prog.var_ne0 y)]; exact y1) ((rd y).trans y2)
  obtain ⟨d', e2, hI⟩ := binop_ok op (fs := fy) (n := n) y3 hL hg
  obtain ⟨s2, e3, r2, d2, l2⟩ := Prog.store_ex Prog.tmp0 (s1.dim (Prog.var y)) (r1.assign (x := Prog.tmp0) (y := Prog.var y)
    (by rw [Prog.put_same]; simp) (by rw [Prog.put_ne (Prog.var_ne0 y)]; exact y1))
  obtain ⟨s3, e4, r3, d3, l3⟩ := Prog.writeAll_ex (d := d') r2 Prog.put_same (by rw [y3.alloc, hI.alloc]) (Prog.is_init hI)
  obtain ⟨s4, s5, e5, e6, hs5⟩ := finish (s1 := s3) (fs := fy) (x := x) hd r3 Prog.put_same (by rw [d3, d2, upd_same, rd, y2]) hI
    (fun z hz => by rw [Prog.put_ne hz, Prog.put_ne hz, Prog.put_ne hz])
    (fun z => by rw [d3, d2, upd_ne _ _ (Prog.var_ne0 z)]; exact rd z) (by rw [l3, l2, l1]) hx
  refine ⟨{ m with d := s5 }, ?_, hs5, hS, hl⟩
  simp only [State.bin, e1, bind_ok', hy1, z1, e2, e3, e4, e5, e6, pure_ok']

omit [DecidableEq R] in
/-- The product of operands of different kinds. -/
theorem sim_mulMixed {m : State R} {E : Env R} (h : Sim m E) {x r c : Nat} {a b : Opd} {f : Nat → Nat → R}
    (hp : ∀ d : Prog.State R, (∀ y r c f, E.d.mat y = some (r, c, f) → ∃ e n, d.deref (Prog.var y) = .ok ⟨.col, ⟨r, c, n⟩, e⟩ ∧
        Dense.Is ⟨.col, Dim.mk' r c, e⟩ r c f) →
      ∃ C : Dense R, m.product d a b = .ok C ∧ C.ori = .col ∧ C.Is r c f) (hx : (E.d.vars x).isSome = true) :
    ∃ m', m.mulMixed x a b = .ok m' ∧ Sim m' { E with d := E.d.put x (some (.mat r c f)) } := by
  obtain ⟨⟨σ, hd⟩, hS, hl⟩ := h
  obtain ⟨s1, e1, r1, d1, l1⟩ := Prog.store_ex Prog.tmp0 (Dim.mk' 0 0) (hd.rep.dflt hd.t0)
  obtain ⟨s2, e2, r2, d2, l2⟩ := Prog.store_ex Prog.tmp1 (Dim.mk' 0 0) (r1.dflt (x := Prog.tmp1) (by rw [Prog.put_ne (by decide)]; exact hd.t1))
  have rd : ∀ v, s2.dim (Prog.var v) = m.d.dim (Prog.var v) := fun v => by
    rw [d2, upd_ne _ _ (Prog.var_ne1 v), d1, upd_ne _ _ (Prog.var_ne0 v)]
  obtain ⟨C, eC, hCo, hC⟩ := hp s2 (by
    intro y r c f hy
    obtain ⟨dy, fy, y1, y2, y3⟩ := hd.mat hy
    exact ⟨dy, fy, Prog.deref_mat (s := s2) r2 (by rw [Prog.put_ne (Prog.var_ne1 y), Prog.put_ne (Prog.var_ne0 y)]; exact y1)
      ((rd y).trans y2), y3⟩)
  obtain ⟨s3, e3, r3, d3, l3⟩ := Prog.fillIn_ex r2 (t := Prog.tmp1) Prog.put_same hC
  obtain ⟨s4, e4, r4, d4, l4⟩ := Prog.store_ex Prog.tmp0 (s3.dim Prog.tmp1) (r3.moveAssign (x := Prog.tmp0) (y := Prog.tmp1)
    (by rw [Prog.put_ne (by decide), Prog.put_ne (by decide), Prog.put_same]; simp) Prog.put_same (by decide))
  obtain ⟨s5, e5, r5, d5, l5⟩ := Prog.data_ex (r4.dtor (x := Prog.tmp1) (by rw [Prog.put_same]; simp))
  have hI : Dense.Is ⟨.col, Dim.mk' r c, C.data⟩ r c f := by rw [← Prog.is_dim hC hCo]; exact hC
  have hdim : C.dim = Dim.mk' r c := by rw [Prog.is_dim hC hCo]
  obtain ⟨s6, s7, e6, e7, hs7⟩ := finish (s1 := s5) (fs := r * c) (x := x) hd r5
    (by rw [Prog.put_ne (by decide), Prog.put_ne (by decide), Prog.put_same]) (by rw [d5, d4, upd_same, d3, upd_same, hdim]; rfl) hI
    (by
      intro v hv
      by_cases h1 : v = Prog.tmp1
      · subst h1; rw [Prog.put_same, hd.t1]
      · rw [Prog.put_ne h1, Prog.put_ne h1, Prog.put_ne hv, Prog.put_ne h1, Prog.put_ne h1, Prog.put_ne hv])
    (fun z => by rw [d5, d4, upd_ne _ _ (Prog.var_ne0 z), d3, upd_ne _ _ (Prog.var_ne1 z)]; exact rd z) (by rw [l5, l4, l3, l2, l1]) hx
  refine ⟨{ m with d := s7 }, ?_, hs7, hS, hl⟩
  have e4' : s3.moveAssign Prog.tmp0 Prog.tmp1 = .ok s4 := e4
  simp only [State.mulMixed, e1, e2, bind_ok', eC, e3, e4', e5, e6, e7, pure_ok']

omit [DecidableEq R] in
theorem dot_congr {f f' g g' : Nat → Nat → Option R} {m k n : Nat} (hf : ∀ i l, i < m → l < k → f i l = f' i l)
    (hg : ∀ l j, l < k → j < n → g l j = g' l j) {i j : Nat} (hi : i < m) (hj : j < n) : dotStored f g k i j = dotStored f' g' k i j := by
  unfold dotStored
  refine List.foldl_ext _ _ _ fun s l hl => ?_
  rw [hf i l hi (List.mem_range.1 hl), hg l j (List.mem_range.1 hl) hj]

/-- The product of two variables of any kinds. -/
theorem sim_mul {m : State R} {E E' : Env R} (h : Sim m E) {x : Nat} {a b : Opd} (he : E.mul x a b = some E') :
    ∃ m', m.mul x a b = .ok m' ∧ Sim m' E' := by
  cases a with
  | d y =>
    cases b with
    | d z =>
      obtain ⟨D, h1, rfl⟩ := Option.map_eq_some_iff.1 he
      obtain ⟨d', e1, hd'⟩ := Prog.sim_mul h.1 h1
      exact ⟨{ m with d := d' }, by simp only [State.mul, e1, bind_ok', pure_ok'], hd', h.2⟩
    | s z =>
      simp only [Env.mul] at he
      split at he
      · rename_i r k f k' c g hy hz
        split at he
        · rename_i hk; subst hk
          obtain ⟨D, h1, rfl⟩ := Option.map_eq_some_iff.1 he
          obtain ⟨hx, rfl⟩ := Prog.assign_eq h1
          refine sim_mulMixed h (a := .d y) (b := .s z) (fun d hd => ?_) hx
          obtain ⟨dy, n, y1, y2⟩ := hd y _ _ _ hy
          obtain ⟨-, ⟨ρ, hs⟩, -⟩ := h
          obtain ⟨nz, v, ky, o, z1, L, hL, hg⟩ := stored hs hz
          obtain ⟨C, eC, hCo, hC⟩ := Sparse.mulDS_stored (Dense.empty .col) y2 hL rfl
          have eC' : Sparse.mulDS ⟨.col, ⟨r, k, n⟩, dy⟩ ⟨.col, ⟨k, c, nz⟩, v, ky, o⟩ (Dense.empty .col) = .ok C := eC
          exact ⟨C, by simp only [State.product, y1, z1, bind_ok', eC'], hCo,
            hC.congr fun i j hi hj => dot_congr (m := r) (n := c) (fun _ _ _ _ => rfl) (fun l j hl hj => (hg l j hl hj).symm) hi hj⟩
        · cases he
      · cases he
  | s y =>
    cases b with
    | s z =>
      obtain ⟨S, h1, rfl⟩ := Option.map_eq_some_iff.1 he
      obtain ⟨s', e1, hs'⟩ := SProg.sim_step h.2.1 (.mul x y z) h1
      exact ⟨{ m with s := s' }, by simp only [State.mul, e1, bind_ok', pure_ok'], h.1, hs', h.2.2⟩
    | d z =>
      simp only [Env.mul] at he
      split at he
      · rename_i r k f k' c g hy hz
        split at he
        · rename_i hk; subst hk
          obtain ⟨D, h1, rfl⟩ := Option.map_eq_some_iff.1 he
          obtain ⟨hx, rfl⟩ := Prog.assign_eq h1
          refine sim_mulMixed h (a := .s y) (b := .d z) (fun d hd => ?_) hx
          obtain ⟨dz, n, z1, z2⟩ := hd z _ _ _ hz
          obtain ⟨-, ⟨ρ, hs⟩, -⟩ := h
          obtain ⟨ny, v, ky, o, y1, L, hL, hg⟩ := stored hs hy
          obtain ⟨C, eC, hCo, hC⟩ := Sparse.mulSD_stored (Dense.empty .col) hL z2 rfl rfl rfl
          have eC' : Sparse.mulSD ⟨.col, ⟨r, k, ny⟩, v, ky, o⟩ ⟨.col, ⟨k, c, n⟩, dz⟩ (Dense.empty .col) = .ok C := eC
          exact ⟨C, by simp only [State.product, y1, z1, bind_ok', eC'], hCo,
            hC.congr fun i j hi hj => dot_congr (m := r) (n := c) (fun i l hi hl => (hg i l hi hl).symm) (fun _ _ _ _ => rfl) hi hj⟩
        · cases he
      · cases he

/-- A statement that the language's rules allow does not fail, and has the effect the rules describe. -/
theorem sim_step (comm : ∀ a b : R, a + b = b + a) {m : State R} {E E' : Env R} (h : Sim m E) (t : Stmt R) (he : specStep E t = some E') :
    ∃ m', step m t = .ok m' ∧ Sim m' E' := by
  cases t with
  | dense t =>
    obtain ⟨D, h1, rfl⟩ := Option.map_eq_some_iff.1 he
    obtain ⟨d', e1, hd'⟩ := Prog.sim_step h.1 t h1
    exact ⟨{ m with d := d' }, by simp only [step, e1, bind_ok', pure_ok'], hd', h.2⟩
  | sparse t =>
    obtain ⟨S, h1, rfl⟩ := Option.map_eq_some_iff.1 he
    obtain ⟨s', e1, hs'⟩ := SProg.sim_step h.2.1 t h1
    exact ⟨{ m with s := s' }, by simp only [step, e1, bind_ok', pure_ok'], h.1, hs', h.2.2⟩
  | denseOf x y =>
    simp only [specStep] at he
    split at he
    · rename_i r c n f hy
      split at he
      · rename_i hn; subst hn
        obtain ⟨D, h1, rfl⟩ := Option.map_eq_some_iff.1 he
        obtain ⟨hx, rfl⟩ := Prog.new_eq h1
        obtain ⟨⟨σ, hd⟩, hS, hl⟩ := h
        obtain ⟨ρ, hs⟩ := id hS
        have hv := hs.vals y; rw [hy] at hv
        obtain ⟨y1, v, k, o, y2, y3⟩ := hv
        have dy := hs.rep.deref y2
        rw [y1] at dy
        obtain ⟨C, eC, hCo, hC⟩ := Sparse.toDense_sat (fun a : R => a) rfl .col y3.2.is
        have eC' : Sparse.toDense id .col ⟨.col, ⟨r, c, r * c⟩, v, k, o⟩ = .ok C := eC
        obtain ⟨s1, e1, r1, d1, l1⟩ := Prog.store_ex (Prog.var x) C.dim (hd.rep.size (x := Prog.var x) C.data.length (hd.gone hx))
        obtain ⟨s2, e2, r2, d2, l2⟩ := Prog.writeAll_ex (d := C.data) r1 Prog.put_same (Buf.length_alloc _)
          (Prog.is_init (o := C.ori) (dm := C.dim) hC)
        have hI : Dense.Is ⟨.col, Dim.mk' r c, C.data⟩ r c (fun i j => (f i j).getD 0) := by rw [← Prog.is_dim hC hCo]; exact hC
        have hdim : C.dim = Dim.mk' r c := by rw [Prog.is_dim hC hCo]
        refine ⟨{ m with d := s2 }, by simp only [step, dy, bind_ok', eC', e1, e2, pure_ok'], ⟨put (put σ (Prog.var x) (.held (Buf.alloc C.data.length))) (Prog.var x) (.held C.data), ?_⟩, hS, hl⟩
        have := hd.putMat (x := x) (dim' := s2.dim) (fs := r * c) r2 (d := C.data) (fun z hz => by rw [Prog.put_ne hz, Prog.put_ne hz]) Prog.put_same
          (fun z hz => by rw [d2, d1, upd_ne _ _ (fun hc => hz (Prog.var_inj.1 hc))]) (by rw [d2, d1, upd_same, hdim]; rfl) hI
        rw [← l1, ← l2] at this
        exact this
      · cases he
    · cases he
  | sparseOf x y chk =>
    simp only [specStep] at he
    split at he
    · rename_i r c f hy
      obtain ⟨S, h1, rfl⟩ := Option.map_eq_some_iff.1 he
      obtain ⟨hx, rfl⟩ := SProg.new_eq h1
      obtain ⟨hD, ⟨ρ, hs⟩, hl⟩ := h
      obtain ⟨σ, hd⟩ := id hD
      obtain ⟨dy, fy, y1, y2, y3⟩ := hd.mat hy
      have hy1 := Prog.deref_mat hd.rep y1 y2
      obtain ⟨C, eC, hC⟩ := C117_conversion_stores chk ⟨.col, Dim.mk' r c, dy⟩ r c f y3 rfl
      have eC' : Sparse.ofDense chk id .col ⟨.col, ⟨r, c, fy⟩, dy⟩ = .ok C := eC
      obtain ⟨s1, e1, r1, d1⟩ := hs.rep.construct (x := SProg.var x) (SProg.stores_eq hC).2 (hs.gone hx)
      refine ⟨{ m with s := s1 }, by simp only [step, hy1, bind_ok', eC', e1, pure_ok'], hD, ⟨_, hs.put r1 (fun z hz => upd_ne _ _ hz)
        (fun z hz => by rw [d1, upd_ne _ _ (SProg.var_ne hz)]) ?_⟩, hl⟩
      obtain ⟨e, -⟩ := SProg.stores_eq hC
      refine ⟨by rw [d1, upd_same, e]; rfl, _, _, _, upd_same _ _ _, ?_⟩
      rw [← e]; exact hC
    · cases he
  | bin op x y z =>
    simp only [specStep] at he
    split at he
    · rename_i r c f r' c' g hy hz
      split at he
      · rename_i hk; obtain ⟨rfl, rfl⟩ := hk
        obtain ⟨D, h1, rfl⟩ := Option.map_eq_some_iff.1 he
        obtain ⟨hx, rfl⟩ := Prog.assign_eq h1
        exact sim_bin op h hy hz hx
      · cases he
    · cases he
  | add x y z =>
    simp only [specStep] at he
    split at he
    · rename_i r c f r' c' g hy hz
      split at he
      · rename_i hk; obtain ⟨rfl, rfl⟩ := hk
        obtain ⟨D, h1, rfl⟩ := Option.map_eq_some_iff.1 he
        obtain ⟨hx, rfl⟩ := Prog.assign_eq h1
        have := sim_bin (· + ·) h hz hy hx
        rw [show (fun b a : R => a + b) = (· + ·) from funext fun b => funext fun a => comm a b]
        exact this
      · cases he
    · cases he
  | inplace op x y =>
    simp only [specStep] at he
    split at he
    · rename_i r c f r' c' g hx hy
      split at he
      · rename_i hk; obtain ⟨rfl, rfl⟩ := hk
        obtain ⟨D, h1, rfl⟩ := Option.map_eq_some_iff.1 he
        obtain ⟨-, rfl⟩ := Prog.assign_eq h1
        obtain ⟨⟨σ, hd⟩, hS, hl⟩ := h
        obtain ⟨ρ, hs⟩ := id hS
        obtain ⟨dx, fx, x1, x2, x3⟩ := hd.mat hx
        obtain ⟨n, v, k, o, y1, L, hL, hg⟩ := stored hs hy
        obtain ⟨d', e2, hI⟩ := binassign_ok op (fs := fx) (n := n) x3 hL hg
        obtain ⟨s2, e3, r2, d2, l2⟩ := Prog.writeAll_ex (d := d') hd.rep x1 (by rw [x3.alloc, hI.alloc]) (Prog.is_init hI)
        refine ⟨{ m with d := s2 }, by simp only [step, Prog.deref_mat hd.rep x1 x2, y1, bind_ok', e2, e3, pure_ok'], ⟨put σ (Prog.var x) (.held d'), ?_⟩, hS, hl⟩
        have := hd.putMat (x := x) (dim' := s2.dim) (fs := fx) r2 (d := d') (fun z hz => by rw [Prog.put_ne hz]) Prog.put_same
          (fun z hz => by rw [d2]) (by rw [d2, x2]) hI
        rw [← l2] at this
        exact this
      · cases he
    · cases he
  | mul x a b => exact sim_mul h he
  | lazy p a b =>
    cases he
    refine ⟨_, rfl, h.1, h.2.1, ?_⟩
    funext q
    by_cases hq : q = p
    · subst hq; simp [upd]
    · simp [upd, hq, h.2.2]
  | eval x p =>
    simp only [specStep] at he
    split at he
    · rename_i a b hp
      obtain ⟨m', e, hm⟩ := sim_mul h he
      exact ⟨m', by simp only [step, h.2.2, hp]; exact e, hm⟩
    · cases he

theorem sim_run (comm : ∀ a b : R, a + b = b + a) (prog : List (Stmt R)) {m : State R} {E E' : Env R} (h : Sim m E)
    (he : specRun prog E = some E') : ∃ m', run prog m = .ok m' ∧ Sim m' E' := by
  induction prog generalizing m E with
  | nil => cases he; exact ⟨m, rfl, h⟩
  | cons t ts ih =>
    simp only [specRun] at he
    obtain ⟨E1, h1, h2⟩ := Option.bind_eq_some_iff.1 he
    obtain ⟨m1, e1, hm1⟩ := sim_step comm h t h1
    obtain ⟨m2, e2, hm2⟩ := ih hm1 h2
    exact ⟨m2, by simp only [run, e1, bind_ok']; exact e2, hm2⟩

omit [Zero R] [Add R] [Mul R] [DecidableEq R] in
theorem sim_init : Sim (State.init : State R) Env.init := ⟨Prog.sim_init, SProg.sim_init, rfl⟩

/-! ## C122 -/

/-- C122.  Every program over dense and sparse matrices whose mathematical reading is defined runs without undefined behaviour,
exception or failed assertion; afterwards every dense variable has the dimensions and elements, every sparse variable the dimensions
and stored elements of the mathematical reading, and arrays exist for exactly the variables that are alive.  Of the arithmetic only
commutativity of `+` is assumed (sparse + dense is computed as dense + sparse). -/
theorem C122_programs (comm : ∀ a b : R, a + b = b + a) (prog : List (Stmt R)) (E : Env R) (h : specRun prog .init = some E) :
    ∃ m, run prog .init = .ok m ∧ Prog.Agrees m.d E.d ∧ SProg.Agrees m.s E.s := by
  obtain ⟨m, e, hd, hs, -⟩ := sim_run comm prog sim_init h
  exact ⟨m, e, hd.agrees, hs.agrees⟩

/-- C122.  When the variables are gone, so is all memory. -/
theorem C122_no_leak (comm : ∀ a b : R, a + b = b + a) (prog : List (Stmt R)) (E : Env R) (h : specRun prog .init = some E)
    (hd : ∀ x, E.d.vars x = none) (hs : ∀ x, E.s x = none) :
    ∃ m, run prog .init = .ok m ∧ (∀ b blk, m.d.w.heap b = some blk → blk.user = true) ∧
      (∀ b blk, m.s.wv.heap b = some blk → blk.user = true) ∧ ∀ b blk, m.s.wi.heap b = some blk → blk.user = true := by
  obtain ⟨m, e, ⟨σ, hD⟩, ⟨ρ, hS⟩, -⟩ := sim_run comm prog sim_init h
  have hg : ∀ x, ρ x = .gone := by
    intro x
    match x with
    | 0 => exact hS.t0
    | 1 => exact hS.t1
    | x + 2 => have hv := hS.vals x; rw [hs x] at hv; exact hv
  refine ⟨m, e, C60_no_leak_partial m.d.w hD.rep.1 ?_, C60_no_leak_partial m.s.wv hS.rep.v.1 ?_, C60_no_leak_partial m.s.wi hS.rep.i.1 ?_⟩
  · intro z
    match z with
    | 0 => exact (obj_of_rep hD.rep).1 hD.t0
    | 1 => exact (obj_of_rep hD.rep).1 hD.t1
    | z + 2 => exact (obj_of_rep hD.rep).1 (by have hv := hD.vals z; rw [hd z] at hv; exact hv)
  · intro x
    exact (obj_of_rep hS.rep.v).1 (by rw [SProg.vx, hg]; rfl)
  · intro x
    refine (obj_of_rep hS.rep.i).1 ?_
    unfold SProg.ix
    split <;> rw [hg] <;> rfl

theorem run_append (p q : List (Stmt R)) (m : State R) : run (p ++ q) m = (run p m >>= run q) := by
  induction p generalizing m with
  | nil => rfl
  | cons t ts ih =>
    simp only [List.cons_append, run]
    cases step m t with
    | error e => rfl
    | ok s1 => exact ih s1

theorem run_snoc {p : List (Stmt R)} {t : Stmt R} {m0 m : State R} (h : run p m0 = .ok m) : run (p ++ [t]) m0 = step m t := by
  rw [run_append, h, bind_ok']
  simp only [run]
  cases step m t <;> rfl

/-- C122.  Sums, differences, in-place operations and products of a dense and a sparse matrix that do not fit are stopped by an
assertion, after any program. -/
theorem C122_misfit (comm : ∀ a b : R, a + b = b + a) (prog : List (Stmt R)) (E : Env R) (h : specRun prog .init = some E) (x y z : Nat)
    {r c r' c' n : Nat} {f : Nat → Nat → R} {g : Nat → Nat → Option R} (hy : E.d.vars y = some (.mat r c f))
    (hz : E.s z = some ⟨r', c', n, .stored g⟩) :
    (¬ (r = r' ∧ c = c') → (∀ op, run (prog ++ [.bin op x y z]) .init = .error .assertFail) ∧
      run (prog ++ [.add x z y]) .init = .error .assertFail ∧ ∀ op, run (prog ++ [.inplace op y z]) .init = .error .assertFail) ∧
    (c ≠ r' → run (prog ++ [.mul x (.d y) (.s z)]) .init = .error .assertFail) ∧
    (c' ≠ r → run (prog ++ [.mul x (.s z) (.d y)]) .init = .error .assertFail) := by
  obtain ⟨m, e, ⟨σ, hd⟩, ⟨ρ, hs⟩, -⟩ := sim_run comm prog sim_init h
  obtain ⟨dy, fy, y1, y2, y3⟩ := hd.mat (x := y) (r := r) (c := c) (f := f) (by simp [SpecProg.Env.mat, hy])
  obtain ⟨n', v, k, o, z1, -⟩ := stored hs (x := z) (r := r') (c := c') (f := g) (by simp [SProg.Env.mat, hz])
  obtain ⟨s1, e1, r1, d1, l1⟩ := Prog.store_ex Prog.tmp0 (Dim.mk' 0 0) (hd.rep.dflt hd.t0)
  obtain ⟨s2, e2, r2, d2, l2⟩ := Prog.store_ex Prog.tmp1 (Dim.mk' 0 0) (r1.dflt (x := Prog.tmp1) (by rw [Prog.put_ne (by decide)]; exact hd.t1))
  have y0 := Prog.deref_mat hd.rep y1 y2
  have a1 := Prog.deref_mat (s := s1) (x := Prog.var y) (r := r) (c := c) (fs := fy) r1 (by rw [Prog.put_ne (Prog.var_ne0 y)]; exact y1)
    (by rw [d1, upd_ne _ _ (Prog.var_ne0 y)]; exact y2)
  have a2 := Prog.deref_mat (s := s2) (x := Prog.var y) (r := r) (c := c) (fs := fy) r2 (by rw [Prog.put_ne (Prog.var_ne1 y), Prog.put_ne (Prog.var_ne0 y)]; exact y1)
    (by rw [d2, upd_ne _ _ (Prog.var_ne1 y), d1, upd_ne _ _ (Prog.var_ne0 y)]; exact y2)
  have two : ∀ {α : Type} (k : Res α), ¬ (r = r' ∧ c = c') → (do assertThat (r == r'); assertThat (c == c'); k) = Except.error Fault.assertFail := by
    intro α k hne
    by_cases hr : r = r'
    · have hc : c ≠ c' := fun hc => hne ⟨hr, hc⟩
      simp [assertThat, hr, hc]
    · simp [assertThat, hr]
  refine ⟨fun hne => ⟨fun op => ?_, ?_, fun op => ?_⟩, fun hne => ?_, fun hne => ?_⟩
  · rw [run_snoc e]
    simp only [step, State.bin, e1, bind_ok', a1, z1, Sparse.binopDS, two _ hne, bind_error']
  · rw [run_snoc e]
    simp only [step, State.bin, e1, bind_ok', a1, z1, Sparse.binopDS, two _ hne, bind_error']
  · rw [run_snoc e]
    simp only [step, bind_ok', y0, z1, Sparse.binassignDS, two _ hne, bind_error']
  · rw [run_snoc e]
    simp only [step, State.mul, State.mulMixed, e1, e2, bind_ok', State.product, a2, z1, Sparse.mulDS]
    simp [assertThat, hne]
  · rw [run_snoc e]
    simp only [step, State.mul, State.mulMixed, e1, e2, bind_ok', State.product, a2, z1, Sparse.mulSD]
    simp [assertThat, hne]

/-! ### Deferred products -/

/-- The statement neither writes down nor uses the expression `p`. -/
def Stmt.avoids (p : Nat) : Stmt R → Prop
  | .lazy q _ _ => q ≠ p
  | .eval _ q => q ≠ p
  | _ => True

/-- The same state with other stored expressions. -/
def State.with (m : State R) (l : Nat → Option (Opd × Opd)) : State R := { m with lazy := l }

theorem mul_with (m : State R) (l : Nat → Option (Opd × Opd)) (x : Nat) (a b : Opd) :
    (m.with l).mul x a b = (m.mul x a b).map (·.with l) ∧ ∀ m', m.mul x a b = .ok m' → m'.lazy = m.lazy := by
  have key : ∀ {α : Type} (q : Res α) (k : α → State R), (∀ v, (k v).lazy = m.lazy) →
      (q >>= fun v => pure ((k v).with l)) = Except.map (·.with l) (q >>= fun v => pure (k v)) ∧
      ∀ m', (q >>= fun v => pure (k v)) = Except.ok m' → m'.lazy = m.lazy := by
    intro α q k hk
    cases q with
    | error e => exact ⟨rfl, fun _ h => by cases h⟩
    | ok v => exact ⟨rfl, fun _ h => by cases h; exact hk v⟩
  have mixed : (m.with l).mulMixed x a b = (m.mulMixed x a b).map (·.with l) ∧ ∀ m', m.mulMixed x a b = .ok m' → m'.lazy = m.lazy := by
    have e : ∀ n : State R, n.mulMixed x a b = ((do
        let d ← n.d.store (.dflt Prog.tmp0) Prog.tmp0 (Dim.mk' 0 0)
        let d ← d.store (.dflt Prog.tmp1) Prog.tmp1 (Dim.mk' 0 0)
        let C ← n.product d a b
        let d ← d.fillIn Prog.tmp1 C
        let d ← d.moveAssign Prog.tmp0 Prog.tmp1
        let d ← d.data (.dtor Prog.tmp1)
        let d ← d.moveAssign (Prog.var x) Prog.tmp0
        d.data (.dtor Prog.tmp0) : Res (Prog.State R)) >>= fun d => pure { n with d := d }) := by
      intro n; simp only [State.mulMixed, bind_assoc]
    rw [e, e]
    have hp : ∀ d, (m.with l).product d a b = m.product d a b := by intro d; cases a <;> cases b <;> rfl
    simp only [hp]
    exact key _ (fun d => { m with d := d }) (fun _ => rfl)
  cases a with
  | d y =>
    cases b with
    | d z => exact key _ (fun d => { m with d := d }) (fun _ => rfl)
    | s z => exact mixed
  | s y =>
    cases b with
    | d z => exact mixed
    | s z => exact key _ (fun s => { m with s := s }) (fun _ => rfl)

theorem step_with (m : State R) (p : Nat) (v : Opd × Opd) {t : Stmt R} (h : t.avoids p) :
    step (m.with (upd m.lazy p (some v))) t = (step m t).map fun m' => m'.with (upd m'.lazy p (some v)) := by
  have key : ∀ {α : Type} (q : Res α) (k : α → State R), (∀ v, (k v).lazy = m.lazy) →
      (q >>= fun a => pure ((k a).with (upd m.lazy p (some v)))) =
        Except.map (fun m' => m'.with (upd m'.lazy p (some v))) (q >>= fun a => pure (k a)) := by
    intro α q k hk
    cases q with
    | error e => rfl
    | ok a => simp only [bind_ok', pure_ok', Except.map, hk]
  have mul : ∀ x a b, (m.with (upd m.lazy p (some v))).mul x a b = (m.mul x a b).map fun m' => m'.with (upd m'.lazy p (some v)) := by
    intro x a b
    rw [(mul_with m _ x a b).1]
    cases e : m.mul x a b with
    | error f => rfl
    | ok m' => simp only [Except.map, (mul_with m m.lazy x a b).2 m' e]
  have bin : ∀ op x y z, (m.with (upd m.lazy p (some v))).bin op x y z = (m.bin op x y z).map fun m' => m'.with (upd m'.lazy p (some v)) := by
    intro op x y z
    have e : ∀ n : State R, n.bin op x y z = ((do
        let d ← n.d.store (.dflt Prog.tmp0) Prog.tmp0 (Dim.mk' 0 0)
        let A ← d.deref (Prog.var y)
        let B ← n.s.deref (SProg.var z)
        let C ← Sparse.binopDS op A B
        let d ← d.store (.assign Prog.tmp0 (Prog.var y)) Prog.tmp0 (d.dim (Prog.var y))
        let d ← d.writeAll Prog.tmp0 C.data
        let d ← d.moveAssign (Prog.var x) Prog.tmp0
        d.data (.dtor Prog.tmp0) : Res (Prog.State R)) >>= fun d => pure { n with d := d }) := by
      intro n; simp only [State.bin, bind_assoc]
    rw [e, e]
    exact key _ (fun d => { m with d := d }) (fun _ => rfl)
  cases t with
  | dense t => exact key _ (fun d => { m with d := d }) (fun _ => rfl)
  | sparse t => exact key _ (fun s => { m with s := s }) (fun _ => rfl)
  | denseOf x y =>
    have e : ∀ n : State R, step n (.denseOf x y) = ((do
        let S ← n.s.deref (SProg.var y)
        let D ← S.toDense id .col
        let d ← n.d.store (.size (Prog.var x) D.data.length) (Prog.var x) D.dim
        d.writeAll (Prog.var x) D.data : Res (Prog.State R)) >>= fun d => pure { n with d := d }) := by
      intro n; simp only [step, bind_assoc]
    rw [e, e]
    exact key _ (fun d => { m with d := d }) (fun _ => rfl)
  | sparseOf x y chk =>
    have e : ∀ n : State R, step n (.sparseOf x y chk) = ((do
        let A ← n.d.deref (Prog.var y)
        let C ← Sparse.ofDense chk id .col A
        n.s.construct (SProg.var x) C : Res (SProg.State R)) >>= fun s => pure { n with s := s }) := by
      intro n; simp only [step, bind_assoc]
    rw [e, e]
    exact key _ (fun s => { m with s := s }) (fun _ => rfl)
  | bin op x y z => exact bin op x y z
  | add x y z => exact bin _ x z y
  | inplace op x y =>
    have e : ∀ n : State R, step n (.inplace op x y) = ((do
        let A ← n.d.deref (Prog.var x)
        let B ← n.s.deref (SProg.var y)
        let D ← Sparse.binassignDS op A B
        n.d.writeAll (Prog.var x) D.data : Res (Prog.State R)) >>= fun d => pure { n with d := d }) := by
      intro n; simp only [step, bind_assoc]
    rw [e, e]
    exact key _ (fun d => { m with d := d }) (fun _ => rfl)
  | mul x a b => exact mul x a b
  | lazy q a b =>
    have hq : q ≠ p := h
    show Except.ok _ = Except.ok _
    congr 1
    simp only [State.with]
    congr 1
    funext z
    by_cases h1 : z = q
    · subst h1; rw [upd_same, upd_ne _ _ hq, upd_same]
    · rw [upd_ne _ _ h1]
      by_cases h2 : z = p
      · subst h2; rw [upd_same, upd_same]
      · rw [upd_ne _ _ h2, upd_ne _ _ h2, upd_ne _ _ h1]
  | eval x q =>
    have hq : q ≠ p := h
    have hl : (m.with (upd m.lazy p (some v))).lazy q = m.lazy q := upd_ne _ _ hq
    simp only [step, hl]
    cases m.lazy q with
    | none => rfl
    | some ab => exact mul x ab.1 ab.2

theorem run_with (p : Nat) (v : Opd × Opd) (ss : List (Stmt R)) (h : ∀ t ∈ ss, t.avoids p) (m : State R) :
    run ss (m.with (upd m.lazy p (some v))) = (run ss m).map fun m' => m'.with (upd m'.lazy p (some v)) := by
  induction ss generalizing m with
  | nil => rfl
  | cons t ts ih =>
    simp only [run]
    rw [step_with m p v (h t (List.mem_cons_self ..))]
    cases step m t with
    | error e => rfl
    | ok m' => exact ih (fun u hu => h u (List.mem_cons_of_mem _ hu)) m'

/-- What is left of a run if one does not look at the stored expressions: all memory and dimensions, or the failure. -/
def memory (r : Res (State R)) : Res (Prog.State R × SProg.State R) := r.map fun m => (m.d, m.s)

/-- C122.  A product of operands of any kinds that is written down first (`auto p = a * b;`) and used later, after any statements, is
the product of what `a` and `b` are *then*: the program does exactly what it does with `x = a * b` in the place of `x = p`, memory,
dimensions and failures included. -/
theorem C122_deferred (p x : Nat) (a b : Opd) (ss : List (Stmt R)) (h : ∀ t ∈ ss, t.avoids p) (m : State R) :
    memory (run (.lazy p a b :: ss ++ [.eval x p]) m) = memory (run (ss ++ [.mul x a b]) m) := by
  have e1 : run (.lazy p a b :: ss ++ [.eval x p]) m = run (ss ++ [.eval x p]) (m.with (upd m.lazy p (some (a, b)))) := rfl
  rw [e1, run_append, run_append, run_with p (a, b) ss h]
  cases run ss m with
  | error f => rfl
  | ok m' =>
    simp only [Except.map, bind_ok']
    have hl : (m'.with (upd m'.lazy p (some (a, b)))).lazy p = some (a, b) := upd_same _ _ _
    simp only [run, step, hl]
    rw [(mul_with m' _ x a b).1]
    cases m'.mul x a b <;> rfl

/-- The variable is not alive. -/
def Opd.dead (E : Env R) : Opd → Prop
  | .d y => E.d.vars y = none
  | .s y => E.s y = none

omit [Zero R] [Add R] [Mul R] [DecidableEq R] in
theorem sparse_gone {s : SProg.State R} {ρ : Nat → SProg.Slot3 R} (h : SProg.Rep3 s ρ) {x : Nat} (hx : ρ x = .gone) : s.deref x = .error .ub := by
  have ho := (obj_of_rep h.v (x := x)).1 (by rw [SProg.vx, hx]; rfl)
  simp only [SProg.State.deref, World.get, ho, bind_error']

omit [Zero R] [Add R] [Mul R] [DecidableEq R] in
theorem sparse_live {s : SProg.State R} {ρ : Nat → SProg.Slot3 R} (h : SProg.Rep3 s ρ) {x : Nat} (hx : ρ x ≠ .gone) : ∃ A, s.deref x = .ok A := by
  cases e : ρ x with
  | gone => exact absurd e hx
  | held v k o => exact ⟨_, h.deref e⟩
  | hollow => exact ⟨_, SProg.hollow_deref h e⟩

/-- C122.  The expression does not keep its operands alive: using it after one of them is gone is undefined behaviour, whatever program
came before. -/
theorem C122_dangling (comm : ∀ a b : R, a + b = b + a) (prog : List (Stmt R)) (E : Env R) (h : specRun prog .init = some E) (x p : Nat)
    (a b : Opd) (hp : E.lazy p = some (a, b)) (hd : a.dead E ∨ b.dead E) : run (prog ++ [.eval x p]) .init = .error .ub := by
  obtain ⟨m, e, ⟨σ, hD⟩, ⟨ρ, hS⟩, hl⟩ := sim_run comm prog sim_init h
  rw [run_snoc e]
  simp only [step, hl, hp]
  obtain ⟨s1, e1, r1, d1, l1⟩ := Prog.store_ex Prog.tmp0 (Dim.mk' 0 0) (hD.rep.dflt hD.t0)
  obtain ⟨s2, e2, r2, d2, l2⟩ := Prog.store_ex Prog.tmp1 (Dim.mk' 0 0) (r1.dflt (x := Prog.tmp1) (by rw [Prog.put_ne (by decide)]; exact hD.t1))
  have dg : ∀ v, E.d.vars v = none → s2.deref (Prog.var v) = .error .ub := by
    intro v hv
    have := hD.vals v; rw [hv] at this
    exact Prog.deref_gone r2 (by rw [Prog.put_ne (Prog.var_ne1 v), Prog.put_ne (Prog.var_ne0 v)]; exact this)
  have dl : ∀ v, E.d.vars v ≠ none → ∃ A, s2.deref (Prog.var v) = .ok A := by
    intro v hv
    exact Prog.deref_live (x := Prog.var v) r2 (by
      rw [Prog.put_ne (Prog.var_ne1 v), Prog.put_ne (Prog.var_ne0 v)]
      exact hD.live (Option.isSome_iff_ne_none.2 hv))
  have sg : ∀ v, E.s v = none → m.s.deref (SProg.var v) = .error .ub := by
    intro v hv
    have := hS.vals v; rw [hv] at this
    exact sparse_gone hS.rep this
  have sl : ∀ v, E.s v ≠ none → ∃ A, m.s.deref (SProg.var v) = .ok A := fun v hv =>
    sparse_live hS.rep (hS.live (Option.isSome_iff_ne_none.2 hv))
  cases a with
  | d y =>
    cases b with
    | d z =>
      have hd : E.d.vars y = none ∨ E.d.vars z = none := hd
      simp only [State.mul, Prog.State.mul, e1, e2, bind_ok']
      by_cases hy : E.d.vars y = none
      · rw [dg y hy]; rfl
      · obtain ⟨A, hA⟩ := dl y hy
        rw [hA, bind_ok', dg z (hd.resolve_left hy)]; rfl
    | s z =>
      have hd : E.d.vars y = none ∨ E.s z = none := hd
      simp only [State.mul, State.mulMixed, e1, e2, bind_ok', State.product]
      by_cases hy : E.d.vars y = none
      · rw [dg y hy]; rfl
      · obtain ⟨A, hA⟩ := dl y hy
        rw [hA, bind_ok', sg z (hd.resolve_left hy)]; rfl
  | s y =>
    cases b with
    | d z =>
      have hd : E.s y = none ∨ E.d.vars z = none := hd
      simp only [State.mul, State.mulMixed, e1, e2, bind_ok', State.product]
      by_cases hy : E.s y = none
      · rw [sg y hy]; rfl
      · obtain ⟨A, hA⟩ := sl y hy
        rw [hA, bind_ok', dg z (hd.resolve_left hy)]; rfl
    | s z =>
      have hd : E.s y = none ∨ E.s z = none := hd
      obtain ⟨t1, f1, q1, -⟩ := hS.rep.decl hS.t0
      obtain ⟨t2, f2, q2, -⟩ := q1.decl (x := SProg.tmp1) (by rw [upd_ne _ _ (by decide)]; exact hS.t1)
      have same : ∀ v, upd (upd ρ SProg.tmp0 (.held [] [] [])) SProg.tmp1 (.held [] [] []) (SProg.var v) = ρ (SProg.var v) := fun v => by
        rw [upd_ne _ _ (SProg.var_ne1 v), upd_ne _ _ (SProg.var_ne0 v)]
      have tg : ∀ v, E.s v = none → t2.deref (SProg.var v) = .error .ub := by
        intro v hv
        have := hS.vals v; rw [hv] at this
        exact sparse_gone q2 ((same v).trans this)
      simp only [State.mul, SProg.step, f1, f2, bind_ok']
      by_cases hy : E.s y = none
      · rw [tg y hy]; rfl
      · obtain ⟨A, hA⟩ := sparse_live q2 (x := SProg.var y) (by rw [same]; exact hS.live (Option.isSome_iff_ne_none.2 hy))
        rw [hA, bind_ok', tg z (hd.resolve_left hy)]; rfl

/-! ### Concrete programs -/

/-- Client code: a dense matrix, its sparse version without the zero, a product of the two written down before the dense one changes,
sums, an in-place subtraction, conversion back, a move. -/
def exProg : List (Stmt Int) :=
  [.dense (.new 0 2 2 3), .dense (.set 0 1 0 0), .sparseOf 0 0 (fun v => decide (v ≠ 0)), .lazy 0 (.s 0) (.d 0), .dense (.set 0 0 1 5),
   .dense (.decl 1), .eval 1 0, .bin (· - ·) 1 1 0, .add 1 0 1, .inplace (· - ·) 1 0, .sparse (.decl 1), .mul 1 (.s 0) (.s 0), .denseOf 2 1,
   .mul 2 (.d 2) (.s 1), .sparse (.moveNew 2 1), .sparse (.destroy 0)]

/-- It is legal and has the values one gets with pencil and paper; the expression refers to a variable that is gone. -/
theorem exProg_legal : ∃ E, specRun exProg .init = some E ∧ E.lazy 0 = some (.s 0, .d 0) ∧ E.s 0 = none ∧ E.s 1 = some ⟨2, 2, 4, .hollow⟩ ∧
    (∃ f, E.d.vars 1 = some (.mat 2 2 f) ∧ f 0 0 = 6 ∧ f 0 1 = 21 ∧ f 1 0 = 0 ∧ f 1 1 = 6) ∧
    (∃ f, E.d.vars 2 = some (.mat 2 2 f) ∧ f 0 0 = 81 ∧ f 0 1 = 324 ∧ f 1 0 = 0 ∧ f 1 1 = 81) ∧
    ∃ g, E.s 2 = some ⟨2, 2, 4, .stored g⟩ ∧ g 0 0 = some 9 ∧ g 0 1 = some 18 ∧ g 1 0 = none ∧ g 1 1 = some 9 :=
  ⟨_, rfl, rfl, rfl, rfl, ⟨_, rfl, by decide +kernel, by decide +kernel, by decide +kernel, by decide +kernel⟩,
    ⟨_, rfl, by decide +kernel, by decide +kernel, by decide +kernel, by decide +kernel⟩, _, rfl,
    by decide +kernel, by decide +kernel, by decide +kernel, by decide +kernel⟩

/-- A concrete case for C122_no_leak. -/
theorem exDestroyed : ∃ E, specRun [.dense (.new 0 2 2 (3 : Int)), .sparseOf 0 0 (fun _ => true), .mul 0 (.d 0) (.s 0), .dense (.destroy 0),
    .sparse (.destroy 0)] .init = some E ∧ (∀ x, E.d.vars x = none) ∧ ∀ x, E.s x = none :=
  ⟨_, rfl, fun x => by by_cases h : x = 0 <;> simp [SpecProg.Env.put, SpecProg.Env.init, Env.init, h],
    fun x => by by_cases h : x = 0 <;> simp [SProg.Env.put, SProg.Env.init, Env.init, h]⟩

/-- A concrete case for C122_misfit. -/
theorem exMisfit : ∃ E, specRun [.dense (.new 0 2 3 (1 : Int)), .dense (.new 1 2 2 1), .sparseOf 1 1 (fun _ => true)] .init = some E ∧
    (∃ f, E.d.vars 0 = some (.mat 2 3 f)) ∧ ∃ g, E.s 1 = some ⟨2, 2, 4, .stored g⟩ := ⟨_, rfl, ⟨_, rfl⟩, _, rfl⟩

/-- A concrete case for C122_deferred. -/
theorem exDeferred : ∀ t ∈ [Stmt.dense (.set 0 0 0 (9 : Int)), .lazy 1 (.d 0) (.s 0), .eval 0 1], t.avoids 0 := by simp [Stmt.avoids]

end MProg
end BB
