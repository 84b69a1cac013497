import Verif.Lemmas.SparseProgSim

/-!
# C119, C120: programs over sparse matrix variables

`specRun` is the mathematical reading of a program: variables are tables of stored elements, no memory.  `run` executes it with
heaps, storages and temporaries.
-/
namespace BB.SProg

open Own

variable {R : Type} [Zero R] [Add R] [Mul R] [DecidableEq R]

omit [Zero R] [Add R] [Mul R] [DecidableEq R] in
theorem setDim_dim (s : State R) (x : Nat) (d : Dim) : (s.setDim x d).dim = upd s.dim x d := rfl

theorem sim_bin (op : R → R → R) (un : R → R) {s : State R} {E E' : Env R} (h : Sim s E) {x y z : Nat}
    (he : specStep E (.bin op un x y z) = some E') : ∃ s', step s (.bin op un x y z) = .ok s' ∧ Sim s' E' := by
  obtain ⟨ρ, h⟩ := h
  simp only [specStep] at he
  split at he
  · rename_i r c f r' c' g hy hz
    split at he
    · rename_i hk; obtain ⟨rfl, rfl⟩ := hk
      obtain ⟨hx, rfl⟩ := assign_eq he
      obtain ⟨ny, vy, ky, oy, y1, y2, y3⟩ := h.mat hy
      obtain ⟨nz, vz, kz, oz, z1, z2, z3⟩ := h.mat hz
      obtain ⟨s1, e1, r1, d1⟩ := h.rep.decl h.t0
      have rd1 : ∀ v, s1.dim (var v) = s.dim (var v) := fun v => by rw [d1, upd_ne _ _ (var_ne0 v)]
      have dy := r1.deref (x := var y) (by rw [upd_ne _ _ (var_ne0 y)]; exact y2)
      have dz := r1.deref (x := var z) (by rw [upd_ne _ _ (var_ne0 z)]; exact z2)
      rw [rd1, y1] at dy
      rw [rd1, z1] at dz
      obtain ⟨C, eC, hC⟩ := binop_keeps op un y3 z3
      have eC' : Sparse.binop op un ⟨.col, ⟨r, c, ny⟩, vy, ky, oy⟩ ⟨.col, ⟨r, c, nz⟩, vz, kz, oz⟩ (Sparse.empty .col) = .ok C := eC
      obtain ⟨s3, e3, r3, d3⟩ := r1.fillIn (x := tmp0) (stores_eq hC).2 (upd_same _ _ _)
      obtain ⟨s', e', hs'⟩ := finish0 (s1 := s3) (C := C) (x := x) h r3 (upd_same _ _ _) (by rw [d3, upd_same]) hC
        (by intro v hv; rw [upd_ne _ _ hv, upd_ne _ _ hv]) (by intro v; rw [d3, upd_ne _ _ (var_ne0 v)]; exact rd1 v) hx
      refine ⟨s', ?_, hs'⟩
      simp only [step, e1, bind_ok', dy, dz, eC', e3]
      exact e'
    · cases he
  · cases he

theorem sim_mul {s : State R} {E E' : Env R} (h : Sim s E) {x y z : Nat} (he : specStep E (.mul x y z) = some E') :
    ∃ s', step s (.mul x y z) = .ok s' ∧ Sim s' E' := by
  obtain ⟨ρ, h⟩ := h
  simp only [specStep] at he
  split at he
  · rename_i r k f k' c g hy hz
    split at he
    · rename_i hk; subst hk
      obtain ⟨hx, rfl⟩ := assign_eq he
      obtain ⟨ny, vy, ky, oy, y1, y2, y3⟩ := h.mat hy
      obtain ⟨nz, vz, kz, oz, z1, z2, z3⟩ := h.mat hz
      obtain ⟨s1, e1, r1, d1⟩ := h.rep.decl h.t0
      obtain ⟨s2, e2, r2, d2⟩ := r1.decl (x := tmp1) (by rw [upd_ne _ _ (by decide)]; exact h.t1)
      have rd : ∀ v, s2.dim (var v) = s.dim (var v) := fun v => by rw [d2, d1, upd_ne _ _ (var_ne1 v), upd_ne _ _ (var_ne0 v)]
      have dy := r2.deref (x := var y) (by rw [upd_ne _ _ (var_ne1 y), upd_ne _ _ (var_ne0 y)]; exact y2)
      have dz := r2.deref (x := var z) (by rw [upd_ne _ _ (var_ne1 z), upd_ne _ _ (var_ne0 z)]; exact z2)
      rw [rd, y1] at dy
      rw [rd, z1] at dz
      obtain ⟨C, eC, hC⟩ := Sparse.mulSS_keeps y3 z3
      have eC' : Sparse.mulSS ⟨.col, ⟨r, k, ny⟩, vy, ky, oy⟩ ⟨.col, ⟨k, c, nz⟩, vz, kz, oz⟩ (Sparse.empty .col) = .ok C := eC
      obtain ⟨s3, e3, r3, d3⟩ := r2.fillIn (x := tmp1) (stores_eq hC).2 (upd_same _ _ _)
      obtain ⟨s4, e4, r4, d4⟩ := r3.moveAssign (x := tmp0) (y := tmp1)
        (by rw [upd_ne _ _ (by decide), upd_ne _ _ (by decide), upd_same]; simp) (upd_same _ _ _) (by decide)
      obtain ⟨s5, e5, r5, d5⟩ := r4.dtor3 (x := tmp1) (by rw [upd_same]; simp)
      obtain ⟨s', e', hs'⟩ := finish0 (s1 := s5) (C := C) (x := x) h r5
        (by rw [upd_ne _ _ (by decide), upd_ne _ _ (by decide), upd_same]) (by rw [d5, d4, upd_same, d3, upd_same]) hC
        (by
          intro v hv
          by_cases h1 : v = tmp1
          · subst h1; rw [upd_same, h.t1]
          · rw [upd_ne _ _ h1, upd_ne _ _ h1, upd_ne _ _ hv, upd_ne _ _ h1, upd_ne _ _ h1, upd_ne _ _ hv])
        (by intro v; rw [d5, d4, d3, upd_ne _ _ (var_ne0 v), upd_ne _ _ (var_ne1 v)]; exact rd v) hx
      refine ⟨s', ?_, hs'⟩
      simp only [step, e1, e2, bind_ok', dy, dz, eC', e3, e4, e5]
      exact e'
    · cases he
  · cases he

theorem sim_trans {s : State R} {E E' : Env R} (h : Sim s E) {x y : Nat} (he : specStep E (.trans x y) = some E') :
    ∃ s', step s (.trans x y) = .ok s' ∧ Sim s' E' := by
  obtain ⟨ρ, h⟩ := h
  simp only [specStep] at he
  split at he
  · rename_i r c f hy
    split at he
    · rename_i hr
      obtain ⟨hx, rfl⟩ := assign_eq he
      obtain ⟨ny, vy, ky, oy, y1, y2, y3⟩ := h.mat hy
      have dy := h.rep.deref y2
      rw [y1] at dy
      obtain ⟨T, eT, hT⟩ := Sparse.transpose_stored y3 hr
      have eT' : Sparse.transpose ⟨.col, ⟨r, c, ny⟩, vy, ky, oy⟩ = .ok T := eT
      obtain ⟨s3, e3, r3, d3⟩ := h.rep.construct (x := tmp0) (stores_eq hT).2 h.t0
      obtain ⟨s', e', hs'⟩ := finish0 (s1 := s3) (C := T) (x := x) h r3 (upd_same _ _ _) (by rw [d3, upd_same]) hT
        (by intro v hv; rw [upd_ne _ _ hv]) (by intro v; rw [d3, upd_ne _ _ (var_ne0 v)]) hx
      refine ⟨s', ?_, hs'⟩
      simp only [step, bind_ok', dy, eT', e3]
      exact e'
    · cases he
  · cases he

omit [Zero R] [Add R] [Mul R] [DecidableEq R] in
/-- A value keeps its meaning if another size is reported. -/
theorem ValOk.resized {ρ τ : Nat → Slot3 R} {dim dim' : Nat → Dim} {x y : Nat} {v : Val R} {n : Nat} (h : ValOk ρ dim x (some v))
    (hτ : τ (var y) = ρ (var x)) (hd : dim' (var y) = { dim (var x) with fullSize := n }) : ValOk τ dim' y (some { v with n := n }) := by
  obtain ⟨r, c, m, d⟩ := v
  cases d with
  | stored f => obtain ⟨h1, a, k, o, h2, h3⟩ := h; exact ⟨by rw [hd, h1], a, k, o, by rw [hτ, h2], h3⟩
  | raw => obtain ⟨h1, a, k, o, h2⟩ := h; exact ⟨by rw [hd, h1], a, k, o, by rw [hτ, h2]⟩
  | hollow => obtain ⟨h1, h2⟩ := h; exact ⟨by rw [hd, h1], by rw [hτ, h2]⟩

omit [Zero R] [Add R] [Mul R] [DecidableEq R] in
theorem ValOk.size {ρ : Nat → Slot3 R} {dim : Nat → Dim} {x : Nat} {v : Val R} (h : ValOk ρ dim x (some v)) : dim (var x) = ⟨v.r, v.c, v.n⟩ := by
  obtain ⟨r, c, m, d⟩ := v
  cases d <;> exact h.1

/-- A statement that the language's rules allow does not fail, and has the effect the rules describe. -/
theorem sim_step {s : State R} {E E' : Env R} (h : Sim s E) (t : Stmt R) (he : specStep E t = some E') :
    ∃ s', step s t = .ok s' ∧ Sim s' E' := by
  cases t with
  | bin op un x y z => exact sim_bin op un h he
  | mul x y z => exact sim_mul h he
  | trans x y => exact sim_trans h he
  | decl x =>
    obtain ⟨ρ, h⟩ := h
    obtain ⟨hx, rfl⟩ := new_eq he
    obtain ⟨s1, e1, r1, d1⟩ := h.rep.decl (h.gone hx)
    refine ⟨s1, e1, _, h.put r1 (fun z hz => upd_ne _ _ hz) (fun z hz => by rw [d1, upd_ne _ _ (var_ne hz)]) ?_⟩
    exact ⟨by rw [d1, upd_same]; rfl, _, _, _, upd_same _ _ _⟩
  | new x r c f chk =>
    obtain ⟨ρ, h⟩ := h
    obtain ⟨hx, rfl⟩ := new_eq he
    obtain ⟨C, eC, hC⟩ := ofDense_keeps chk r c f
    obtain ⟨s1, e1, r1, d1⟩ := h.rep.construct (x := var x) (stores_eq hC).2 (h.gone hx)
    refine ⟨s1, by simp only [step, eC, bind_ok']; exact e1, _, h.put r1 (fun z hz => upd_ne _ _ hz)
      (fun z hz => by rw [d1, upd_ne _ _ (var_ne hz)]) ?_⟩
    obtain ⟨e, -⟩ := stores_eq hC
    refine ⟨by rw [d1, upd_same, e]; rfl, _, _, _, upd_same _ _ _, ?_⟩
    rw [← e]; exact hC
  | resize x r c n =>
    obtain ⟨ρ, h⟩ := h
    simp only [specStep] at he
    split at he
    · rename_i v hv
      obtain ⟨hx, rfl⟩ := assign_eq he
      obtain ⟨-, -, a, k, o, x1, -⟩ := h.val hv
      have r0 : Rep3 (s.setDim (var x) (Dim.mk' r c)) ρ := ⟨h.rep.v, h.rep.i⟩
      obtain ⟨s1, e1, r1, d1⟩ := r0.resize3 x1 (if n = 0 then r * c else n) (c + 1)
      refine ⟨s1, e1, _, h.put r1 (fun z hz => upd_ne _ _ hz) (fun z hz => by rw [d1, setDim_dim, upd_ne _ _ (var_ne hz)]) ?_⟩
      exact ⟨by rw [d1, setDim_dim, upd_same]; rfl, _, _, _, upd_same _ _ _⟩
    · cases he
  | copyNew x y =>
    obtain ⟨ρ, h⟩ := h
    simp only [specStep] at he
    split at he
    · rename_i v hv
      obtain ⟨hx, rfl⟩ := new_eq he
      obtain ⟨-, y1, a, k, o, y2, y3⟩ := h.val hv
      obtain ⟨s1, e1, r1, d1⟩ := h.rep.copy3 (h.gone hx) y2
      refine ⟨s1.setDim (var x) (s.dim (var y)), by simp only [step, e1, bind_ok', pure_ok'], _,
        h.put ⟨r1.v, r1.i⟩ (fun z hz => upd_ne _ _ hz) (fun z hz => by rw [setDim_dim, upd_ne _ _ (var_ne hz), d1]) ?_⟩
      exact y3 _ _ _ (by rw [setDim_dim, upd_same]; exact y1) (upd_same _ _ _)
    · cases he
  | assign x y =>
    obtain ⟨ρ, h⟩ := h
    simp only [specStep] at he
    split at he
    · rename_i v hv
      obtain ⟨hx, rfl⟩ := assign_eq he
      obtain ⟨-, y1, a, k, o, y2, y3⟩ := h.val hv
      obtain ⟨s1, e1, r1, d1⟩ := h.rep.assign3 (h.live hx) y2
      refine ⟨s1.setDim (var x) (s.dim (var y)), by simp only [step, e1, bind_ok', pure_ok'], _,
        h.put ⟨r1.v, r1.i⟩ (fun z hz => upd_ne _ _ hz) (fun z hz => by rw [setDim_dim, upd_ne _ _ (var_ne hz), d1]) ?_⟩
      exact y3 _ _ _ (by rw [setDim_dim, upd_same]; exact y1) (upd_same _ _ _)
    · cases he
  | moveNew x y =>
    obtain ⟨ρ, h⟩ := h
    simp only [specStep] at he
    split at he
    · rename_i v hv
      obtain ⟨E1, h1, rfl⟩ := Option.map_eq_some_iff.1 he
      obtain ⟨hx, rfl⟩ := new_eq h1
      obtain ⟨-, y1, a, k, o, y2, y3⟩ := h.val hv
      have hxy : x ≠ y := by
        intro hc; subst hc
        rw [h.gone hx] at y2; cases y2
      obtain ⟨s1, e1, r1, d1⟩ := h.rep.move3 (h.gone hx) y2
      refine ⟨s1.setDim (var x) (s.dim (var y)), by simp only [step, e1, bind_ok', pure_ok'], _, h.put2 ⟨r1.v, r1.i⟩
        (fun z hz hy => by rw [upd_ne _ _ hy, upd_ne _ _ hz]) (fun z hz hy => by rw [setDim_dim, upd_ne _ _ (var_ne hz), d1]) ?_ ?_⟩
      · intro _
        exact y3 _ _ _ (by rw [setDim_dim, upd_same]; exact y1) (by rw [upd_ne _ _ (var_ne hxy), upd_same])
      · exact ⟨by rw [setDim_dim, upd_ne _ _ (var_ne hxy.symm), d1]; exact y1, upd_same _ _ _⟩
    · cases he
  | move x y =>
    obtain ⟨ρ, h⟩ := h
    simp only [specStep] at he
    split at he
    · rename_i v hv
      split at he
      · cases he
      · rename_i hxy
        obtain ⟨E1, h1, rfl⟩ := Option.map_eq_some_iff.1 he
        obtain ⟨hx, rfl⟩ := assign_eq h1
        obtain ⟨-, y1, a, k, o, y2, y3⟩ := h.val hv
        obtain ⟨s1, e1, r1, d1⟩ := h.rep.moveAssign (h.live hx) y2 (var_ne hxy)
        refine ⟨s1, e1, _, h.put2 r1 (fun z hz hy => by rw [upd_ne _ _ hy, upd_ne _ _ hz])
          (fun z hz hy => by rw [d1, upd_ne _ _ (var_ne hz)]) ?_ ?_⟩
        · intro _
          exact y3 _ _ _ (by rw [d1, upd_same]; exact y1) (by rw [upd_ne _ _ (var_ne hxy), upd_same])
        · exact ⟨by rw [d1, upd_ne _ _ (var_ne (Ne.symm hxy))]; exact y1, upd_same _ _ _⟩
    · cases he
  | swap x y =>
    obtain ⟨ρ, h⟩ := h
    simp only [specStep] at he
    split at he
    · rename_i v u hx hy
      cases he
      obtain ⟨s1, e1, r1, d1⟩ := h.rep.swap3 (h.live (x := x) (by rw [hx]; rfl)) (h.live (x := y) (by rw [hy]; rfl))
      have vx := h.vals x
      have vy := h.vals y
      rw [hx] at vx; rw [hy] at vy
      refine ⟨(s1.setDim (var x) { s.dim (var y) with fullSize := (s.dim (var x)).fullSize }).setDim (var y)
        { s.dim (var x) with fullSize := (s.dim (var y)).fullSize }, by simp only [step, e1, bind_ok', pure_ok'], _, h.put2 ⟨r1.v, r1.i⟩
        (fun z hz hy => by rw [upd_ne _ _ hy, upd_ne _ _ hz])
        (fun z hz hy => by simp only [State.setDim]; rw [upd_ne _ _ (var_ne hy), upd_ne _ _ (var_ne hz), d1]) ?_ ?_⟩
      · intro hxy
        refine vy.resized (by rw [upd_ne _ _ (var_ne hxy), upd_same]) ?_
        simp only [State.setDim]
        rw [upd_ne _ _ (var_ne hxy), upd_same, vx.size]
      · refine vx.resized (upd_same _ _ _) ?_
        simp only [State.setDim]
        rw [upd_same, vy.size]
    · cases he
  | destroy x =>
    obtain ⟨ρ, h⟩ := h
    simp only [specStep] at he
    split at he
    · rename_i hx
      cases he
      obtain ⟨s1, e1, r1, d1⟩ := h.rep.dtor3 (h.live hx)
      exact ⟨s1, e1, _, h.put r1 (fun z hz => upd_ne _ _ hz) (fun z hz => by rw [d1]) (upd_same _ _ _)⟩
    · cases he

theorem sim_run (prog : List (Stmt R)) {s : State R} {E E' : Env R} (h : Sim s E) (he : specRun prog E = some E') :
    ∃ s', run prog s = .ok s' ∧ Sim s' E' := by
  induction prog generalizing s E with
  | nil => cases he; exact ⟨s, rfl, h⟩
  | cons t ts ih =>
    simp only [specRun] at he
    obtain ⟨E1, h1, h2⟩ := Option.bind_eq_some_iff.1 he
    obtain ⟨s1, e1, hs1⟩ := sim_step h t h1
    obtain ⟨s2, e2, hs2⟩ := ih hs1 h2
    exact ⟨s2, by simp only [run, e1, bind_ok']; exact e2, hs2⟩

omit [Zero R] [Add R] [Mul R] [DecidableEq R] in
theorem sim_init : Sim (State.init : State R) Env.init :=
  ⟨fun _ => .gone, ⟨Rep.init, Rep.init.congr fun n => by simp only [ix]; split <;> rfl⟩, rfl, rfl, fun _ => rfl⟩

/-! ## C119 -/

theorem storedAt_snoc {A : Type} (pre : List (Nat × A)) (e : Nat × A) (k : Nat) (h : ∀ a ∈ pre, a.1 < e.1) :
    storedAt (pre ++ [e]) k = if e.1 = k then some e.2 else storedAt pre k := by
  induction pre with
  | nil => by_cases hk : e.1 = k <;> simp [storedAt, hk]
  | cons a pre ih =>
    have h1 := h a (by simp)
    have ih := ih fun b hb => h b (by simp [hb])
    simp only [storedAt, List.cons_append, List.find?_cons] at ih ⊢
    by_cases ha : a.1 = k
    · have hk : e.1 ≠ k := by omega
      simp [ha, hk]
    · simp only [beq_iff_eq, ha, beq_eq_false_iff_ne.2 ha]
      exact ih

omit [Zero R] [Add R] [Mul R] [DecidableEq R] in
/-- A loop over the stored elements of a column finds the one that is looked for. -/
theorem find_stored {S : Sparse R} {r c : Nat} {f : Nat → Nat → Option R} (h : (SMat.sparse S).Stores r c f) {i j : Nat} (hi : i < r) (hj : j < c) :
    S.forRun j (fun k v acc => .ok (if k = i then some v else acc)) none = .ok (f i j) := by
  obtain ⟨ho, L, hL, hf⟩ := h
  have hf := hf i j hi hj
  have hl : L.length = c := by rw [hL.runs, ho]; rfl
  have hq : L[j]? = some (L[j]'(by omega)) := List.getElem?_eq_getElem _
  have hd : L.getD j [] = L[j]'(by omega) := by rw [List.getD_eq_getElem?_getD, hq]; rfl
  rw [ho] at hf
  simp only [Ori.minorIx, Ori.majorIx] at hf
  rw [hd] at hf
  have hs := hL.sorted _ (List.getElem_mem (l := L) (n := j) (by omega))
  have := Sat.forRun hL hq (body := fun k v acc => .ok (if k = i then some v else acc)) (s := (none : Option R)) (fun pre acc => acc = storedAt pre i) rfl
    (by
      intro pre e suf acc hrun hI
      refine ⟨_, rfl, ?_⟩
      rw [storedAt_snoc pre e i, hI]
      intro a ha
      rw [hrun, List.pairwise_append] at hs
      exact hs.2.2 a ha e (by simp))
  obtain ⟨acc, e1, e2⟩ := this
  rw [e1, e2, hf]

/-- The machine agrees with the mathematical reading on everything a program can observe. -/
structure Agrees (s : State R) (E : Env R) : Prop where
  dims : ∀ x v, E x = some v → rows s x = v.r ∧ cols s x = v.c ∧ size s x = v.n
  elems : ∀ x r c n f, E x = some ⟨r, c, n, .stored f⟩ → ∀ i j, i < r → j < c → entry s x i j = .ok (f i j)
  alive : ∀ x, (s.wv.obj (var x)).isSome = (E x).isSome ∧ (s.wi.obj (keyOf (var x))).isSome = (E x).isSome ∧
    (s.wi.obj (offOf (var x))).isSome = (E x).isSome

omit [Zero R] [Add R] [Mul R] [DecidableEq R] in
theorem Sim.agrees {s : State R} {E : Env R} (h : Sim s E) : Agrees s E := by
  obtain ⟨ρ, h⟩ := h
  refine ⟨?_, ?_, ?_⟩
  · intro x v hx
    have hv := h.vals x; rw [hx] at hv
    have := hv.size
    exact ⟨by rw [rows, this], by rw [cols, this], by rw [size, this]⟩
  · intro x r c n f hx i j hi hj
    have hv := h.vals x; rw [hx] at hv
    obtain ⟨h1, v, k, o, h2, h3⟩ := hv
    rw [entry, h.rep.deref h2, bind_ok']
    exact find_stored h3 hi hj
  · intro x
    cases e : E x with
    | none =>
      have hv := h.vals x; rw [e] at hv
      have hv : ρ (var x) = .gone := hv
      rw [(obj_of_rep h.rep.v).1 (by rw [vx, hv]; rfl), (obj_of_rep h.rep.i).1 (by rw [ix_key, hv]; rfl),
        (obj_of_rep h.rep.i).1 (by rw [ix_off, hv]; rfl)]
      exact ⟨rfl, rfl, rfl⟩
    | some v =>
      have hl := h.live (x := x) (by rw [e]; rfl)
      obtain ⟨g1, g2, g3⟩ := Slot3.gone_iff (q := ρ (var x))
      obtain ⟨a, ha⟩ := h.rep.v.live (x := var x) (by rw [vx]; exact fun hc => hl (g1.1 hc))
      obtain ⟨b, hb⟩ := h.rep.i.live (x := keyOf (var x)) (by rw [ix_key]; exact fun hc => hl (g2.1 hc))
      obtain ⟨c, hc⟩ := h.rep.i.live (x := offOf (var x)) (by rw [ix_off]; exact fun hc => hl (g3.1 hc))
      rw [ha, hb, hc]; exact ⟨rfl, rfl, rfl⟩

/-- C119.  Every program over sparse matrices whose mathematical reading is defined runs without undefined behaviour, exception or
failed assertion; afterwards every variable has the dimensions of the mathematical reading, a loop over its stored elements finds
exactly the stored elements of the mathematical reading, and its three arrays exist if and only if it is alive.  Of the arithmetic
nothing is assumed. -/
theorem C119_programs (prog : List (Stmt R)) (E : Env R) (h : specRun prog .init = some E) :
    ∃ s, run prog .init = .ok s ∧ Agrees s E := by
  obtain ⟨s, e, hs⟩ := sim_run prog sim_init h
  exact ⟨s, e, hs.agrees⟩

/-- C119.  When the variables are gone, so is all memory: no array of values, keys or offsets is left, of temporaries neither. -/
theorem C119_no_leak (prog : List (Stmt R)) (E : Env R) (h : specRun prog .init = some E) (hE : ∀ x, E x = none) :
    ∃ s, run prog .init = .ok s ∧ (∀ b blk, s.wv.heap b = some blk → blk.user = true) ∧
      ∀ b blk, s.wi.heap b = some blk → blk.user = true := by
  obtain ⟨s, e, ρ, hs⟩ := sim_run prog sim_init h
  have hg : ∀ x, ρ x = .gone := by
    intro x
    match x with
    | 0 => exact hs.t0
    | 1 => exact hs.t1
    | x + 2 => have hv := hs.vals x; rw [hE x] at hv; exact hv
  refine ⟨s, e, C60_no_leak_partial s.wv hs.rep.v.1 ?_, C60_no_leak_partial s.wi hs.rep.i.1 ?_⟩
  · intro x
    exact (obj_of_rep hs.rep.v).1 (by rw [vx, hg]; rfl)
  · intro x
    refine (obj_of_rep hs.rep.i).1 ?_
    unfold ix
    split <;> rw [hg] <;> rfl

theorem run_append (p q : List (Stmt R)) (s : State R) : run (p ++ q) s = (run p s >>= run q) := by
  induction p generalizing s with
  | nil => rfl
  | cons t ts ih =>
    simp only [List.cons_append, run]
    cases step s t with
    | error e => rfl
    | ok s1 => exact ih s1

theorem run_snoc {p : List (Stmt R)} {t : Stmt R} {s0 s : State R} (h : run p s0 = .ok s) : run (p ++ [t]) s0 = step s t := by
  rw [run_append, h, bind_ok']
  simp only [run]
  cases step s t <;> rfl

/-- C119.  Sums, differences and products of matrices that do not fit are stopped by an assertion, after any program. -/
theorem C119_misfit (prog : List (Stmt R)) (E : Env R) (h : specRun prog .init = some E) (x y z : Nat) {r c n r' c' n' : Nat}
    {f g : Nat → Nat → Option R} (hy : E y = some ⟨r, c, n, .stored f⟩) (hz : E z = some ⟨r', c', n', .stored g⟩) :
    (∀ op un, ¬ (r = r' ∧ c = c') → run (prog ++ [.bin op un x y z]) .init = .error .assertFail) ∧
    (c ≠ r' → run (prog ++ [.mul x y z]) .init = .error .assertFail) := by
  obtain ⟨s, e, ρ, hs⟩ := sim_run prog sim_init h
  have hy' := hs.vals y; rw [hy] at hy'
  have hz' := hs.vals z; rw [hz] at hz'
  obtain ⟨y1, vy, ky, oy, y2, y3⟩ := hy'
  obtain ⟨z1, vz, kz, oz, z2, z3⟩ := hz'
  obtain ⟨s1, e1, r1, d1⟩ := hs.rep.decl hs.t0
  constructor
  · intro op un hne
    rw [run_snoc e]
    have dy := r1.deref (x := var y) (by rw [upd_ne _ _ (var_ne0 y)]; exact y2)
    have dz := r1.deref (x := var z) (by rw [upd_ne _ _ (var_ne0 z)]; exact z2)
    rw [d1, upd_ne _ _ (var_ne0 _), y1] at dy
    rw [d1, upd_ne _ _ (var_ne0 _), z1] at dz
    simp only [step, e1, bind_ok', dy, dz, Sparse.binop]
    by_cases hr : r = r'
    · have hc : c ≠ c' := fun hc => hne ⟨hr, hc⟩
      simp [assertThat, hr, hc]
    · simp [assertThat, hr]
  · intro hne
    obtain ⟨s2, e2, r2, d2⟩ := r1.decl (x := tmp1) (by rw [upd_ne _ _ (by decide)]; exact hs.t1)
    rw [run_snoc e]
    have dy := r2.deref (x := var y) (by rw [upd_ne _ _ (var_ne1 y), upd_ne _ _ (var_ne0 y)]; exact y2)
    have dz := r2.deref (x := var z) (by rw [upd_ne _ _ (var_ne1 z), upd_ne _ _ (var_ne0 z)]; exact z2)
    rw [d2, upd_ne _ _ (var_ne1 _), d1, upd_ne _ _ (var_ne0 _), y1] at dy
    rw [d2, upd_ne _ _ (var_ne1 _), d1, upd_ne _ _ (var_ne0 _), z1] at dz
    simp only [step, e1, e2, bind_ok', dy, dz, Sparse.mulSS]
    simp [assertThat, hne]

/-- C119.  After `x.resize(r, c, n)` there are places for `n` values and keys (for r * c if `n` is 0) and for the offsets of all
columns; what `x` had before does not matter, unless it was moved from. -/
theorem C119_resized (prog : List (Stmt R)) (E : Env R) (h : specRun prog .init = some E) {x r0 c0 n0 : Nat} {d : Data R}
    (hx : E x = some ⟨r0, c0, n0, d⟩) (hd : d ≠ .hollow) (r c n : Nat) :
    ∃ s S, run (prog ++ [.resize x r c n]) .init = .ok s ∧ s.deref (var x) = .ok S ∧ S.dim.rows = r ∧ S.dim.cols = c ∧
      S.value.length = (if n = 0 then r * c else n) ∧ S.key.length = (if n = 0 then r * c else n) ∧ S.offset.length = c + 1 := by
  obtain ⟨s, e, ρ, hs⟩ := sim_run prog sim_init h
  have hv : E.val x = some ⟨r0, c0, n0, d⟩ := by
    unfold Env.val
    rw [hx]
    cases d <;> first | rfl | exact absurd rfl hd
  obtain ⟨-, -, a, k, o, x1, -⟩ := hs.val hv
  have r0 : Rep3 (s.setDim (var x) (Dim.mk' r c)) ρ := ⟨hs.rep.v, hs.rep.i⟩
  obtain ⟨s1, e1, r1, d1⟩ := r0.resize3 x1 (if n = 0 then r * c else n) (c + 1)
  have hd1 := r1.deref (x := var x) (upd_same _ _ _)
  rw [d1, setDim_dim, upd_same] at hd1
  exact ⟨s1, _, by rw [run_snoc e]; exact e1, hd1, rfl, rfl, Dense.length_resizeBuf _ _, Dense.length_resizeBuf _ _, Dense.length_resizeBuf _ _⟩

/-! ## C120: sizes and moved-from matrices -/

/-- The program exchanges no matrices with `swap`. -/
def NoSwap (prog : List (Stmt R)) : Prop := ∀ x y, Stmt.swap x y ∉ prog

/-- Every variable reports the number of its elements as size. -/
def Sized (E : Env R) : Prop := ∀ x v, E x = some v → v.n = v.r * v.c

omit [Zero R] [Add R] [Mul R] [DecidableEq R] in
theorem Sized.put {E : Env R} (h : Sized E) {x : Nat} {v : Option (Val R)} (hv : ∀ u, v = some u → u.n = u.r * u.c) : Sized (E.put x v) := by
  intro z u hz
  unfold Env.put at hz
  split at hz
  · exact hv u hz
  · exact h z u hz

omit [Zero R] [Add R] [Mul R] [DecidableEq R] in
theorem val_some {E : Env R} {x : Nat} {v : Val R} (h : E.val x = some v) : E x = some v := by
  unfold Env.val at h
  split at h
  · cases h
  · exact h

theorem sized_step {E E' : Env R} (h : Sized E) {t : Stmt R} (ht : ∀ x y, t ≠ .swap x y) (he : specStep E t = some E') : Sized E' := by
  cases t with
  | decl x => obtain ⟨-, rfl⟩ := new_eq he; exact h.put fun u hu => by cases hu; rfl
  | new x r c f chk => obtain ⟨-, rfl⟩ := new_eq he; exact h.put fun u hu => by cases hu; rfl
  | resize x r c n =>
    simp only [specStep] at he
    split at he
    · obtain ⟨-, rfl⟩ := assign_eq he; exact h.put fun u hu => by cases hu; rfl
    · cases he
  | copyNew x y =>
    simp only [specStep] at he
    split at he
    · rename_i v hv
      obtain ⟨-, rfl⟩ := new_eq he; exact h.put fun u hu => by cases hu; exact h y _ (val_some hv)
    · cases he
  | assign x y =>
    simp only [specStep] at he
    split at he
    · rename_i v hv
      obtain ⟨-, rfl⟩ := assign_eq he; exact h.put fun u hu => by cases hu; exact h y _ (val_some hv)
    · cases he
  | moveNew x y =>
    simp only [specStep] at he
    split at he
    · rename_i v hv
      obtain ⟨E1, h1, rfl⟩ := Option.map_eq_some_iff.1 he
      obtain ⟨-, rfl⟩ := new_eq h1
      exact (h.put fun u hu => by cases hu; exact h y _ (val_some hv)).put fun u hu => by cases hu; exact h y v (val_some hv)
    · cases he
  | move x y =>
    simp only [specStep] at he
    split at he
    · rename_i v hv
      split at he
      · cases he
      · obtain ⟨E1, h1, rfl⟩ := Option.map_eq_some_iff.1 he
        obtain ⟨-, rfl⟩ := assign_eq h1
        exact (h.put fun u hu => by cases hu; exact h y _ (val_some hv)).put fun u hu => by cases hu; exact h y v (val_some hv)
    · cases he
  | bin op un x y z =>
    simp only [specStep] at he
    split at he
    · split at he
      · obtain ⟨-, rfl⟩ := assign_eq he; exact h.put fun u hu => by cases hu; rfl
      · cases he
    · cases he
  | mul x y z =>
    simp only [specStep] at he
    split at he
    · split at he
      · obtain ⟨-, rfl⟩ := assign_eq he; exact h.put fun u hu => by cases hu; rfl
      · cases he
    · cases he
  | trans x y =>
    simp only [specStep] at he
    split at he
    · split at he
      · obtain ⟨-, rfl⟩ := assign_eq he; exact h.put fun u hu => by cases hu; rfl
      · cases he
    · cases he
  | swap x y => exact absurd rfl (ht x y)
  | destroy x =>
    simp only [specStep] at he
    split at he
    · cases he; exact h.put fun u hu => by cases hu
    · cases he

theorem sized_run (prog : List (Stmt R)) {E E' : Env R} (h : Sized E) (hp : NoSwap prog) (he : specRun prog E = some E') : Sized E' := by
  induction prog generalizing E with
  | nil => cases he; exact h
  | cons t ts ih =>
    simp only [specRun] at he
    obtain ⟨E1, h1, h2⟩ := Option.bind_eq_some_iff.1 he
    exact ih (sized_step h (fun x y hc => hp x y (by simp [hc])) h1) (fun x y hc => hp x y (by simp [hc])) h2

/-- C120, what does hold: in a program without `swap` every matrix reports the number of its elements as size, and its conversion to
a dense matrix has the stored elements, and 0 where none is stored. -/
theorem C120_conversion_partial (prog : List (Stmt R)) (E : Env R) (h : specRun prog .init = some E) (hp : NoSwap prog) {x r c n : Nat}
    {f : Nat → Nat → Option R} (hx : E x = some ⟨r, c, n, .stored f⟩) :
    ∃ s D, run prog .init = .ok s ∧ size s x = r * c ∧ toDense s x = .ok D ∧ D.dim.rows = r ∧ D.dim.cols = c ∧ D.dim.fullSize = r * c ∧
      ∀ i j, i < r → j < c → D.get i j = .ok ((f i j).getD 0) := by
  obtain ⟨s, e, ρ, hs⟩ := sim_run prog sim_init h
  have hn : n = r * c := sized_run prog (E := Env.init) (fun x v hv => by cases hv) hp h x _ hx
  subst hn
  have hv := hs.vals x; rw [hx] at hv
  obtain ⟨h1, v, k, o, h2, h3⟩ := hv
  obtain ⟨D, d1, -, d2⟩ := Sparse.toDense_sat (fun a : R => a) rfl .col h3.2.is
  refine ⟨s, D, e, by rw [size, h1], ?_, d2.rows, d2.cols, d2.size, fun i j hi hj => d2.elems i j hi hj⟩
  rw [toDense, hs.rep.deref h2, bind_ok', h1]
  exact d1

/-- The zero matrix with `r` rows and `c` columns. -/
def exNone (x r c : Nat) : Stmt Int := .new x r c (fun _ _ => 0) (fun v => decide (v ≠ 0))
/-- A matrix of ones. -/
def exOnes (x r c : Nat) : Stmt Int := .new x r c (fun _ _ => 1) (fun v => decide (v ≠ 0))

/-- C120, negative: `swap` exchanges elements and dimensions, but not the size.  The 2×2 matrix then reports size 1, the 1×1 matrix
size 4; the conversion of the former to a dense matrix writes beyond its storage, the conversion of the latter gives a 1×1 matrix with
four elements in its storage. -/
theorem C120_swap_keeps_size :
    ∃ s, run [exOnes 0 1 1, exOnes 1 2 2, .swap 0 1] .init = .ok s ∧ rows s 0 = 2 ∧ cols s 0 = 2 ∧ size s 0 = 1 ∧
      rows s 1 = 1 ∧ cols s 1 = 1 ∧ size s 1 = 4 ∧ toDense s 0 = .error .ub ∧
      ∃ D, toDense s 1 = .ok D ∧ D.dim.rows = 1 ∧ D.dim.cols = 1 ∧ D.data.length = 4 :=
  ⟨_, rfl, rfl, rfl, rfl, rfl, rfl, rfl, rfl, _, rfl, rfl, rfl, rfl⟩

/-- C120, negative: without stored elements the conversion succeeds with a storage that is too small for the dimensions. -/
theorem C120_swap_too_small :
    ∃ s D, run [exNone 0 1 1, exNone 1 2 2, .swap 0 1] .init = .ok s ∧ toDense s 0 = .ok D ∧ D.dim.rows = 2 ∧ D.dim.cols = 2 ∧
      D.data.length = 1 ∧ D.get 1 1 = .error .ub := ⟨_, _, rfl, rfl, rfl, rfl, rfl, rfl⟩

omit [Zero R] [Add R] [Mul R] [DecidableEq R] in
theorem hollow_deref {s : State R} {ρ : Nat → Slot3 R} (h : Rep3 s ρ) {x : Nat} (hx : ρ x = .hollow) : s.deref x = .ok ⟨.col, s.dim x, [], [], []⟩ := by
  have h1 := (obj_of_rep h.v (x := x)).2 (by rw [vx, hx]; rfl)
  have h2 := (obj_of_rep h.i (x := keyOf x)).2 (by rw [ix_key, hx]; rfl)
  have h3 := (obj_of_rep h.i (x := offOf x)).2 (by rw [ix_off, hx]; rfl)
  simp only [State.deref, get_ok h1, get_ok h2, get_ok h3, bind_ok', World.cells, if_true, pure_ok']

/-- C120, negative: after `x = std::move(y)` or `Matrix x(std::move(y))` the matrix `y` still reports its old dimensions, although it
has no elements and no offsets: looking for any element, conversion to a dense matrix, a sum or difference with it as left operand, a
product with it as right operand are undefined behaviour. -/
theorem C120_moved_from (prog : List (Stmt R)) (E : Env R) (h : specRun prog .init = some E) {y r c n : Nat}
    (hy : E y = some ⟨r, c, n, .hollow⟩) :
    ∃ s, run prog .init = .ok s ∧ rows s y = r ∧ cols s y = c ∧ size s y = n ∧ (∀ i j, entry s y i j = .error .ub) ∧
      toDense s y = .error .ub ∧ (∀ x z m k g, E z = some ⟨m, r, k, .stored g⟩ → step s (.mul x z y) = .error .ub) ∧
      ∀ op un x z k g, E z = some ⟨r, c, k, .stored g⟩ → step s (.bin op un x y z) = .error .ub := by
  obtain ⟨s, e, ρ, hs⟩ := sim_run prog sim_init h
  have hv := hs.vals y; rw [hy] at hv
  obtain ⟨h1, h2⟩ := hv
  refine ⟨s, e, by rw [rows, h1], by rw [cols, h1], by rw [size, h1], fun i j => ?_, ?_, ?_, ?_⟩
  · rw [entry, hollow_deref hs.rep h2, bind_ok']; rfl
  · rw [toDense, hollow_deref hs.rep h2, bind_ok']
    simp only [Sparse.toDense]
    obtain ⟨d, hd⟩ : ∃ d, Dense.fillBuf (Buf.alloc (s.dim (var y)).fullSize : Buf R) 0 = .ok d := by
      exact ⟨_, Dense.fillBuf_ok _ _⟩
    rw [hd, bind_ok']
    rfl
  · intro x z m k g hz
    have hz' := hs.vals z; rw [hz] at hz'
    obtain ⟨z1, vz, kz, oz, z2, z3⟩ := hz'
    obtain ⟨s1, e1, r1, d1⟩ := hs.rep.decl hs.t0
    obtain ⟨s2, e2, r2, d2⟩ := r1.decl (x := tmp1) (by rw [upd_ne _ _ (by decide)]; exact hs.t1)
    have dy := hollow_deref r2 (x := var y) (by rw [upd_ne _ _ (var_ne1 y), upd_ne _ _ (var_ne0 y)]; exact h2)
    have dz := r2.deref (x := var z) (by rw [upd_ne _ _ (var_ne1 z), upd_ne _ _ (var_ne0 z)]; exact z2)
    rw [d2, upd_ne _ _ (var_ne1 _), d1, upd_ne _ _ (var_ne0 _), h1] at dy
    rw [d2, upd_ne _ _ (var_ne1 _), d1, upd_ne _ _ (var_ne0 _), z1] at dz
    simp only [step, e1, e2, bind_ok', dy, dz, Sparse.mulSS, Sparse.forRuns]
    simp [assertThat]
  · intro op un x z k g hz
    have hz' := hs.vals z; rw [hz] at hz'
    obtain ⟨z1, vz, kz, oz, z2, z3⟩ := hz'
    obtain ⟨s1, e1, r1, d1⟩ := hs.rep.decl hs.t0
    have dy := hollow_deref r1 (x := var y) (by rw [upd_ne _ _ (var_ne0 y)]; exact h2)
    have dz := r1.deref (x := var z) (by rw [upd_ne _ _ (var_ne0 z)]; exact z2)
    rw [d1, upd_ne _ _ (var_ne0 _), h1] at dy
    rw [d1, upd_ne _ _ (var_ne0 _), z1] at dz
    simp only [step, e1, bind_ok', dy, dz, Sparse.binop, Sparse.forRuns]
    cases hm : (Sparse.emit ((Sparse.empty .col : Sparse R).resize r c)).mark with
    | error e => simp [Sparse.emit, Sparse.resize, Sparse.empty, Emit.mark, resizeBuf_nil, Buf.write, Buf.alloc] at hm
    | ok E => simp [assertThat, hm]

/-- C120, negative: it cannot be resized: whatever the new dimensions, the call throws. -/
theorem C120_resize_throws (prog : List (Stmt R)) (E : Env R) (h : specRun prog .init = some E) {y r c n : Nat}
    (hy : E y = some ⟨r, c, n, .hollow⟩) (r' c' n' : Nat) :
    run (prog ++ [.resize y r' c' n']) .init = .error (.throw "resize storage with not own memory.") := by
  obtain ⟨s, e, ρ, hs⟩ := sim_run prog sim_init h
  have hv := hs.vals y; rw [hy] at hv
  have h2 : ρ (var y) = .hollow := hv.2
  have o1 := (obj_of_rep hs.rep.v (x := var y)).2 (by rw [vx, h2]; rfl)
  have o2 := (obj_of_rep hs.rep.i (x := keyOf (var y))).2 (by rw [ix_key, h2]; rfl)
  have o3 := (obj_of_rep hs.rep.i (x := offOf (var y))).2 (by rw [ix_off, h2]; rfl)
  rw [run_snoc e]
  simp only [step, State.resize3, State.all, State.setDim, Own.step, get_ok o1, get_ok o2, bind_ok']
  generalize (if n' = 0 then r' * c' else n') = m
  by_cases hm : m = 0
  · subst hm; simp [get_ok o3]
  · simp [Ne.symm hm]

/-- C120, what does hold: a moved-from sparse matrix may be assigned (by copy, by move or from an expression) and destroyed; after an
assignment it is a matrix like any other. -/
theorem C120_assignable_partial (prog : List (Stmt R)) (E : Env R) (h : specRun prog .init = some E) {y z r c n r' c' n' : Nat}
    {f : Nat → Nat → Option R} (hy : E y = some ⟨r, c, n, .hollow⟩) (hz : E z = some ⟨r', c', n', .stored f⟩) :
    (∃ s, run (prog ++ [.destroy y]) .init = .ok s) ∧
    (∀ t ∈ [.assign y z, .move y z, .swap y z], ∃ s, run (prog ++ [t]) .init = .ok s ∧ rows s y = r' ∧ cols s y = c' ∧
      ∀ i j, i < r' → j < c' → entry s y i j = .ok (f i j)) ∧
    ∀ op un, ∃ s, run (prog ++ [.bin op un y z z]) .init = .ok s ∧ rows s y = r' ∧ cols s y = c' ∧
      ∀ i j, i < r' → j < c' → entry s y i j = .ok (joinStored op un (f i j) (f i j)) := by
  have hyz : y ≠ z := by intro hc; subst hc; rw [hy] at hz; cases hz
  obtain ⟨s, e, hs⟩ := sim_run prog sim_init h
  have fin : ∀ (t : Stmt R) (E' : Env R) (m : Nat) (g : Nat → Nat → Option R), specStep E t = some E' → E' y = some ⟨r', c', m, .stored g⟩ →
      ∃ s, run (prog ++ [t]) .init = .ok s ∧ rows s y = r' ∧ cols s y = c' ∧ ∀ i j, i < r' → j < c' → entry s y i j = .ok (g i j) := by
    intro t E' m g h1 h2
    obtain ⟨s', e', hs'⟩ := sim_step hs t h1
    have ha := hs'.agrees
    exact ⟨s', by rw [run_snoc e]; exact e', (ha.dims _ _ h2).1, (ha.dims _ _ h2).2.1, ha.elems _ _ _ _ _ h2⟩
  refine ⟨?_, ?_, ?_⟩
  · obtain ⟨s', e', -⟩ := sim_step hs (.destroy y) (E' := E.put y none) (by simp [specStep, hy])
    exact ⟨s', by rw [run_snoc e]; exact e'⟩
  · intro t ht
    simp only [List.mem_cons, List.not_mem_nil, or_false] at ht
    rcases ht with rfl | rfl | rfl
    · exact fin _ (E.put y (some ⟨r', c', n', .stored f⟩)) n' f (by simp [specStep, Env.val, hz, Env.assign, hy]) (by simp [Env.put])
    · exact fin _ ((E.put y (some ⟨r', c', n', .stored f⟩)).put z (some ⟨r', c', n', .hollow⟩)) n' f
        (by simp [specStep, Env.val, hz, Env.assign, hy, hyz]) (by simp [Env.put, hyz])
    · exact fin _ ((E.put y (some ⟨r', c', n, .stored f⟩)).put z (some ⟨r, c, n', .hollow⟩)) n f
        (by simp [specStep, hz, hy]) (by simp [Env.put, hyz])
  · intro op un
    exact fin _ (E.put y (some (.ofStored r' c' fun i j => joinStored op un (f i j) (f i j)))) (r' * c') _
      (by simp [specStep, Env.mat, hz, Env.assign, hy]) (by simp [Env.put, Val.ofStored])

/-! ## Concrete programs -/

/-- Client code: a 2×2 matrix with one zero, its square, a sum with itself, a transpose assigned to its own operand, a move. -/
def exProg : List (Stmt Int) :=
  [.new 0 2 2 (fun i j => if i = 1 ∧ j = 0 then 0 else i + 2 * j + 1) (fun v => decide (v ≠ 0)), .decl 1, .mul 1 0 0,
   .bin (· - ·) (- ·) 1 1 0, .copyNew 2 1, .trans 2 2, .bin (· + ·) id 2 2 2, .moveNew 3 1, .resize 0 3 3 5]

/-- It is legal; variable 1 is moved from, 2 has the elements one gets with pencil and paper, 0 has no contents. -/
theorem exProg_legal : NoSwap exProg ∧ ∃ E, specRun exProg .init = some E ∧ E 1 = some ⟨2, 2, 4, .hollow⟩ ∧
    E 0 = some ⟨3, 3, 9, .raw⟩ ∧ ∃ f, E 2 = some ⟨2, 2, 4, .stored f⟩ ∧ f 0 0 = some 0 ∧ f 0 1 = none ∧ f 1 0 = some 24 ∧ f 1 1 = some 24 :=
  ⟨by intro x y h; simp [exProg] at h, _, rfl, rfl, rfl, _, rfl, by decide, by decide, by decide, by decide⟩

/-- A concrete case for C119_no_leak. -/
theorem exDestroyed : ∃ E, specRun (exProg ++ [.destroy 0, .destroy 1, .destroy 2, .destroy 3]) .init = some E ∧ ∀ x, E x = none :=
  ⟨_, rfl, fun x => by
    simp [Env.put, Env.init]
    intro h3 h2 h1 h0
    simp [h0, h1, h2, h3]⟩

/-- A concrete case for C119_misfit. -/
theorem exMisfit : ∃ E, specRun [exOnes 0 2 3, exOnes 1 2 3] .init = some E ∧ (∃ f, E 0 = some ⟨2, 3, 6, .stored f⟩) ∧
    ∃ g, E 1 = some ⟨2, 3, 6, .stored g⟩ := ⟨_, rfl, ⟨_, rfl⟩, _, rfl⟩

end BB.SProg
