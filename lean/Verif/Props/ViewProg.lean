import Verif.Model.ViewProg
import Verif.Lemmas.Converter
import Verif.Lemmas.Storage
import Verif.Props.Picture

/-! C124: variables that are submatrix views. -/

namespace BB.VProg

open Own (upd)

variable {R : Type}

/-- A view object that is bound to a window of a matrix with `R'` rows and `C'` columns. -/
structure Bound (o : ViewObj) (w : Win) (rc : Nat × Nat) : Prop where
  dim : o.dim = Dim.mk' w.nr w.nc
  src : o.src = some w.mat
  st : o.st = (View.plain .col rc.1 rc.2).subStriped w.nr w.nc w.r0 w.c0
  ld : o.ldRows = if w.narrow then 0 else rc.1
  nr : 0 < w.nr
  nc : 0 < w.nc
  r : w.r0 + w.nr ≤ rc.1
  c : w.c0 + w.nc ≤ rc.2

/-- The machine state means `a`: the matrices are column-major, their sizes fit the machine types of the striped iterator, and they
have the elements of `a`; every view variable is bound to its window. -/
structure Rel (s : State R) (a : Meaning R) : Prop where
  mat : ∀ m, (s.mat m).Is (a.dims m).1 (a.dims m).2 (a.elem m) ∧ (s.mat m).ori = .col
  small : ∀ m, (a.dims m).1 + 1 < 2 ^ 64 ∧ (a.dims m).2 < 2 ^ 31
  fresh : ∀ v, a.view v = none → s.view v = none
  view : ∀ v w, a.view v = some w → ∃ o, s.view v = some o ∧ Bound o w (a.dims w.mat)

theorem Rel.plain {s : State R} {a : Meaning R} (h : Rel s a) (m : Nat) : (s.mat m).view = View.plain .col (a.dims m).1 (a.dims m).2 := by
  rw [(h.mat m).1.view_rows, (h.mat m).2]

theorem Rel.eta {s : State R} {a : Meaning R} (h : Rel s a) (m : Nat) (d : Buf R) :
    ({ s.mat m with data := d } : Dense R) = ⟨.col, Dim.mk' (a.dims m).1 (a.dims m).2, d⟩ := by
  obtain ⟨h1, h2⟩ := h.mat m
  have hd : (s.mat m).dim = Dim.mk' (a.dims m).1 (a.dims m).2 := by
    have e1 := h1.rows; have e2 := h1.cols; have e3 := h1.size
    cases hh : (s.mat m).dim
    rw [hh] at e1 e2 e3
    simp only at e1 e2 e3
    subst e1 e2 e3
    rfl
  show Dense.mk (s.mat m).ori (s.mat m).dim d = _
  rw [h2, hd]

theorem Rel.cells {s : State R} {a : Meaning R} (h : Rel s a) (m : Nat) :
    (View.plain .col (a.dims m).1 (a.dims m).2).Cells (s.mat m).data (fun i j => some (a.elem m i j)) := by
  have := (h.mat m).1.cells
  rwa [h.plain] at this

theorem Rel.len {s : State R} {a : Meaning R} (h : Rel s a) (m : Nat) : (s.mat m).data.length = (a.dims m).1 * (a.dims m).2 :=
  (h.mat m).1.alloc

/-- New elements for one matrix. -/
theorem Rel.setMat {s : State R} {a : Meaning R} (h : Rel s a) (m : Nat) {d : Buf R} {f : Nat → Nat → Nat → R}
    (hlen : d.length = (a.dims m).1 * (a.dims m).2)
    (hd : (View.plain .col (a.dims m).1 (a.dims m).2).Cells d (fun i j => some (f m i j)))
    (hf : ∀ m', m' ≠ m → ∀ i j, f m' i j = a.elem m' i j) :
    Rel { s with mat := upd s.mat m { s.mat m with data := d } } { a with elem := f } where
  mat := by
    intro m'
    by_cases e : m' = m
    · subst e
      simp only [Own.upd_same]
      rw [h.eta]
      exact ⟨Dense.is_mk hlen hd, (h.mat _).2⟩
    · simp only [Own.upd_ne _ _ e]
      refine ⟨((h.mat m').1).congr fun i j _ _ => (hf m' e i j).symm, (h.mat m').2⟩
  small := h.small
  fresh := h.fresh
  view := h.view

/-- A view variable bound. -/
theorem Rel.setView {s : State R} {a : Meaning R} (h : Rel s a) (v : Nat) {o : ViewObj} {w : Win} (hb : Bound o w (a.dims w.mat)) :
    Rel { s with view := upd s.view v (some o) } { a with view := put a.view v (some w) } where
  mat := h.mat
  small := h.small
  fresh := by
    intro u hu
    by_cases e : u = v
    · subst e; simp [put] at hu
    · simp only [put, if_neg e] at hu
      simp only [Own.upd_ne _ _ e]
      exact h.fresh u hu
  view := by
    intro u w' hu
    by_cases e : u = v
    · subst e
      simp only [put, if_true, Option.some.injEq] at hu
      subst hu
      exact ⟨o, by simp, hb⟩
    · simp only [put, if_neg e] at hu
      simp only [Own.upd_ne _ _ e]
      exact h.view u w' hu

theorem Rel.obj {s : State R} {a : Meaning R} (h : Rel s a) {v : Nat} {w : Win} (hv : a.view v = some w) :
    ∃ o, s.view v = some o ∧ s.obj v = .ok o ∧ o.target = .ok w.mat ∧ Bound o w (a.dims w.mat) := by
  obtain ⟨o, ho, hb⟩ := h.view v w hv
  exact ⟨o, ho, by simp [State.obj, ho], by simp [ViewObj.target, hb.src], hb⟩

/-- Where `v(i,j)` is. -/
theorem Bound.pos {o : ViewObj} {w : Win} {rc : Nat × Nat} (h : Bound o w rc) (i j : Nat) :
    o.view.base + o.view.pos i j = (View.plain .col rc.1 rc.2).pos (w.cell i j).1 (w.cell i j).2 := by
  have e1 : o.view.ldRows = if w.narrow then 0 else rc.1 := h.ld
  have e2 : o.view.base = w.r0 + w.c0 * rc.1 := by
    show o.st.data.toNat = _
    rw [h.st]
    show ((0 + w.r0 + w.c0 * rc.1 : Nat) : Int).toNat = _
    rw [Int.toNat_natCast, Nat.zero_add]
  have e3 : o.view.pos i j = i + j * o.view.ldRows := rfl
  rw [e3, e1, e2]
  simp only [View.pos, View.plain, Win.cell]
  split
  · ring
  · ring

theorem Bound.inside {o : ViewObj} {w : Win} {rc : Nat × Nat} (h : Bound o w rc) {i j : Nat} (hi : i < w.nr) (hj : j < w.nc) :
    (w.cell i j).1 < rc.1 ∧ (w.cell i j).2 < rc.2 := by
  have := h.r; have := h.c
  simp only [Win.cell]
  split <;> omega

theorem Rel.get {s : State R} {a : Meaning R} (h : Rel s a) {v : Nat} {w : Win} (hv : a.view v = some w) {i j : Nat} (hi : i < w.nr)
    (hj : j < w.nc) : s.get v i j = .ok (a.elem w.mat (w.cell i j).1 (w.cell i j).2) := by
  obtain ⟨o, -, ho, ht, hb⟩ := h.obj hv
  obtain ⟨h1, h2⟩ := hb.inside hi hj
  rw [State.get, ho, bind_ok', ht, bind_ok', View.get_eq (by rw [show o.view.rows = w.nr by show o.dim.rows = _; rw [hb.dim]; rfl]; exact hi)
    (by rw [show o.view.cols = w.nc by show o.dim.cols = _; rw [hb.dim]; rfl]; exact hj), hb.pos]
  have := (h.cells w.mat).read (i := (w.cell i j).1) (j := (w.cell i j).2) h1 h2 rfl
  simpa [View.plain] using this

theorem Rel.elems {s : State R} {a : Meaning R} (h : Rel s a) {v : Nat} {w : Win} (hv : a.view v = some w) :
    s.elems v = .ok ((List.range (w.nr * w.nc)).map (fun t => a.elem w.mat (w.r0 + t % w.nr) (w.c0 + t / w.nr))) := by
  obtain ⟨o, -, ho, ht, hb⟩ := h.obj hv
  obtain ⟨h1, h2⟩ := h.mat w.mat
  obtain ⟨h3, h4⟩ := h.small w.mat
  have hs : Src.Is (.sub (s.mat w.mat) w.nr w.nc w.r0 w.c0) w.nr w.nc (fun i j => a.elem w.mat (w.r0 + i) (w.c0 + j)) :=
    ⟨rfl, rfl, hb.nr, hb.nc, h2, _, _, _, h1, hb.r, hb.c, h3, by have := hb.c; omega, fun _ _ _ _ => rfl⟩
  have := Src.forEach_eq hs (fun x l => .ok (l ++ [x])) ([] : List R)
  rw [State.elems, ho, bind_ok', ht, bind_ok']
  rw [Src.forEach, h.plain, ← hb.st] at this
  refine Eq.trans ?_ (this.trans ?_)
  · rfl
  · suffices hh : ∀ n, loopN n (fun t l => Except.ok (l ++ [a.elem w.mat (w.r0 + t % w.nr) (w.c0 + t / w.nr)])) ([] : List R)
        = .ok ((List.range n).map (fun t => a.elem w.mat (w.r0 + t % w.nr) (w.c0 + t / w.nr))) from hh _
    intro n
    obtain ⟨l, e, hl⟩ := Sat.loop (n := n) (s := ([] : List R)) (f := fun t l => Except.ok (l ++ [a.elem w.mat (w.r0 + t % w.nr) (w.c0 + t / w.nr)]))
      (fun k l => l = (List.range k).map (fun t => a.elem w.mat (w.r0 + t % w.nr) (w.c0 + t / w.nr))) rfl
      (fun k l _ hk => ⟨_, rfl, by rw [hk, List.range_succ, List.map_append]; rfl⟩)
    rw [e, hl]

/-- Every allowed statement is executed and has its meaning, where a view constructed by moving becomes narrow. -/
theorem Rel.step {s : State R} {a b : Meaning R} (h : Rel s a) (op : Op R) (hop : VProg.step false a op = some b) :
    ∃ s', s.step op = .ok s' ∧ Rel s' b := by
  cases op with
  | window v m nr nc r0 c0 =>
    simp only [VProg.step] at hop
    split at hop
    · rename_i hc
      obtain ⟨hv, h1, h2, h3, h4⟩ := hc
      injection hop with hop
      subst hop
      refine ⟨_, by simp only [State.step, State.construct, h.fresh v hv]; rfl, ?_⟩
      exact h.setView v (w := ⟨m, nr, nc, r0, c0, false⟩) ⟨rfl, rfl, by rw [← h.plain]; rfl, (h.mat m).1.rows, h1, h2, h3, h4⟩
    · cases hop
  | copyOf v u =>
    simp only [VProg.step] at hop
    split at hop
    · rename_i w hv hu
      injection hop with hop
      subst hop
      obtain ⟨o, -, ho, -, hb⟩ := h.obj hu
      refine ⟨_, by simp only [State.step, State.construct, ho, bind_ok', h.fresh v hv]; rfl, ?_⟩
      exact h.setView v ⟨hb.dim, hb.src, hb.st, hb.ld, hb.nr, hb.nc, hb.r, hb.c⟩
    · cases hop
  | moveOf v u =>
    simp only [VProg.step] at hop
    split at hop
    · rename_i w hv hu
      injection hop with hop
      subst hop
      obtain ⟨o, -, ho, -, hb⟩ := h.obj hu
      refine ⟨_, by simp only [State.step, State.construct, ho, bind_ok', h.fresh v hv]; rfl, ?_⟩
      exact h.setView v ⟨hb.dim, hb.src, hb.st, by simp [ViewObj.moved], hb.nr, hb.nc, hb.r, hb.c⟩
    · cases hop
  | assign v u =>
    simp only [VProg.step] at hop
    split at hop
    · rename_i w0 w hv hu
      injection hop with hop
      subst hop
      obtain ⟨o, -, ho, -, hb⟩ := h.obj hu
      obtain ⟨o', -, ho', -, -⟩ := h.obj hv
      refine ⟨_, by simp only [State.step, ho, ho', bind_ok', pure_ok']; rfl, ?_⟩
      exact h.setView v ⟨hb.dim, hb.src, hb.st, hb.ld, hb.nr, hb.nc, hb.r, hb.c⟩
    · cases hop
  | moveAssign v u =>
    simp only [VProg.step] at hop
    split at hop
    · rename_i w0 w hv hu
      injection hop with hop
      subst hop
      obtain ⟨o, -, ho, -, hb⟩ := h.obj hu
      obtain ⟨o', -, ho', -, -⟩ := h.obj hv
      refine ⟨_, by simp only [State.step, ho, ho', bind_ok', pure_ok']; rfl, ?_⟩
      exact h.setView v ⟨hb.dim, hb.src, hb.st, hb.ld, hb.nr, hb.nc, hb.r, hb.c⟩
    · cases hop
  | set v i j x =>
    simp only [VProg.step] at hop
    split at hop
    · rename_i w hv
      split at hop
      · rename_i hij
        injection hop with hop
        subst hop
        obtain ⟨o, -, ho, ht, hb⟩ := h.obj hv
        obtain ⟨h1, h2⟩ := hb.inside hij.1 hij.2
        obtain ⟨d, e, hl, hd, -⟩ := (h.cells w.mat).write (by rw [h.len]; exact View.plain_fits .col _ _) (i := (w.cell i j).1) (j := (w.cell i j).2) x h1 h2
        have e' : o.view.set (s.mat w.mat).data i j x = .ok d := by
          rw [View.set_eq (by rw [show o.view.rows = w.nr by show o.dim.rows = _; rw [hb.dim]; rfl]; exact hij.1)
            (by rw [show o.view.cols = w.nc by show o.dim.cols = _; rw [hb.dim]; rfl]; exact hij.2), hb.pos]
          simpa [View.plain] using e
        refine ⟨_, by simp only [State.step, ho, ht, bind_ok', e', pure_ok']; rfl, ?_⟩
        refine h.setMat w.mat (by rw [hl, h.len]) ?_ ?_
        · refine hd.congr fun I J _ _ => ?_
          simp only [putElem]
          by_cases hc : I = (w.cell i j).1 ∧ J = (w.cell i j).2
          · simp [hc.1, hc.2]
          · simp [hc]
        · intro m' hm I J
          simp [putElem, hm]
      · cases hop
    · cases hop
  | fill v x =>
    simp only [VProg.step] at hop
    split at hop
    · rename_i w hv
      injection hop with hop
      subst hop
      obtain ⟨o, -, ho, ht, hb⟩ := h.obj hv
      obtain ⟨h3, h4⟩ := h.small w.mat
      obtain ⟨d, e, hl, hd⟩ := Info.fillStriped_sat (fuel := (s.mat w.mat).data.length + 1) x (h.len w.mat) hb.nr hb.nc hb.r hb.c (by omega)
        (by have := hb.c; omega) (by rw [h.len]; omega) (h.cells w.mat)
      rw [← hb.st] at e
      refine ⟨_, by simp only [State.step, ho, ht, bind_ok', e, pure_ok']; rfl, ?_⟩
      refine h.setMat w.mat hl ?_ ?_
      · refine hd.congr fun I J _ _ => ?_
        simp only [Win.has, true_and]
        split <;> rfl
      · intro m' hm I J
        simp [hm]
    · cases hop
  | setM m i j x =>
    simp only [VProg.step] at hop
    split at hop
    · rename_i hij
      injection hop with hop
      subst hop
      obtain ⟨d, e, hl, hd, -⟩ := (h.cells m).write (by rw [h.len]; exact View.plain_fits .col _ _) (i := i) (j := j) x hij.1 hij.2
      have e' : (s.mat m).view.set (s.mat m).data i j x = .ok d := by
        rw [h.plain, View.set_eq hij.1 hij.2]
        exact e
      refine ⟨_, by simp only [State.step, Dense.set, e', bind_ok', pure_ok']; rfl, ?_⟩
      refine h.setMat m (by rw [hl, h.len]) ?_ ?_
      · refine hd.congr fun I J _ _ => ?_
        simp only [putElem]
        by_cases hc : I = i ∧ J = j
        · simp [hc.1, hc.2]
        · simp [hc]
      · intro m' hm I J
        simp [putElem, hm]
    · cases hop

theorem Rel.run {s : State R} {a b : Meaning R} (h : Rel s a) (ops : List (Op R)) (hr : VProg.run false ops a = some b) :
    ∃ s', State.run ops s = .ok s' ∧ Rel s' b := by
  induction ops generalizing s a with
  | nil =>
    injection hr with hr
    subst hr
    exact ⟨s, rfl, h⟩
  | cons op ops ih =>
    simp only [VProg.run] at hr
    split at hr
    · rename_i a' ha
      obtain ⟨s', e, h'⟩ := h.step op ha
      obtain ⟨s'', e', h''⟩ := ih h' hr
      exact ⟨s'', by rw [State.run, e, bind_ok', e'], h''⟩
    · cases hr

/-- No view is narrow. -/
def Wide (a : Meaning R) : Prop := ∀ v w, a.view v = some w → w.narrow = false

theorem Wide.put {a : Meaning R} (h : Wide a) (v : Nat) {w : Win} (hw : w.narrow = false) : Wide { a with view := put a.view v (some w) } := by
  intro u w' hu
  by_cases e : u = v
  · subst e
    simp only [VProg.put, if_true, Option.some.injEq] at hu
    rw [← hu, hw]
  · simp only [VProg.put, if_neg e] at hu
    exact h u w' hu

theorem Wide.step {a b : Meaning R} (h : Wide a) (op : Op R) (hop : VProg.step true a op = some b) : Wide b := by
  cases op <;> simp only [VProg.step] at hop <;> split at hop
  all_goals first
    | (cases hop; done)
    | (injection hop with hop; subst hop; first | exact h.put _ rfl | exact h.put _ (h _ _ (by assumption)) | exact h
                                                | exact h.put _ (by simp [h _ _ (by assumption)]))
    | (split at hop
       · injection hop with hop; subst hop; exact h
       · cases hop)

theorem Wide.run {a b : Meaning R} (h : Wide a) (ops : List (Op R)) (hr : VProg.run true ops a = some b) : Wide b := by
  induction ops generalizing a with
  | nil => injection hr with hr; subst hr; exact h
  | cons op ops ih =>
    simp only [VProg.run] at hr
    split at hr
    · rename_i a' ha
      exact ih (h.step op ha) hr
    · cases hr

theorem run_keeps {a : Meaning R} (ops : List (Op R)) (hn : ∀ op ∈ ops, op.isMoveOf = false) : VProg.run true ops a = VProg.run false ops a := by
  induction ops generalizing a with
  | nil => rfl
  | cons op ops ih =>
    have e : VProg.step true a op = VProg.step false a op := by
      have := hn op (by simp)
      cases op <;> first | rfl | (simp [Op.isMoveOf] at this)
    simp only [VProg.run, e]
    split
    · exact ih fun op h => hn op (by simp [h])
    · rfl

/-- The machine at the start of a program: no view has been constructed, matrix `m` is a column-major dense matrix with the dimensions
and elements `a` says; the dimensions fit `size_t` and, for the columns, `int`. -/
structure Start (s : State R) (a : Meaning R) : Prop where
  mat : ∀ m, (s.mat m).Is (a.dims m).1 (a.dims m).2 (a.elem m) ∧ (s.mat m).ori = .col
  small : ∀ m, (a.dims m).1 + 1 < 2 ^ 64 ∧ (a.dims m).2 < 2 ^ 31
  none : ∀ v, a.view v = none ∧ s.view v = none

theorem Start.rel {s : State R} {a : Meaning R} (h : Start s a) : Rel s a :=
  ⟨h.mat, h.small, fun v _ => (h.none v).2, fun v w hv => by rw [(h.none v).1] at hv; cases hv⟩

theorem Start.wide {s : State R} {a : Meaning R} (h : Start s a) : Wide a := fun v w hv => by rw [(h.none v).1] at hv; cases hv

/-- C124, for programs in which no view is constructed by moving another: every allowed program runs, and afterwards every matrix has
the elements the program means and every view has the dimensions of its window, reads the elements of its window with `operator()`, and
iterates over them column by column.  Assigning a view binds it to another window and changes no element. -/
theorem C124_programs_partial (s : State R) (a b : Meaning R) (hs : Start s a) (ops : List (Op R)) (hn : ∀ op ∈ ops, op.isMoveOf = false)
    (hr : VProg.run true ops a = some b) :
    ∃ s', State.run ops s = .ok s' ∧ (∀ m, (s'.mat m).Is (b.dims m).1 (b.dims m).2 (b.elem m)) ∧
      ∀ v w, b.view v = some w →
        s'.dims v = .ok (w.nr, w.nc, w.nr * w.nc) ∧
        (∀ i j, i < w.nr → j < w.nc → s'.get v i j = .ok (b.elem w.mat (w.r0 + i) (w.c0 + j))) ∧
        s'.elems v = .ok ((List.range (w.nr * w.nc)).map (fun t => b.elem w.mat (w.r0 + t % w.nr) (w.c0 + t / w.nr))) := by
  have hw := hs.wide.run ops hr
  rw [run_keeps ops hn] at hr
  obtain ⟨s', e, h⟩ := hs.rel.run ops hr
  refine ⟨s', e, fun m => (h.mat m).1, fun v w hv => ⟨?_, fun i j hi hj => ?_, h.elems hv⟩⟩
  · obtain ⟨o, -, ho, -, hb⟩ := h.obj hv
    rw [State.dims, ho, bind_ok', hb.dim]
    rfl
  · rw [h.get hv hi hj]
    simp [Win.cell, hw v w hv]

/-- C124, for all programs, what the code does: a view that was constructed by moving, and every view copied or assigned from it, keeps
its dimensions and iterates over the elements of its window, but `operator()` addresses the first column of the window for every
column. -/
theorem C124_all_programs (s : State R) (a b : Meaning R) (hs : Start s a) (ops : List (Op R)) (hr : VProg.run false ops a = some b) :
    ∃ s', State.run ops s = .ok s' ∧ (∀ m, (s'.mat m).Is (b.dims m).1 (b.dims m).2 (b.elem m)) ∧
      ∀ v w, b.view v = some w →
        s'.dims v = .ok (w.nr, w.nc, w.nr * w.nc) ∧
        (∀ i j, i < w.nr → j < w.nc →
          s'.get v i j = .ok (if w.narrow then b.elem w.mat (w.r0 + i) w.c0 else b.elem w.mat (w.r0 + i) (w.c0 + j))) ∧
        s'.elems v = .ok ((List.range (w.nr * w.nc)).map (fun t => b.elem w.mat (w.r0 + t % w.nr) (w.c0 + t / w.nr))) := by
  obtain ⟨s', e, h⟩ := hs.rel.run ops hr
  refine ⟨s', e, fun m => (h.mat m).1, fun v w hv => ⟨?_, fun i j hi hj => ?_, h.elems hv⟩⟩
  · obtain ⟨o, -, ho, -, hb⟩ := h.obj hv
    rw [State.dims, ho, bind_ok', hb.dim]
    rfl
  · rw [h.get hv hi hj]
    simp only [Win.cell]
    split <;> rfl

/-- C124, negative, after every program and for every view `u`: `v(i,j)` of a view `v` that is then constructed by moving `u` is `u(i,0)`. -/
theorem C124_moved_view_reads_first_column (s : State R) (a b : Meaning R) (hs : Start s a) (ops : List (Op R))
    (hr : VProg.run false ops a = some b) (v u : Nat) (w : Win) (hv : b.view v = none) (hu : b.view u = some w) :
    ∃ s', State.run (ops ++ [.moveOf v u]) s = .ok s' ∧
      ∀ i j, i < w.nr → j < w.nc → s'.get v i j = s'.get u i 0 ∧ s'.get v i j = .ok (b.elem w.mat (w.r0 + i) w.c0) := by
  obtain ⟨s', e, h⟩ := hs.rel.run ops hr
  have hop : VProg.step false b (.moveOf v u) = some { b with view := put b.view v (some { w with narrow := true }) } := by
    simp only [VProg.step, hv, hu]
    rfl
  obtain ⟨s'', e', h'⟩ := h.step _ hop
  have happ : ∀ (l : List (Op R)) (x : State R) (y : State R), State.run l x = .ok y → ∀ op z, y.step op = .ok z →
      State.run (l ++ [op]) x = .ok z := by
    intro l
    induction l with
    | nil =>
      intro x y hxy op z hz
      injection hxy with hxy
      subst hxy
      simp only [List.nil_append, State.run, hz, bind_ok']
    | cons o l ih =>
      intro x y hxy op z hz
      simp only [State.run] at hxy
      cases hx : x.step o with
      | error er => rw [hx] at hxy; cases hxy
      | ok x' =>
        rw [hx, bind_ok'] at hxy
        simp only [List.cons_append, State.run, hx, bind_ok']
        exact ih x' y hxy op z hz
  refine ⟨s'', happ ops s s' e _ _ e', fun i j hi hj => ?_⟩
  have hne : u ≠ v := by rintro rfl; rw [hv] at hu; cases hu
  have g1 := h'.get (v := v) (w := { w with narrow := true }) (by simp [put]) hi hj
  have g2 := h'.get (v := u) (w := w) (by simp [put, hne, hu]) hi (show 0 < w.nc by omega)
  rw [g1, g2]
  refine ⟨?_, ?_⟩
  · simp [Win.cell]
  · simp [Win.cell]

/-- C124, negative, for every pair of views: `std::swap(v, u)`, which moves `v` into a temporary `t`, leaves `v` bound to the window
of `u`, and `u` to the window of `v` – but `u(i,j)` now is the element in the first column. -/
theorem C124_swapped_view_reads_first_column (s : State R) (a b : Meaning R) (hs : Start s a) (ops : List (Op R))
    (hr : VProg.run false ops a = some b) (v u t : Nat) (w1 w2 : Win) (hvu : v ≠ u) (ht : b.view t = none) (hv : b.view v = some w1)
    (hu : b.view u = some w2) :
    ∃ s' s'', State.run ops s = .ok s' ∧ State.run [.moveOf t v, .moveAssign v u, .moveAssign u t] s' = .ok s'' ∧
      (∀ i j, i < w2.nr → j < w2.nc → s''.get v i j = s'.get u i j) ∧
      (∀ i j, i < w1.nr → j < w1.nc → s''.get u i j = s'.get v i 0) ∧ s''.elems u = s'.elems v := by
  obtain ⟨s', e, h⟩ := hs.rel.run ops hr
  have htv : v ≠ t := by rintro rfl; rw [ht] at hv; cases hv
  have htu : u ≠ t := by rintro rfl; rw [ht] at hu; cases hu
  have hrun : VProg.run false [.moveOf t v, .moveAssign v u, .moveAssign u t] b =
      some { b with view := put (put (put b.view t (some { w1 with narrow := true })) v (some w2)) u (some { w1 with narrow := true }) } := by
    simp [VProg.run, VProg.step, ht, hv, hu, put, htv, htu, htv.symm, htu.symm, hvu.symm, hvu]
  obtain ⟨s'', e', h'⟩ := h.run _ hrun
  have v1 : (put (put (put b.view t (some { w1 with narrow := true })) v (some w2)) u (some { w1 with narrow := true })) v = some w2 := by
    simp [put, hvu]
  have v2 : (put (put (put b.view t (some { w1 with narrow := true })) v (some w2)) u (some { w1 with narrow := true })) u
      = some { w1 with narrow := true } := by simp [put]
  refine ⟨s', s'', e, e', fun i j hi hj => ?_, fun i j hi hj => ?_, ?_⟩
  · rw [h'.get v1 hi hj, h.get hu hi hj]
  · rw [h'.get v2 hi hj, h.get hv hi (show 0 < w1.nc by omega)]
    simp [Win.cell]
  · rw [h'.elems v2, h.elems hv]

/-- C124: `v == u` exactly when both are bound to the same window of the same matrix. -/
theorem C124_equal_views (s : State R) (a b : Meaning R) (hs : Start s a) (ops : List (Op R)) (hr : VProg.run false ops a = some b) :
    ∃ s', State.run ops s = .ok s' ∧ ∀ v u w1 w2, b.view v = some w1 → b.view u = some w2 →
      s'.same v u = .ok (decide (w1.mat = w2.mat ∧ w1.nr = w2.nr ∧ w1.nc = w2.nc ∧ w1.r0 = w2.r0 ∧ w1.c0 = w2.c0)) := by
  obtain ⟨s', e, h⟩ := hs.rel.run ops hr
  refine ⟨s', e, fun v u w1 w2 hv hu => ?_⟩
  obtain ⟨o1, -, ho1, -, hb1⟩ := h.obj hv
  obtain ⟨o2, -, ho2, -, hb2⟩ := h.obj hu
  rw [State.same, ho1, bind_ok', ho2, bind_ok']
  rw [pure_ok']
  congr 1
  rw [Bool.eq_iff_iff]
  simp only [Bool.and_eq_true, beq_iff_eq, decide_eq_true_eq, hb1.src, hb2.src, hb1.st, hb2.st, hb1.dim, hb2.dim, Dim.beq, Dim.mk',
    Option.some.injEq, View.subStriped, View.plain]
  constructor
  · rintro ⟨⟨⟨⟨⟨⟨hm, hd⟩, -⟩, hr⟩, hc⟩, -⟩, -, -⟩
    refine ⟨hm, hr, hc, ?_⟩
    rw [hm] at hb1 hd
    have hd' := Int.natCast_inj.1 hd
    have r1 := hb1.r; have r2 := hb2.r; have n1 := hb1.nr; have n2 := hb2.nr
    have fit := View.plain_fits .col (b.dims w2.mat).1 (b.dims w2.mat).2
    have c1 := hb1.c; have c2 := hb2.c; have k1 := hb1.nc; have k2 := hb2.nc
    exact View.pos_inj fit (i := w1.r0) (j := w1.c0) (k := w2.r0) (l := w2.c0) (show _ < (b.dims w2.mat).1 by omega)
      (show _ < (b.dims w2.mat).2 by omega) (show _ < (b.dims w2.mat).1 by omega)
      (show _ < (b.dims w2.mat).2 by omega) (by simp only [View.pos, View.plain]; omega)
  · rintro ⟨hm, hr, hc, h1, h2⟩
    rw [hm, hr, hc, h1, h2]
    simp

/-- A concrete start: every matrix variable is a 3×2 matrix with the elements 10*row + column. -/
def exStart : State Nat × Meaning Nat :=
  (⟨fun _ => Dense.ofFn .col 3 2 (fun i j => 10 * i + j), fun _ => none⟩, ⟨fun _ => (3, 2), fun _ i j => 10 * i + j, fun _ => none⟩)

theorem exStart_ok : Start exStart.1 exStart.2 where
  mat := fun _ => ⟨Dense.ofFn_is .col 3 2 (fun i j => 10 * i + j), rfl⟩
  small := fun _ => by show 3 + 1 < 2 ^ 64 ∧ 2 < 2 ^ 31; decide
  none := fun _ => ⟨rfl, rfl⟩

/-- C124, negative, concretely: the window of the last two rows; (0,1) is 11 through the view and 10 through the view moved from it;
setting (0,1) through the moved view changes element (1,0) of the matrix. -/
theorem C124_moved_view_is_wrong :
    ((State.run [.window 0 0 2 2 1 0, .moveOf 1 0] exStart.1).bind fun s => (do return ((← s.get 0 0 1), (← s.get 1 0 1)) : Res (Nat × Nat)))
      = .ok (11, 10) ∧
    ((State.run [.window 0 0 2 2 1 0, .moveOf 1 0, .set 1 0 1 7] exStart.1).bind fun s =>
      (do return ((← (s.mat 0).get 1 1), (← (s.mat 0).get 1 0)) : Res (Nat × Nat))) = .ok (11, 7) := by
  decide +kernel

example : (VProg.run true [.window 0 0 2 2 1 0, .window 1 1 1 1 2 1, .assign 1 0, .set 1 1 1 99, .fill 0 5, .copyOf 2 1] exStart.2).isSome := by
  decide +kernel
example : ∃ b, VProg.run false [.window 0 0 2 2 1 0, .window 2 1 1 1 2 1] exStart.2 = some b ∧ b.view 1 = none ∧
    b.view 0 = some ⟨0, 2, 2, 1, 0, false⟩ ∧ b.view 2 = some ⟨1, 1, 1, 2, 1, false⟩ := ⟨_, rfl, rfl, rfl, rfl⟩

end BB.VProg
