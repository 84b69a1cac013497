import Verif.Model.BlockProg
import Verif.Props.Blocked
import Verif.Lemmas.Storage
import Verif.Lemmas.StorageLeak

/-! C125: programs over blocked matrix variables. -/

namespace BB.BProg

open Own (upd)

variable {R : Type}

/-- The machine state means `a`: a variable that holds a value is a blocked matrix that denotes it. -/
structure Rel [Zero R] [Add R] (s : State R) (a : Nat → Var R) : Prop where
  unborn : ∀ x, a x = .unborn → s x = none
  moved : ∀ x, a x = .moved → ∃ B, s x = some B
  holds : ∀ x v, a x = .holds v → ∃ B, s x = some B ∧ B.Is v.rs v.cs v.f

theorem Rel.set [Zero R] [Add R] {s : State R} {a : Nat → Var R} (h : Rel s a) (x : Nat) {B : Blocked R} {v : Value R} (hB : B.Is v.rs v.cs v.f) :
    Rel (upd s x (some B)) (put a x (.holds v)) where
  unborn := by
    intro y hy
    by_cases e : y = x
    · simp [put, e] at hy
    · rw [Own.upd_ne _ _ e]; exact h.unborn y (by simpa [put, e] using hy)
  moved := by
    intro y hy
    by_cases e : y = x
    · simp [put, e] at hy
    · rw [Own.upd_ne _ _ e]; exact h.moved y (by simpa [put, e] using hy)
  holds := by
    intro y w hy
    by_cases e : y = x
    · subst e
      simp only [put, if_true, Var.holds.injEq] at hy
      subst hy
      exact ⟨B, by simp, hB⟩
    · rw [Own.upd_ne _ _ e]; exact h.holds y w (by simpa [put, e] using hy)

theorem Rel.leave [Zero R] [Add R] {s : State R} {a : Nat → Var R} (h : Rel s a) (x : Nat) (B : Blocked R) :
    Rel (upd s x (some B)) (put a x .moved) where
  unborn := by
    intro y hy
    by_cases e : y = x
    · simp [put, e] at hy
    · rw [Own.upd_ne _ _ e]; exact h.unborn y (by simpa [put, e] using hy)
  moved := by
    intro y hy
    by_cases e : y = x
    · exact ⟨B, by simp [e]⟩
    · rw [Own.upd_ne _ _ e]; exact h.moved y (by simpa [put, e] using hy)
  holds := by
    intro y w hy
    by_cases e : y = x
    · simp [put, e] at hy
    · rw [Own.upd_ne _ _ e]; exact h.holds y w (by simpa [put, e] using hy)

theorem Rel.obj [Zero R] [Add R] {s : State R} {a : Nat → Var R} (h : Rel s a) {x : Nat} (hx : a x ≠ .unborn) : ∃ B, s.obj x = .ok B := by
  cases e : a x with
  | unborn => exact absurd e hx
  | moved => obtain ⟨B, hB⟩ := h.moved x e; exact ⟨B, by simp [State.obj, hB]⟩
  | holds v => obtain ⟨B, hB, -⟩ := h.holds x v e; exact ⟨B, by simp [State.obj, hB]⟩

theorem Rel.value [Zero R] [Add R] {s : State R} {a : Nat → Var R} (h : Rel s a) {x : Nat} {v : Value R} (hx : a x = .holds v) :
    ∃ B, s x = some B ∧ s.obj x = .ok B ∧ B.Is v.rs v.cs v.f := by
  obtain ⟨B, hB, hI⟩ := h.holds x v hx
  exact ⟨B, hB, by simp [State.obj, hB], hI⟩

/-- Exchanging matrices of the same size. -/
theorem swapped_is [Zero R] [Add R] {A B : Blocked R} {v w : Value R} (hA : A.Is v.rs v.cs v.f) (hB : B.Is w.rs w.cs w.f)
    (h1 : v.rs.sum = w.rs.sum) (h2 : v.cs.sum = w.cs.sum) : (swapped A B).Is w.rs w.cs w.f where
  ori := hB.ori
  rows := hB.rows
  cols := hB.cols
  alloc := hB.alloc
  ubRows := by rw [← h1]; exact hA.ubRows
  ubCols := by rw [← h2]; exact hA.ubCols
  blocks := hB.blocks

theorem Rel.step [NonUnitalSemiring R] [DecidableEq R] {s : State R} {a b : Nat → Var R} (h : Rel s a) (op : Op) (hH : Harmless a op)
    (hop : BProg.step a op = some b) : ∃ s', s.step true op = .ok s' ∧ Rel s' b := by
  cases op with
  | copyOf x y =>
    simp only [BProg.step] at hop
    split at hop
    · rename_i v hx hy
      injection hop with hop
      subst hop
      obtain ⟨B, -, hB, hI⟩ := h.value hy
      exact ⟨_, by simp only [State.step, hB, bind_ok', State.construct, h.unborn x hx]; rfl, h.set x hI⟩
    · cases hop
  | moveOf x y => exact hH.elim
  | assign x y =>
    simp only [BProg.step] at hop
    split at hop
    · cases hop
    · rename_i v hy hx
      injection hop with hop
      subst hop
      obtain ⟨B, -, hB, hI⟩ := h.value hy
      obtain ⟨A, hA⟩ := h.obj (x := x) hx
      exact ⟨_, by simp only [State.step, hA, hB, bind_ok', pure_ok']; rfl, h.set x hI⟩
    · cases hop
  | moveAssign x y =>
    simp only [BProg.step] at hop
    split at hop
    · cases hop
    rename_i hxy
    split at hop
    · cases hop
    · rename_i v hy hx
      injection hop with hop
      subst hop
      obtain ⟨B, -, hB, hI⟩ := h.value hy
      obtain ⟨A, hA⟩ := h.obj (x := x) hx
      exact ⟨_, by simp only [State.step, hA, hB, bind_ok', pure_ok']; rfl, (h.set x hI).leave y _⟩
    · cases hop
  | swap x y =>
    simp only [BProg.step] at hop
    split at hop
    · rename_i v w hx hy
      injection hop with hop
      subst hop
      obtain ⟨A, -, hA, hIA⟩ := h.value hx
      obtain ⟨B, -, hB, hIB⟩ := h.value hy
      obtain ⟨h1, h2⟩ := hH v w hx hy
      exact ⟨_, by simp only [State.step, hA, hB, bind_ok', pure_ok'], (h.set x (swapped_is hIA hIB h1 h2)).set y
        (swapped_is hIB hIA h1.symm h2.symm)⟩
    · cases hop
  | mul x y z =>
    simp only [BProg.step] at hop
    split at hop
    · cases hop
    · rename_i v w hy hz hx
      rw [Option.map_eq_some_iff] at hop
      obtain ⟨p, hp, rfl⟩ := hop
      simp only [Value.mul] at hp
      split at hp
      · rename_i hc
        injection hp with hp
        obtain ⟨A, -, hA, hIA⟩ := h.value hy
        obtain ⟨B, -, hB, hIB⟩ := h.value hz
        obtain ⟨X, hX⟩ := h.obj (x := x) hx
        obtain ⟨C, eC, hC⟩ := Blocked.mul_sat hIA (by rw [hc.1]; exact hIB) hc.2
        refine ⟨_, by simp only [State.step, hX, hA, hB, bind_ok', eC, if_true, pure_ok']; rfl, h.set x ?_⟩
        rw [← hp]
        exact hC
      · cases hp
    · cases hop

theorem Rel.run [NonUnitalSemiring R] [DecidableEq R] {s : State R} {a b : Nat → Var R} (h : Rel s a) (ops : List Op) (hH : AllHarmless ops a)
    (hr : BProg.run ops a = some b) : ∃ s', State.run true ops s = .ok s' ∧ Rel s' b := by
  induction ops generalizing s a with
  | nil =>
    injection hr with hr
    subst hr
    exact ⟨s, rfl, h⟩
  | cons op ops ih =>
    simp only [BProg.run] at hr
    split at hr
    · rename_i a' ha
      obtain ⟨s', e, h'⟩ := h.step op hH.1 ha
      obtain ⟨s'', e', h''⟩ := ih h' (hH.2 _ ha) hr
      exact ⟨s'', by rw [State.run, e, bind_ok', e'], h''⟩
    · cases hr

/-- C125, without constructing by moving and without exchanging matrices of different sizes (and if the compiler elides the copy of
returned variables): every allowed program runs; afterwards every variable that holds a value reports its number of rows and columns
and converts to the dense matrix of its elements. -/
theorem C125_programs_partial [NonUnitalSemiring R] [DecidableEq R] (s : State R) (a b : Nat → Var R) (hs : Rel s a) (ops : List Op)
    (hH : AllHarmless ops a) (hr : BProg.run ops a = some b) :
    ∃ s', State.run true ops s = .ok s' ∧ ∀ x v, b x = .holds v →
      s'.unblocked x = .ok (v.rs.sum, v.cs.sum) ∧ ∃ D, s'.toDense x = .ok D ∧ D.Is v.rs.sum v.cs.sum v.f := by
  obtain ⟨s', e, h⟩ := hs.run ops hH hr
  refine ⟨s', e, fun x v hx => ?_⟩
  obtain ⟨B, -, hB, hI⟩ := h.value hx
  obtain ⟨D, eD, -, hD⟩ := Blocked.toDense_sat hI
  refine ⟨?_, D, ?_, hD⟩
  · rw [State.unblocked, hB, bind_ok', hI.ubRows, hI.ubCols]
    rfl
  · rw [State.toDense, hB, bind_ok', eD]

theorem ptrLoop_error {σ : Type} {cur stop stride : Nat} {F : Nat → σ → Res σ} {x : σ} {e : Fault} (h : cur ≠ stop) (hF : F cur x = .error e) :
    ptrLoop cur stop stride F x = .error e := by
  rw [ptrLoop, ptrLoopAux, if_neg h, hF]
  rfl

/-- A conversion into no memory. -/
theorem toDense_nothing [AddZeroClass R] {G : Dense (Mat R)} {M : Mat R} {r c : Nat} {f : Nat → Nat → R}
    (ho : G.ori = .col) (hr : 0 < G.dim.rows) (hc : 0 < G.dim.cols) (hM : G.get 0 0 = .ok M) (hI : M.Is r c f) (h1 : 0 < r) (h2 : 0 < c) :
    Blocked.toDense ⟨G, 0, 0⟩ = .error .ub := by
  obtain ⟨S, eS, hS⟩ := Mat.toDense_sat hI
  have hSI : S.Is r c f := hS.1
  have hread : G.data.read 0 = .ok M := by
    rw [Dense.get, View.get_eq (show 0 < G.view.rows from hr) (show 0 < G.view.cols from hc)] at hM
    simpa [Dense.view, View.plain, View.pos, ho] using hM
  have hcopy : ∀ v : View, copyInto S v ([] : Buf R) = .error .ub := by
    intro v
    have hrd : S.data.read 0 = .ok (f 0 0) := by
      have := hSI.read (i := 0) (j := 0) h1 h2
      cases hso : S.ori <;> simpa [View.plain, View.pos, hso] using this
    have hb : S.view.rowBegin 0 = 0 := by
      rw [hSI.view_rows]; cases S.ori <;> simp [View.plain, View.rowBegin]
    have he : S.view.rowEnd 0 ≠ 0 := by
      rw [hSI.view_rows]
      have : 0 < r * c := Nat.mul_pos h1 h2
      cases S.ori <;> simp [View.plain, View.rowEnd] <;> omega
    rw [copyInto]
    refine ptrLoop_error (by rw [hSI.rows]; omega) ?_
    rw [hb, ptrLoop_error (e := .ub) he.symm (by rw [hrd]; rfl)]
    rfl
  rw [Blocked.toDense, Blocks.toDenseWith]
  dsimp only
  rw [ptrLoop_error (e := .ub) (show 0 ≠ G.dim.rows by omega)]
  · rfl
  have hb : G.view.rowBegin 0 = 0 := by simp [Dense.view, View.plain, View.rowBegin, ho]
  have he : G.view.rowEnd 0 ≠ 0 := by
    have : 0 < G.dim.rows * G.dim.cols := Nat.mul_pos hr hc
    simp [Dense.view, View.plain, View.rowEnd, ho]
    omega
  rw [hb, ptrLoop_error (e := .ub) he.symm]
  · rfl
  rw [hread, bind_ok', eS, bind_ok']
  show (do let d ← copyInto S _ ([] : Buf R); _) = _
  rw [hcopy]
  rfl

/-- C125, negative, after every program: a matrix that is then constructed by moving a matrix whose first block has an element reports
0 rows and columns; converting it writes to memory that is not there. -/
theorem C125_moved_is_ub [NonUnitalSemiring R] [DecidableEq R] (s : State R) (a b : Nat → Var R) (hs : Rel s a) (ops : List Op)
    (hH : AllHarmless ops a) (hr : BProg.run ops a = some b) (x y h w : Nat) (hs' ws : List Nat) (f : Nat → Nat → R)
    (hx : b x = .unborn) (hy : b y = .holds ⟨h :: hs', w :: ws, f⟩) (hh : 0 < h) (hw : 0 < w) :
    ∃ s' s'', State.run true ops s = .ok s' ∧ s'.step true (.moveOf x y) = .ok s'' ∧ s''.unblocked x = .ok (0, 0) ∧
      s''.toDense x = .error .ub := by
  obtain ⟨s', e, hR⟩ := hs.run ops hH hr
  obtain ⟨B, -, hB, hI⟩ := hR.value hy
  have hxy : x ≠ y := by rintro rfl; rw [hx] at hy; cases hy
  refine ⟨s', upd (upd s' x (some (movedInto B))) y (some (husk B)), e, ?_, ?_, ?_⟩
  · simp only [State.step, hB, bind_ok', State.construct, hR.unborn x hx, pure_ok']
  · simp [State.unblocked, State.obj, Own.upd_ne _ _ hxy, movedInto]
  · obtain ⟨M, eM, hM⟩ := hI.blocks 0 0 (by simp) (by simp)
    have := toDense_nothing (G := B.grid) hI.ori (by rw [hI.rows]; simp) (by rw [hI.cols]; simp) eM hM hh hw
    simpa [State.toDense, State.obj, Own.upd_ne _ _ hxy, movedInto] using this

/-- C125, negative: if the compiler does not elide the copy of the returned product, then after `x = y * z` every conversion of `x` is
undefined (when the first block of the product has an element). -/
theorem C125_product_needs_elision [NonUnitalSemiring R] [DecidableEq R] (s : State R) (a : Nat → Var R) (hs : Rel s a) (x y z h w : Nat)
    (hs' ks ws : List Nat) (f g : Nat → Nat → R) (hx : a x ≠ .unborn) (hy : a y = .holds ⟨h :: hs', ks, f⟩) (hz : a z = .holds ⟨ks, w :: ws, g⟩)
    (hk : ks ≠ []) (hh : 0 < h) (hw : 0 < w) :
    ∃ s', s.step false (.mul x y z) = .ok s' ∧ s'.unblocked x = .ok (0, 0) ∧ s'.toDense x = .error .ub := by
  obtain ⟨X, hX⟩ := hs.obj hx
  obtain ⟨A, -, hA, hIA⟩ := hs.value hy
  obtain ⟨B, -, hB, hIB⟩ := hs.value hz
  obtain ⟨C, eC, hI⟩ := Blocked.mul_sat hIA hIB hk
  refine ⟨upd s x (some (movedInto C)), ?_, ?_, ?_⟩
  · simp only [State.step, hX, hA, hB, bind_ok', eC, pure_ok', Bool.false_eq_true, if_false]
    rfl
  · simp [State.unblocked, State.obj, movedInto]
  · obtain ⟨M, eM, hM⟩ := hI.blocks 0 0 (by simp) (by simp)
    have := toDense_nothing (G := C.grid) hI.ori (by rw [hI.rows]; simp) (by rw [hI.cols]; simp) eM hM hh hw
    simpa [State.toDense, State.obj, movedInto] using this

/-- C125, negative, for every pair of blocked matrices of different sizes: after `swap(x, y)`, `x` and `y` still report their old number of
rows and columns, and a dense matrix made from `x` has the old number of rows and columns of `x`, not those of `y`. -/
theorem C125_swap_keeps_size [NonUnitalSemiring R] [DecidableEq R] (s : State R) (a : Nat → Var R) (hs : Rel s a) (x y : Nat) (v w : Value R)
    (hxy : x ≠ y) (hx : a x = .holds v) (hy : a y = .holds w) :
    ∃ s', s.step true (.swap x y) = .ok s' ∧ s'.unblocked x = .ok (v.rs.sum, v.cs.sum) ∧ s'.unblocked y = .ok (w.rs.sum, w.cs.sum) ∧
      ∀ D, s'.toDense x = .ok D → D.dim.rows = v.rs.sum ∧ D.dim.cols = v.cs.sum := by
  obtain ⟨A, -, hA, hIA⟩ := hs.value hx
  obtain ⟨B, -, hB, hIB⟩ := hs.value hy
  refine ⟨upd (upd s x (some (swapped A B))) y (some (swapped B A)), ?_, ?_, ?_, ?_⟩
  · simp only [State.step, hA, hB, bind_ok', pure_ok']
  · simp [State.unblocked, State.obj, Own.upd_ne _ _ hxy, swapped, hIA.ubRows, hIA.ubCols]
  · simp [State.unblocked, State.obj, swapped, hIB.ubRows, hIB.ubCols]
  · intro D hD
    have hD' : Blocked.toDense (swapped A B) = .ok D := by
      simpa [State.toDense, State.obj, Own.upd_ne _ _ hxy] using hD
    rw [Blocked.toDense, Blocks.toDenseWith] at hD'
    dsimp only at hD'
    obtain ⟨u, -, hu⟩ := Own.bind_eq_ok hD'
    injection hu with hu
    rw [← hu]
    exact ⟨hIA.ubRows, hIA.ubCols⟩

/-- Two variables: the matrix of one row with blocks of 1 and 2 columns, and the same matrix again; variable 2 is not constructed. -/
def exProg : State Int × (Nat → Var Int) :=
  (fun x => if x < 2 then some exBlocked else none,
   fun x => if x < 2 then .holds ⟨[1], [1, 2], fun _ j => if j = 0 then 5 else 0⟩ else .unborn)

theorem exProg_rel : Rel exProg.1 exProg.2 where
  unborn := by
    intro x hx
    simp only [exProg] at hx ⊢
    split at hx
    · cases hx
    · rw [if_neg (by assumption)]
  moved := by
    intro x hx
    simp only [exProg] at hx
    split at hx <;> cases hx
  holds := by
    intro x v hx
    simp only [exProg] at hx ⊢
    split at hx
    · injection hx with hx
      subst hx
      rw [if_pos (by assumption)]
      exact ⟨_, rfl, exBlocked_is⟩
    · cases hx

example : ∃ b, BProg.run [.copyOf 2 0, .moveAssign 0 1, .assign 1 2, .swap 0 1] exProg.2 = some b ∧
    b 2 = .holds ⟨[1], [1, 2], fun _ j => if j = 0 then 5 else 0⟩ ∧ b 5 = .unborn :=
  ⟨_, rfl, rfl, rfl⟩

example : AllHarmless [.copyOf 2 0, .moveAssign 0 1, .assign 1 2] exProg.2 :=
  ⟨trivial, fun _ _ => ⟨trivial, fun _ _ => ⟨trivial, fun _ _ => trivial⟩⟩⟩

end BB.BProg
