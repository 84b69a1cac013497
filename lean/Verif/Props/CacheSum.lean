import Verif.SpecCacheSum
import Verif.Props.Cache

/-! C113: remembered norms and occupations of computed matrices. -/

namespace BB.Cache

variable {R V : Type}

/-- The object computed from two operands is in the state of a sum. -/
theorem computed_inv {I : Obj (SMat R) R V → State → Prop} (hfresh : ∀ m, I (.fresh m) .clean)
    (htouch : ∀ o s m, I o s → I { o with mat := m } s.touch)
    (hsame : ∀ o s, I o s → I { o with mat := o.mat } s)
    {keep : Bool} {a b : Obj (SMat R) R V} {m : SMat R} {s t : State} (ha : I a s) (hb : I b t)
    (hz : kindOf b.mat = .zero → m = a.mat) (hz' : kindOf a.mat = .zero → kindOf b.mat ≠ .zero → m = b.mat) :
    I (computed keep a b m) (sumState keep (some (kindOf a.mat)) (some (kindOf b.mat)) s t) := by
  cases keep with
  | false => exact hfresh m
  | true =>
    simp only [computed, sumState, if_true]
    cases hA : a.mat with
    | dense A =>
      cases hB : b.mat with
      | dense B => exact hfresh m
      | sparse B => exact htouch a s m ha
      | zero d =>
        rw [hB] at hz
        have := hz rfl
        subst this
        exact hsame a s ha
    | sparse A =>
      cases hB : b.mat with
      | dense B => exact htouch b t m hb
      | sparse B => exact hfresh m
      | zero d =>
        rw [hB] at hz
        have := hz rfl
        subst this
        exact hsame a s ha
    | zero e =>
      cases hB : b.mat with
      | dense B =>
        rw [hA, hB] at hz'
        have := hz' rfl (by nofun)
        rw [← hB] at this
        subst this
        exact hsame b t hb
      | sparse B =>
        rw [hA, hB] at hz'
        have := hz' rfl (by nofun)
        rw [← hB] at this
        subst this
        exact hsame b t hb
      | zero d =>
        rw [hB] at hz
        have := hz rfl
        subst this
        exact hsame a s ha

theorem binop_zero {op : R → R → R} {un : R → R} {A B m : SMat R} (h : SMat.binop op un A B = .ok m) :
    (kindOf B = .zero → m = A) ∧ (kindOf A = .zero → kindOf B ≠ .zero → m = B) := by
  constructor
  · intro hB
    cases B with
    | zero d => cases A <;> (cases h; rfl)
    | dense _ => cases hB
    | sparse _ => cases hB
  · intro hA hB
    cases A with
    | zero d =>
      cases B with
      | zero _ => exact absurd rfl hB
      | dense _ => cases h; rfl
      | sparse _ => cases h; rfl
    | dense _ => cases hA
    | sparse _ => cases hA

variable [LinearOrder R] [Ring R]

omit [LinearOrder R] [Ring R] in
theorem kind_get {p : Pool (SMat R) R V} {x : Nat} {o : Obj (SMat R) R V} (h : p.get x = .ok o) : p.kind x = some (kindOf o.mat) := by
  unfold Pool.kind
  rw [get_ok h]
  rfl

theorem astep_inv {K : Ops (SMat R) R V} {p p' : Pool (SMat R) R V} {op : AOp R} {a : Ans V} {g : Nat → State} (w : What)
    {I : Obj (SMat R) R V → State → Prop}
    (hbase : ∀ {op : Op (SMat R) R}, step K p op = .ok (p', a) → ∀ z o, p' z = some o → I o (track w g op z))
    (hfresh : ∀ m, I (.fresh m) .clean) (htouch : ∀ o s m, I o s → I { o with mat := m } s.touch)
    (hinv : ∀ z o, p z = some o → I o (g z)) (h : astep K p op = .ok (p', a)) :
    ∀ z o, p' z = some o → I o (atrack w p g op z) := by
  cases op with
  | op o => exact hbase h
  | add keep x y z =>
    obtain ⟨oa, h1, h⟩ := bind_eq_ok h
    obtain ⟨ob, h2, h⟩ := bind_eq_ok h
    obtain ⟨m, h3, h⟩ := bind_eq_ok h
    cases h
    intro u o hu
    rcases set_some hu with ⟨rfl, rfl⟩ | ⟨hne, hu⟩
    · simp only [atrack, if_true, kind_get h1, kind_get h2]
      exact computed_inv hfresh htouch (fun o s h => h) (hinv _ _ (get_ok h1)) (hinv _ _ (get_ok h2)) (binop_zero h3).1 (binop_zero h3).2
    · simp only [atrack, if_neg hne]
      exact hinv _ _ hu
  | sub keep x y z =>
    obtain ⟨oa, h1, h⟩ := bind_eq_ok h
    obtain ⟨ob, h2, h⟩ := bind_eq_ok h
    obtain ⟨m, h3, h⟩ := bind_eq_ok h
    cases h
    intro u o hu
    rcases set_some hu with ⟨rfl, rfl⟩ | ⟨hne, hu⟩
    · simp only [atrack, if_true, kind_get h1, kind_get h2]
      exact computed_inv hfresh htouch (fun o s h => h) (hinv _ _ (get_ok h1)) (hinv _ _ (get_ok h2)) (binop_zero h3).1 (binop_zero h3).2
    · simp only [atrack, if_neg hne]
      exact hinv _ _ hu
  | mul x y z =>
    obtain ⟨oa, h1, h⟩ := bind_eq_ok h
    obtain ⟨ob, h2, h⟩ := bind_eq_ok h
    obtain ⟨m, h3, h⟩ := bind_eq_ok h
    cases h
    intro u o hu
    rcases set_some hu with ⟨rfl, rfl⟩ | ⟨hne, hu⟩
    · simp only [atrack, if_true]
      exact hfresh m
    · simp only [atrack, if_neg hne]
      exact hinv _ _ hu

theorem norm_history {K : Ops (SMat R) R V} {os : List (AOp R)} {p : Pool (SMat R) R V} {g : Nat → State} (h : History K .norm os p g) :
    ∀ z o, p z = some o → NormInv K o (g z) := by
  induction h with
  | start => intro z o h; cases h
  | next h e ih =>
    refine astep_inv .norm (fun hs => norm_step hs ih) (fun _ => rfl) (fun o s m h => h.touch m) ih e

theorem occ_history {K : Ops (SMat R) R V} {os : List (AOp R)} {p : Pool (SMat R) R V} {g : Nat → State} (h : History K .occ os p g) :
    ∀ z o, p z = some o → OccInv K o (g z) := by
  induction h with
  | start => intro z o h; cases h
  | next h e ih =>
    refine astep_inv .occ (fun hs => occ_step hs ih) (fun _ => rfl) (fun o s m h => h.touch m) ih e

theorem norm_answer {K : Ops (SMat R) R V} {p : Pool (SMat R) R V} {x : Nat} {o : Obj (SMat R) R V} {s : State} (hx : p x = some o)
    (hinv : NormInv K o s) (hs : s ≠ .stale) :
    (∀ p' a, astep K p (.op (.norm x)) = .ok (p', a) → ∃ v, a = .norm v ∧ K.nrm o.mat = .ok v) ∧
    ∀ v, K.nrm o.mat = .ok v → ∃ p', astep K p (.op (.norm x)) = .ok (p', .norm v) := by
  have hget : p.get x = .ok o := by unfold Pool.get; rw [hx]
  have hfresh : o.norm = none ∨ ∃ v, o.norm = some v ∧ K.nrm o.mat = .ok v := by
    cases s with
    | clean => exact .inl hinv
    | asked => exact .inr hinv
    | stale => exact absurd rfl hs
  constructor
  · intro p' a h
    simp only [astep, step, hget] at h
    obtain ⟨⟨q, v⟩, hv, h⟩ := bind_eq_ok (x := o.getNorm K) h
    cases h
    obtain ⟨-, -, -, h4⟩ := getNorm_ok hv
    refine ⟨v, rfl, ?_⟩
    rcases h4 with h4 | h4
    · rcases hfresh with h0 | ⟨w, hw, hn⟩
      · rw [h0] at h4; cases h4
      · rw [hw] at h4; cases h4; exact hn
    · exact h4.2
  · intro v hv
    simp only [astep, step, hget, bind_ok']
    rcases hfresh with h0 | ⟨w, hw, hn⟩
    · simp only [Obj.getNorm, h0, hv, bind_ok']
      exact ⟨_, rfl⟩
    · rw [hn] at hv; cases hv
      simp only [Obj.getNorm, hw]
      exact ⟨_, rfl⟩

theorem count_answer {K : Ops (SMat R) R V} {p : Pool (SMat R) R V} {x : Nat} {o : Obj (SMat R) R V} {s : State} (hx : p x = some o)
    (hinv : OccInv K o s) (hs : s ≠ .stale) (k : Checker R) :
    (∀ p' a, astep K p (.op (.count x k)) = .ok (p', a) → ∃ n, a = .count n ∧ K.cnt k o.mat = .ok n) ∧
    ∀ n, K.cnt k o.mat = .ok n → ∃ p', astep K p (.op (.count x k)) = .ok (p', .count n) := by
  have hget : p.get x = .ok o := by unfold Pool.get; rw [hx]
  have hfresh : ∀ n, lookup o.occ k = some n → K.cnt k o.mat = .ok n := by
    cases s with
    | clean => intro n hn; rw [show o.occ = [] from hinv] at hn; cases hn
    | asked => exact hinv k
    | stale => exact absurd rfl hs
  constructor
  · intro p' a h
    simp only [astep, step, hget] at h
    obtain ⟨⟨q, v⟩, hv, h⟩ := bind_eq_ok (x := o.getCount K k) h
    cases h
    obtain ⟨-, -, h4⟩ := getCount_ok hv
    refine ⟨v, rfl, ?_⟩
    rcases h4 with ⟨-, h4⟩ | ⟨-, -, h4⟩
    · exact hfresh _ h4
    · exact h4
  · intro v hv
    simp only [astep, step, hget, bind_ok']
    cases hl : lookup o.occ k with
    | none =>
      simp only [Obj.getCount, hl, hv, bind_ok']
      exact ⟨_, rfl⟩
    | some w =>
      have := hfresh w hl
      rw [hv] at this; cases this
      simp only [Obj.getCount, hl]
      exact ⟨_, rfl⟩

/-- C113 for all programs of constructions, assignments, changes, queries, sums, differences and products: `getNorm` of an object
answers the norm of its present contents, unless the object is stale: changed in place after its norm was asked for, or a
copy of such an object, or a sum or difference of a sparse matrix and a dense matrix whose norm had been asked for.
(Missing: stale objects, `C113_sum_inherits`.) -/
theorem C113_norm_partial (K : Ops (SMat R) R V) (os : List (AOp R)) (p : Pool (SMat R) R V) (g : Nat → State) (h : History K .norm os p g)
    (x : Nat) (o : Obj (SMat R) R V) (hx : p x = some o) (hs : g x ≠ .stale) :
    (∀ p' a, astep K p (.op (.norm x)) = .ok (p', a) → ∃ v, a = .norm v ∧ K.nrm o.mat = .ok v) ∧
    ∀ v, K.nrm o.mat = .ok v → ∃ p', astep K p (.op (.norm x)) = .ok (p', .norm v) :=
  norm_answer hx (norm_history h x o hx) hs

/-- The same for the number of significant elements, with `reset()` (Missing: stale objects, `C113_sum_inherits_count`.) -/
theorem C113_count_partial (K : Ops (SMat R) R V) (os : List (AOp R)) (p : Pool (SMat R) R V) (g : Nat → State) (h : History K .occ os p g)
    (x : Nat) (o : Obj (SMat R) R V) (hx : p x = some o) (hs : g x ≠ .stale) (k : Checker R) :
    (∀ p' a, astep K p (.op (.count x k)) = .ok (p', a) → ∃ n, a = .count n ∧ K.cnt k o.mat = .ok n) ∧
    ∀ n, K.cnt k o.mat = .ok n → ∃ p', astep K p (.op (.count x k)) = .ok (p', .count n) :=
  count_answer hx (occ_history h x o hx) hs k

/-- C113, whatever happened before, also to stale operands: products, sums and differences of two dense or two sparse matrices and
results that were moved are new: the norm and all counts are those of the contents. -/
theorem C113_new_results (K : Ops (SMat R) R V) (p p' : Pool (SMat R) R V) (x y z : Nat) (keep : Bool) (op : AOp R) (a : Ans V)
    (hop : op = .mul x y z ∨ ((op = .add keep x y z ∨ op = .sub keep x y z) ∧ (keep = false ∨
      (p.kind y = some .dense ∧ p.kind z = some .dense) ∨ (p.kind y = some .sparse ∧ p.kind z = some .sparse))))
    (h : astep K p op = .ok (p', a)) : ∃ o, p' x = some o ∧
      (∀ p'' b, astep K p' (.op (.norm x)) = .ok (p'', b) → ∃ v, b = .norm v ∧ K.nrm o.mat = .ok v) ∧
      ∀ k p'' b, astep K p' (.op (.count x k)) = .ok (p'', b) → ∃ n, b = .count n ∧ K.cnt k o.mat = .ok n := by
  have done : ∀ m, p' = p.set x (.fresh m) → ∃ o, p' x = some o ∧
      (∀ p'' b, astep K p' (.op (.norm x)) = .ok (p'', b) → ∃ v, b = .norm v ∧ K.nrm o.mat = .ok v) ∧
      ∀ k p'' b, astep K p' (.op (.count x k)) = .ok (p'', b) → ∃ n, b = .count n ∧ K.cnt k o.mat = .ok n := by
    rintro m rfl
    have hx : (p.set x (.fresh m)) x = some (.fresh m) := if_pos rfl
    exact ⟨.fresh m, hx, (norm_answer (K := K) (s := .clean) hx rfl (by decide)).1,
      fun k => (count_answer (K := K) (s := .clean) hx rfl (by decide) k).1⟩
  have comp : ∀ {oa ob : Obj (SMat R) R V} (m : SMat R), p.get y = .ok oa → p.get z = .ok ob → (keep = false ∨
      (p.kind y = some .dense ∧ p.kind z = some .dense) ∨ (p.kind y = some .sparse ∧ p.kind z = some .sparse)) →
      computed keep oa ob m = .fresh m := by
    intro oa ob m h1 h2 hk
    rw [kind_get h1, kind_get h2] at hk
    unfold computed
    cases keep with
    | false => rfl
    | true =>
      rw [if_pos rfl]
      rcases hk with hk | ⟨k1, k2⟩ | ⟨k1, k2⟩
      · cases hk
      · cases hA : oa.mat <;> rw [hA] at k1 <;> first | cases k1 | skip
        cases hB : ob.mat <;> rw [hB] at k2 <;> first | cases k2 | rfl
      · cases hA : oa.mat <;> rw [hA] at k1 <;> first | cases k1 | skip
        cases hB : ob.mat <;> rw [hB] at k2 <;> first | cases k2 | rfl
  rcases hop with rfl | ⟨rfl | rfl, hk⟩
  · obtain ⟨oa, h1, h⟩ := bind_eq_ok h
    obtain ⟨ob, h2, h⟩ := bind_eq_ok h
    obtain ⟨m, h3, h⟩ := bind_eq_ok h
    cases h
    exact done m rfl
  · obtain ⟨oa, h1, h⟩ := bind_eq_ok h
    obtain ⟨ob, h2, h⟩ := bind_eq_ok h
    obtain ⟨m, h3, h⟩ := bind_eq_ok h
    cases h
    exact done m (by rw [comp m h1 h2 hk])
  · obtain ⟨oa, h1, h⟩ := bind_eq_ok h
    obtain ⟨ob, h2, h⟩ := bind_eq_ok h
    obtain ⟨m, h3, h⟩ := bind_eq_ok h
    cases h
    exact done m (by rw [comp m h1 h2 hk])

/-- C113, what the code does instead, for all matrices: after the norm of a dense matrix has been asked for, the sum and the
difference of it and a sparse matrix answer with the norm of the dense operand, whatever they contain. -/
theorem C113_sum_inherits (K : Ops (SMat R) R V) (p p1 p2 p3 : Pool (SMat R) R V) (x y z : Nat) (v : V) (a b : Ans V)
    (h1 : astep K p (.op (.norm y)) = .ok (p1, .norm v)) (hy : p1.kind y = some .dense) (hz : p1.kind z = some .sparse)
    (h2 : astep K p1 (.add true x y z) = .ok (p2, a) ∨ astep K p1 (.sub true x y z) = .ok (p2, a) ∨
      astep K p1 (.add true x z y) = .ok (p2, a) ∨ astep K p1 (.sub true x z y) = .ok (p2, a))
    (h3 : astep K p2 (.op (.norm x)) = .ok (p3, b)) : b = .norm v := by
  have start : ∀ o, p1.get y = .ok o → o.norm = some v := by
    obtain ⟨q, hq, h1⟩ := bind_eq_ok (show (p.get y >>= _) = _ from h1)
    obtain ⟨⟨q', w⟩, hw, h⟩ := bind_eq_ok h1
    cases h
    intro o ho
    have := get_ok ho
    unfold Pool.set at this
    rw [if_pos rfl] at this
    cases this
    exact (getNorm_ok hw).2.2.1
  have mid : ∀ o, p2.get x = .ok o → o.norm = some v := by
    have fin : ∀ {oa ob : Obj (SMat R) R V} {m : SMat R}, p1.get y = .ok oa → p1.get z = .ok ob →
        (computed true oa ob m).norm = some v ∧ (computed true ob oa m).norm = some v := by
      intro oa ob m ha hb
      rw [kind_get ha] at hy
      rw [kind_get hb] at hz
      have := start oa ha
      cases hA : oa.mat <;> rw [hA] at hy <;> first | cases hy | skip
      cases hB : ob.mat <;> rw [hB] at hz <;> first | cases hz | skip
      simp only [computed, if_true, hA, hB]
      exact ⟨this, this⟩
    rcases h2 with h | h | h | h <;>
      (obtain ⟨oa, e1, h⟩ := bind_eq_ok h
       obtain ⟨ob, e2, h⟩ := bind_eq_ok h
       obtain ⟨m, e3, h⟩ := bind_eq_ok h
       cases h
       intro o ho
       have := get_ok ho
       unfold Pool.set at this
       rw [if_pos rfl] at this
       cases this)
    · exact (fin e1 e2).1
    · exact (fin e1 e2).1
    · exact (fin e2 e1).2
    · exact (fin e2 e1).2
  obtain ⟨q, hq, h3⟩ := bind_eq_ok (show (p2.get x >>= _) = _ from h3)
  have hn := mid q hq
  obtain ⟨⟨q', w⟩, hw, h⟩ := bind_eq_ok h3
  cases h
  simp only [Obj.getNorm, hn] at hw
  cases hw
  rfl

/-- The same for counts of significant elements. -/
theorem C113_sum_inherits_count (K : Ops (SMat R) R V) (p p1 p2 p3 : Pool (SMat R) R V) (x y z n : Nat) (k : Checker R) (a b : Ans V)
    (h1 : astep K p (.op (.count y k)) = .ok (p1, .count n)) (hy : p1.kind y = some .dense) (hz : p1.kind z = some .sparse)
    (h2 : astep K p1 (.add true x y z) = .ok (p2, a) ∨ astep K p1 (.sub true x y z) = .ok (p2, a) ∨
      astep K p1 (.add true x z y) = .ok (p2, a) ∨ astep K p1 (.sub true x z y) = .ok (p2, a))
    (h3 : astep K p2 (.op (.count x k)) = .ok (p3, b)) : b = .count n := by
  have start : ∀ o, p1.get y = .ok o → lookup o.occ k = some n := by
    obtain ⟨q, hq, h1⟩ := bind_eq_ok (show (p.get y >>= _) = _ from h1)
    obtain ⟨⟨q', w⟩, hw, h⟩ := bind_eq_ok h1
    cases h
    intro o ho
    have := get_ok ho
    unfold Pool.set at this
    rw [if_pos rfl] at this
    cases this
    obtain ⟨-, -, h4⟩ := getCount_ok hw
    rcases h4 with ⟨h4, h5⟩ | ⟨h4, -, -⟩
    · rw [h4]; exact h5
    · rw [h4, lookup_cons, if_pos rfl]
  have mid : ∀ o, p2.get x = .ok o → lookup o.occ k = some n := by
    have fin : ∀ {oa ob : Obj (SMat R) R V} {m : SMat R}, p1.get y = .ok oa → p1.get z = .ok ob →
        lookup (computed true oa ob m).occ k = some n ∧ lookup (computed true ob oa m).occ k = some n := by
      intro oa ob m ha hb
      rw [kind_get ha] at hy
      rw [kind_get hb] at hz
      have := start oa ha
      cases hA : oa.mat <;> rw [hA] at hy <;> first | cases hy | skip
      cases hB : ob.mat <;> rw [hB] at hz <;> first | cases hz | skip
      simp only [computed, if_true, hA, hB]
      exact ⟨this, this⟩
    rcases h2 with h | h | h | h <;>
      (obtain ⟨oa, e1, h⟩ := bind_eq_ok h
       obtain ⟨ob, e2, h⟩ := bind_eq_ok h
       obtain ⟨m, e3, h⟩ := bind_eq_ok h
       cases h
       intro o ho
       have := get_ok ho
       unfold Pool.set at this
       rw [if_pos rfl] at this
       cases this)
    · exact (fin e1 e2).1
    · exact (fin e1 e2).1
    · exact (fin e2 e1).2
    · exact (fin e2 e1).2
  obtain ⟨q, hq, h3⟩ := bind_eq_ok (show (p2.get x >>= _) = _ from h3)
  have hn := mid q hq
  obtain ⟨⟨q', w⟩, hw, h⟩ := bind_eq_ok h3
  cases h
  simp only [Obj.getCount, hn] at hw
  cases hw
  rfl

/-! ### Witnesses -/

/-- Counts of dense and sparse matrices; the norm is left out. -/
def countOps : Ops (SMat Int) Int Unit where
  nrm _ := .ok ()
  cnt c
    | .dense A => A.countSig c
    | .sparse A => A.countSig c
    | .zero _ => .ok 0
  size := SMat.size
  taken M := M
  swapped A B := (B, A)

/-- C113 is false: nothing in `a = (0)` is above 0; then `c = a + (5)`, the contents of `c` are (5), and `c` says that nothing in it is
above 0, although 1 element is. -/
theorem C113_sum_is_wrong : ∃ p p', arun countOps [.op (.make 0 (.dense ⟨.col, Dim.mk' 1 1, [some 0]⟩)),
      .op (.make 1 (.sparse ⟨.col, Dim.mk' 1 1, [some 5], [some 0], [some 0, some 1]⟩)), .op (.count 0 (.above 0)), .add true 2 0 1] (fun _ => none) = .ok p ∧
    astep countOps p (.op (.count 2 (.above 0))) = .ok (p', .count 0) ∧
    ∃ o, p 2 = some o ∧ o.mat = .dense ⟨.col, Dim.mk' 1 1, [some 5]⟩ ∧ countOps.cnt (.above 0) o.mat = .ok 1 :=
  ⟨_, _, rfl, rfl, _, rfl, rfl, rfl⟩

/-- The same program without the first query is answered correctly. -/
theorem C113_query_changes_sums : ∃ p p', arun countOps [.op (.make 0 (.dense ⟨.col, Dim.mk' 1 1, [some 0]⟩)),
      .op (.make 1 (.sparse ⟨.col, Dim.mk' 1 1, [some 5], [some 0], [some 0, some 1]⟩)), .add true 2 0 1] (fun _ => none) = .ok p ∧
    astep countOps p (.op (.count 2 (.above 0))) = .ok (p', .count 1) := ⟨_, _, rfl, rfl⟩

/-- Non-vacuity: a history with a sum of two dense matrices whose norms had been asked for. -/
example : ∃ p g, History countOps .norm ([] ++ [.op (.make 0 (.dense ⟨.col, Dim.mk' 1 1, [some 3]⟩))] ++ [.op (.norm 0)] ++ [.add true 1 0 0] ++ [.mul 2 0 1]) p g ∧
    g 0 = .asked ∧ g 1 = .clean ∧ g 2 = .clean ∧ (∃ o, p 2 = some o) :=
  ⟨_, _, .next (.next (.next (.next .start rfl) rfl) rfl) rfl, rfl, rfl, rfl, _, rfl⟩

end BB.Cache
