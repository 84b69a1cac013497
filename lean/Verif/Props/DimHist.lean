import Verif.Model.DimHist
import Verif.Model.Serialize
import Verif.Lemmas.Norm

/-!
# C47: dimension bookkeeping over all histories
-/

namespace BB.DimHist

/-- The claim about one object: the reported size is rows times columns. -/
def Obj.SizeOk (o : Obj) : Prop := o.getSize = o.getNbRows * o.getNbColumns

/-- The claim about all live objects. -/
def AllOk (p : Pool) : Prop := ∀ x o, p x = some o → o.SizeOk

theorem Pool.get_ok {p : Pool} {x : Nat} {o : Obj} : p.get x = .ok o ↔ p x = some o := by
  unfold Pool.get
  cases p x <;> simp

/-- When an operation keeps the sizes right: always, except that the friend `swap` of dense, sparse and blocked
matrices needs matrices of equal size, `resize` of zero and blocked matrices needs the new size to be the old one,
and construction from a dynamic matrix needs that matrix to be empty. -/
def Harmless (p : Pool) : Op → Prop
  | .swap x y => ∀ o q, p x = some o → p y = some q → x ≠ y → o.cls ≠ .zero → o.getSize = q.getSize
  | .resize x r c => ∀ o, p x = some o → o.cls = .zero ∨ o.cls = .blocked → o.getSize = r * c
  | .fromDynamic _ y => ∀ q, p y = some q → q.getNbRows * q.getNbColumns = 0
  | _ => True

theorem allOk_set {p : Pool} {x : Nat} {o : Obj} (h : AllOk p) (ho : o.SizeOk) : AllOk (p.set x o) := by
  intro z q hz
  unfold Pool.set at hz
  split at hz
  · cases hz; exact ho
  · exact h z q hz

theorem ok_of_set {p : Pool} {x : Nat} {o : Obj} (h : AllOk (p.set x o)) : o.SizeOk := h x o (by simp [Pool.set])

theorem bind_eq_ok' {α β : Type} {a : Res α} {f : α → Res β} {b : β} (h : (a >>= f) = .ok b) : ∃ x, a = .ok x ∧ f x = .ok b := by
  cases a with
  | error e => simp at h
  | ok x => exact ⟨x, rfl, h⟩

/-- C47, one operation: in a state where all sizes are right, an operation that runs keeps them right **exactly if** it
is harmless. -/
theorem C47_step_iff (p p' : Pool) (op : Op) (hp : AllOk p) (hs : step p op = .ok p') : AllOk p' ↔ Harmless p op := by
  cases op with
  | make x k r c =>
    cases hs
    exact ⟨fun _ => trivial, fun _ => allOk_set hp rfl⟩
  | copy x y =>
    obtain ⟨o, ho, h⟩ := bind_eq_ok' hs
    cases h
    exact ⟨fun _ => trivial, fun _ => allOk_set hp (hp y o (Pool.get_ok.1 ho))⟩
  | move x y =>
    obtain ⟨o, ho, h⟩ := bind_eq_ok' hs
    cases h
    exact ⟨fun _ => trivial, fun _ => allOk_set hp (hp y o (Pool.get_ok.1 ho))⟩
  | assign x y =>
    obtain ⟨o, ho, h⟩ := bind_eq_ok' hs
    obtain ⟨q, hq, h⟩ := bind_eq_ok' h
    split at h
    · cases h
      exact ⟨fun _ => trivial, fun _ => allOk_set hp (hp y q (Pool.get_ok.1 hq))⟩
    · cases h
  | moveAssign x y =>
    obtain ⟨o, ho, h⟩ := bind_eq_ok' hs
    obtain ⟨q, hq, h⟩ := bind_eq_ok' h
    split at h
    · cases h
      exact ⟨fun _ => trivial, fun _ => allOk_set hp (hp y q (Pool.get_ok.1 hq))⟩
    · cases h
  | load x y =>
    obtain ⟨o, ho, h⟩ := bind_eq_ok' hs
    obtain ⟨q, hq, h⟩ := bind_eq_ok' h
    split at h
    · cases h
      exact ⟨fun _ => trivial, fun _ => allOk_set hp (hp y q (Pool.get_ok.1 hq))⟩
    · cases h
  | resize x r c =>
    obtain ⟨o, ho, h⟩ := bind_eq_ok' hs
    cases h
    have ho' := Pool.get_ok.1 ho
    have : (o.resize r c).SizeOk ↔ (o.cls = .zero ∨ o.cls = .blocked → o.getSize = r * c) := by
      obtain ⟨k, d⟩ := o
      cases k <;> simp [Obj.resize, Obj.SizeOk, Obj.getSize, Obj.getNbRows, Obj.getNbColumns, dimResize]
    constructor
    · intro h o' hx
      rw [ho'] at hx; cases hx
      exact this.1 (ok_of_set h)
    · intro h
      exact allOk_set hp (this.2 (h o ho'))
  | fromDynamic x y =>
    obtain ⟨q, hq, h⟩ := bind_eq_ok' hs
    cases h
    have hq' := Pool.get_ok.1 hq
    constructor
    · intro h q' hy
      rw [hq'] at hy; cases hy
      exact (ok_of_set h).symm
    · intro h
      exact allOk_set hp (h q hq').symm
  | swap x y =>
    obtain ⟨o, ho, h⟩ := bind_eq_ok' hs
    obtain ⟨q, hq, h⟩ := bind_eq_ok' h
    have ho' := Pool.get_ok.1 ho
    have hq' := Pool.get_ok.1 hq
    have ok1 := hp x o ho'
    have ok2 := hp y q hq'
    split at h
    · rename_i hk
      cases h
      by_cases hz : o.cls = .zero
      · refine ⟨fun _ o' q' h1 _ _ hn => ?_, fun _ => ?_⟩
        · rw [ho'] at h1; cases h1; exact absurd hz hn
        · refine allOk_set (allOk_set hp ?_) ?_
          · simpa [swapDims, hz, Obj.SizeOk, Obj.getSize, Obj.getNbRows, Obj.getNbColumns] using ok2
          · simpa [swapDims, hz, Obj.SizeOk, Obj.getSize, Obj.getNbRows, Obj.getNbColumns] using ok1
      · have hd : swapDims o.cls o.dim q.dim = ({ q.dim with fullSize := o.dim.fullSize }, { o.dim with fullSize := q.dim.fullSize }) := by
          unfold swapDims
          split
          · rename_i e; exact absurd e hz
          · rfl
        rw [hd]
        constructor
        · intro h o' q' h1 h2 hxy _
          rw [ho'] at h1; cases h1
          rw [hq'] at h2; cases h2
          have := ok_of_set h
          show o.dim.fullSize = q.dim.fullSize
          rw [show q.dim.fullSize = o.dim.rows * o.dim.cols from this]
          exact ok1
        · intro h
          by_cases hxy : x = y
          · subst hxy
            rw [ho'] at hq'; cases hq'
            exact allOk_set (allOk_set hp ok1) ok1
          · have e : o.dim.fullSize = q.dim.fullSize := h o q ho' hq' hxy hz
            refine allOk_set (allOk_set hp ?_) ?_
            · show o.dim.fullSize = q.dim.rows * q.dim.cols
              rw [e]; exact ok2
            · show q.dim.fullSize = o.dim.rows * o.dim.cols
              rw [← e]; exact ok1
    · cases h

/-- All operations of a history are harmless in the state in which they run. -/
def HarmlessRun : Pool → List Op → Prop
  | _, [] => True
  | p, op :: ops => Harmless p op ∧ ∀ p', step p op = .ok p' → HarmlessRun p' ops

/-- C47: starting with no objects, after any history of constructions, copies, moves, assignments, resizes, swaps and
loads that avoids the three harmful situations the reported size of every object is rows times columns.
(Missing: those three situations, where the claim is false: `C47_swap_is_wrong`, `C47_resize_is_wrong`,
`C47_fromDynamic_is_wrong`.) -/
theorem C47_history_partial (ops : List Op) (p : Pool) (hr : run (fun _ => none) ops = .ok p) (hh : HarmlessRun (fun _ => none) ops)
    (x : Nat) (o : Obj) (hx : p x = some o) : o.getSize = o.getNbRows * o.getNbColumns := by
  have key : ∀ (ops : List Op) (p0 : Pool), AllOk p0 → run p0 ops = .ok p → HarmlessRun p0 ops → AllOk p := by
    intro ops
    induction ops with
    | nil => intro p0 h0 hr _; cases hr; exact h0
    | cons op ops ih =>
      intro p0 h0 hr hh
      obtain ⟨p1, h1, h2⟩ := bind_eq_ok' hr
      exact ih p1 ((C47_step_iff p0 p1 op h0 h1).2 hh.1) h2 (hh.2 p1 h1)
  exact key ops _ (fun _ _ h => by simp at h) hr hh x o hx

/-- An operation that neither swaps, nor constructs from a dynamic matrix, nor resizes a zero or blocked matrix. -/
def Op.Plain : Op → Prop
  | .make _ k _ _ => k = .dense ∨ k = .sparse
  | .swap _ _ => False
  | .fromDynamic _ _ => False
  | _ => True

/-- C47, unconditional part: with dense and sparse matrices only, and without swapping or constructing from dynamic
matrices, every history keeps the sizes right, whatever the shapes. -/
theorem C47_plain_history_partial (ops : List Op) (p : Pool) (hr : run (fun _ => none) ops = .ok p) (hh : ∀ op ∈ ops, op.Plain)
    (x : Nat) (o : Obj) (hx : p x = some o) : o.getSize = o.getNbRows * o.getNbColumns := by
  have key : ∀ (ops : List Op) (p0 : Pool), AllOk p0 → (∀ x o, p0 x = some o → o.cls = .dense ∨ o.cls = .sparse) →
      run p0 ops = .ok p → (∀ op ∈ ops, op.Plain) → AllOk p := by
    intro ops
    induction ops with
    | nil => intro p0 h0 _ hr _; cases hr; exact h0
    | cons op ops ih =>
      intro p0 h0 hc hr hh
      obtain ⟨p1, h1, h2⟩ := bind_eq_ok' hr
      have hpl := hh op (by simp)
      have hset : ∀ (z : Nat) (w : Obj), (w.cls = .dense ∨ w.cls = .sparse) → ∀ x o, (p0.set z w) x = some o → o.cls = .dense ∨ o.cls = .sparse := by
        intro z w hw x o hx
        unfold Pool.set at hx
        split at hx
        · cases hx; exact hw
        · exact hc x o hx
      refine ih p1 ((C47_step_iff p0 p1 op h0 h1).2 ?_) ?_ h2 (fun op h => hh op (by simp [h]))
      · cases op with
        | swap x y => exact hpl.elim
        | fromDynamic x y => exact hpl.elim
        | resize x r c =>
          intro o ho hk
          rcases hc x o ho with h | h <;> rw [h] at hk <;> simp at hk
        | _ => trivial
      · cases op with
        | swap x y => exact hpl.elim
        | fromDynamic x y => exact hpl.elim
        | make x k r c => cases h1; exact hset _ _ hpl
        | copy x y =>
          obtain ⟨q, hq, h⟩ := bind_eq_ok' h1; cases h
          exact hset _ _ (hc y q (Pool.get_ok.1 hq))
        | move x y =>
          obtain ⟨q, hq, h⟩ := bind_eq_ok' h1; cases h
          exact hset _ _ (hc y q (Pool.get_ok.1 hq))
        | assign x y =>
          obtain ⟨q, hq, h⟩ := bind_eq_ok' h1
          obtain ⟨w, hw, h⟩ := bind_eq_ok' h
          split at h
          · cases h; exact hset _ _ (hc x q (Pool.get_ok.1 hq))
          · cases h
        | moveAssign x y =>
          obtain ⟨q, hq, h⟩ := bind_eq_ok' h1
          obtain ⟨w, hw, h⟩ := bind_eq_ok' h
          split at h
          · cases h; exact hset _ _ (hc x q (Pool.get_ok.1 hq))
          · cases h
        | load x y =>
          obtain ⟨q, hq, h⟩ := bind_eq_ok' h1
          obtain ⟨w, hw, h⟩ := bind_eq_ok' h
          split at h
          · cases h; exact hset _ _ (hc x q (Pool.get_ok.1 hq))
          · cases h
        | resize x r c =>
          obtain ⟨q, hq, h⟩ := bind_eq_ok' h1; cases h
          have := hc x q (Pool.get_ok.1 hq)
          refine hset _ _ ?_
          obtain ⟨k, d⟩ := q
          cases k <;> exact this
  exact key ops _ (fun _ _ h => by simp at h) (fun _ _ h => by simp at h) hr hh x o hx

/-- C47, negative: swapping matrices of different sizes (dense, sparse or blocked) gives both a wrong size. -/
theorem C47_swap_is_wrong (k : Cls) (hk : k ≠ .zero) (r c r' c' : Nat) (hne : r * c ≠ r' * c') :
    ∃ p a b, run (fun _ => none) [.make 0 k r c, .make 1 k r' c', .swap 0 1] = .ok p ∧ p 0 = some a ∧ p 1 = some b ∧
      a.getSize ≠ a.getNbRows * a.getNbColumns ∧ b.getSize ≠ b.getNbRows * b.getNbColumns := by
  cases k with
  | zero => exact absurd rfl hk
  | dense =>
    refine ⟨_, ⟨.dense, ⟨r', c', r * c⟩⟩, ⟨.dense, ⟨r, c, r' * c'⟩⟩, rfl, rfl, rfl, hne, fun h => hne h.symm⟩
  | sparse =>
    refine ⟨_, ⟨.sparse, ⟨r', c', r * c⟩⟩, ⟨.sparse, ⟨r, c, r' * c'⟩⟩, rfl, rfl, rfl, hne, fun h => hne h.symm⟩
  | blocked =>
    refine ⟨_, ⟨.blocked, ⟨r', c', r * c⟩⟩, ⟨.blocked, ⟨r, c, r' * c'⟩⟩, rfl, rfl, rfl, hne, fun h => hne h.symm⟩

/-- C47, negative: a zero or blocked matrix reports its old size after `resize`. -/
theorem C47_resize_is_wrong (k : Cls) (hk : k = .zero ∨ k = .blocked) (r c r' c' : Nat) (hne : r * c ≠ r' * c') :
    ∃ p a, run (fun _ => none) [.make 0 k r c, .resize 0 r' c'] = .ok p ∧ p 0 = some a ∧
      a.getNbRows = r' ∧ a.getNbColumns = c' ∧ a.getSize ≠ a.getNbRows * a.getNbColumns := by
  rcases hk with rfl | rfl
  · exact ⟨_, ⟨.zero, ⟨r', c', r * c⟩⟩, rfl, rfl, rfl, rfl, hne⟩
  · exact ⟨_, ⟨.blocked, ⟨r', c', r * c⟩⟩, rfl, rfl, rfl, rfl, hne⟩

/-- C47, negative: a dense matrix made from a dynamic matrix always reports size 0. -/
theorem C47_fromDynamic_is_wrong (k : Cls) (r c : Nat) (hne : r * c ≠ 0) :
    ∃ p a, run (fun _ => none) [.make 0 k r c, .fromDynamic 1 0] = .ok p ∧ p 1 = some a ∧
      a.getNbRows = r ∧ a.getNbColumns = c ∧ a.getSize = 0 ∧ a.getSize ≠ a.getNbRows * a.getNbColumns :=
  ⟨_, ⟨.dense, ⟨r, c, 0 * 0⟩⟩, rfl, rfl, rfl, rfl, rfl, fun h => hne h.symm⟩

/-- C47, consequence: two sparse matrices, 1×1 and 2×2, are swapped; converting the one that is now 2×2 to a dense matrix
allocates one element and writes outside it. -/
theorem C47_swap_breaks_conversion :
    let A : Sparse Int := ⟨.col, Dim.mk' 1 1, [some 5], [some 0], [some 0, some 1]⟩
    let B : Sparse Int := ⟨.col, Dim.mk' 2 2, [some 5, some 6], [some 0, some 1], [some 0, some 1, some 2]⟩
    let A' := ((Cache.sparseOps (fun _ => .ok ())).swapped A B).1
    A'.dim.rows = 2 ∧ A'.dim.cols = 2 ∧ A'.toDense id .col = .error .ub ∧
      (∃ D, B.toDense id .col = .ok D ∧ D.get 1 1 = .ok 6) := by
  refine ⟨rfl, rfl, rfl, ⟨.col, Dim.mk' 2 2, [some 5, some 0, some 0, some 6]⟩, ?_⟩
  constructor
  · rfl
  · rfl

/-- The operations here have the same effect on the dimension members as those of the element-level models. -/
theorem C47_agrees_with_models {R : Type} (A B : Dense R) (r c : Nat) :
    (A.resize r c).dim = (Obj.resize ⟨.dense, A.dim⟩ r c).dim ∧
    (Dense.new (R := R) A.ori r c).dim = ⟨r, c, r * c⟩ ∧
    (∀ ar ar', A.save = .ok ar → (B.load ar).2 = .ok ar' → (B.load ar).1.dim = A.dim) := by
  refine ⟨rfl, rfl, fun ar ar' h h' => ?_⟩
  unfold Dense.save at h
  obtain ⟨es, -, h⟩ := bind_eq_ok' h
  cases h
  rfl

/-- Non-vacuity: a history with two classes, resizes, moves and a harmless swap meets the hypotheses. -/
example : ∃ p, run (fun _ => none) [.make 0 .dense 2 3, .make 1 .dense 3 2, .swap 0 1, .resize 0 5 7, .move 2 0, .make 3 .sparse 1 4,
    .resize 3 0 9] = .ok p ∧ HarmlessRun (fun _ => none) [.make 0 .dense 2 3, .make 1 .dense 3 2, .swap 0 1, .resize 0 5 7, .move 2 0,
    .make 3 .sparse 1 4, .resize 3 0 9] ∧ p 2 = some ⟨.dense, ⟨5, 7, 35⟩⟩ := by
  refine ⟨_, rfl, ?_, rfl⟩
  refine ⟨trivial, fun p h => ?_⟩; cases h
  refine ⟨trivial, fun p h => ?_⟩; cases h
  refine ⟨fun o q ho hq _ _ => by cases ho; cases hq; rfl, fun p h => ?_⟩; cases h
  refine ⟨fun o ho hk => by cases ho; simp at hk, fun p h => ?_⟩; cases h
  refine ⟨trivial, fun p h => ?_⟩; cases h
  refine ⟨trivial, fun p h => ?_⟩; cases h
  refine ⟨fun o ho hk => by cases ho; simp at hk, fun p h => trivial⟩

end BB.DimHist
