import Verif.SpecDyn
import Verif.Lemmas.Mat
import Verif.Lemmas.Typed
import Verif.Lemmas.StorageLeak
import Verif.Props.Alias
import Verif.Props.Mat
import Mathlib.Algebra.Ring.Int.Defs

/-! # C110: programs over dynamic matrices -/

namespace BB.Dyn

variable {R : Type}

/-! ### How results are stored -/

theorem form_dense {A : SMat R} : formOf A = .dense ↔ A.isDense = true := by cases A <;> simp [formOf, SMat.isDense]
theorem form_sparse {A : SMat R} : formOf A = .sparse ↔ A.isSparse = true := by cases A <;> simp [formOf, SMat.isSparse]
theorem form_zero {A : SMat R} : formOf A = .zero ↔ A.isZero = true := by cases A <;> simp [formOf, SMat.isZero]

theorem form_binop {op : R → R → R} {un : R → R} {A B C : SMat R} (h : SMat.binop op un A B = .ok C) :
    formOf C = (formOf A).sum (formOf B) := by
  obtain ⟨h1, h2, h3⟩ := SMat.binop_kind h
  cases A <;> cases B <;> cases C <;> simp_all [formOf, Form.sum, SMat.isDense, SMat.isZero, SMat.isSparse]

theorem form_mul [Zero R] [Add R] [Mul R] [DecidableEq R] {A B C : SMat R} (h : SMat.mul A B = .ok C) :
    formOf C = (formOf A).prod (formOf B) := by
  obtain ⟨h1, h2⟩ := SMat.mul_kind h
  cases A <;> cases B <;> cases C <;> simp_all [formOf, Form.prod, SMat.isZero, SMat.isSparse]

theorem form_add {op : R → R → R} {A B : Mat R} {C : SMat R} (h : Mat.add op A B = .ok C) :
    formOf C = (shapeOf A).sum (shapeOf B) := by
  cases A with
  | one A =>
    cases B with
    | one B => exact form_binop h
    | two B1 B2 =>
      obtain ⟨X, e1, e2⟩ := Own.bind_eq_ok h
      rw [form_binop e2, form_binop e1]; rfl
  | two A1 A2 =>
    cases B with
    | one B =>
      obtain ⟨X, e1, e2⟩ := Own.bind_eq_ok h
      rw [form_binop e2, form_binop e1]; rfl
    | two B1 B2 =>
      obtain ⟨X, e1, e2⟩ := Own.bind_eq_ok h
      obtain ⟨Y, e3, e4⟩ := Own.bind_eq_ok e2
      rw [form_binop e4, form_binop e3, form_binop e1]; rfl

theorem form_matmul [Zero R] [Add R] [Mul R] [DecidableEq R] {A B : Mat R} {C : SMat R} (h : Mat.mul A B = .ok C) :
    formOf C = (shapeOf A).prod (shapeOf B) := by
  cases A with
  | one A =>
    cases B with
    | one B => exact form_mul h
    | two B1 B2 =>
      obtain ⟨X, e1, h⟩ := Own.bind_eq_ok h
      obtain ⟨Y, e2, h⟩ := Own.bind_eq_ok h
      rw [form_binop h, form_mul e1, form_mul e2]; rfl
  | two A1 A2 =>
    cases B with
    | one B =>
      obtain ⟨X, e1, h⟩ := Own.bind_eq_ok h
      obtain ⟨Y, e2, h⟩ := Own.bind_eq_ok h
      rw [form_binop h, form_mul e1, form_mul e2]; rfl
    | two B1 B2 =>
      obtain ⟨X, e1, h⟩ := Own.bind_eq_ok h
      obtain ⟨Y, e2, h⟩ := Own.bind_eq_ok h
      obtain ⟨Z, e3, h⟩ := Own.bind_eq_ok h
      obtain ⟨U, e4, h⟩ := Own.bind_eq_ok h
      obtain ⟨V, e5, h⟩ := Own.bind_eq_ok h
      obtain ⟨W, e6, h⟩ := Own.bind_eq_ok h
      rw [form_binop h, form_mul e6, form_binop e5, form_mul e4, form_binop e3, form_mul e1, form_mul e2]; rfl

theorem canSub {A B : SMat R} (h : (formOf A).CanSub (formOf B)) : SMat.SubOk A B := by
  cases A <;> cases B <;> simp_all [formOf, Form.CanSub, SMat.SubOk, SMat.isDense, SMat.isZero, SMat.isSparse]

theorem sub_sat [AddCommGroup R] {A B : Mat R} {r c : Nat} {f g : Nat → Nat → R} (hA : A.Is r c f) (hB : B.Is r c g)
    (h : (shapeOf A).CanSub (shapeOf B)) :
    Sat (Mat.sub A B) (fun C => formOf C = (shapeOf A).sum (shapeOf B) ∧ C.Is r c (fun i j => f i j - g i j)) := by
  cases A with
  | one A =>
    cases B with
    | one B =>
      obtain ⟨C, e, hC⟩ := SMat.binop_sub_sat hA hB (canSub h)
      exact ⟨C, e, form_binop e, hC⟩
    | two B1 B2 =>
      obtain ⟨g1, g2, h1, h2, h3⟩ := hB
      obtain ⟨C, e, hC⟩ := SMat.binop_sub_sat hA h1 (canSub h.1)
      obtain ⟨D, e', hD⟩ := SMat.binop_sub_sat hC h2 (canSub (by rw [form_binop e]; exact h.2))
      refine ⟨D, ?_, ?_, hD.congr (fun i j hi hj => by rw [h3 i j hi hj]; abel)⟩
      · simp only [Mat.sub, e, bind_ok', e']
      · rw [form_binop e', form_binop e]; rfl
  | two A1 A2 =>
    obtain ⟨f1, f2, k1, k2, k3⟩ := hA
    cases B with
    | one B =>
      obtain ⟨C, e, hC⟩ := SMat.binop_add_sat k1 k2
      obtain ⟨D, e', hD⟩ := SMat.binop_sub_sat hC hB (canSub (by rw [form_binop e]; exact h))
      refine ⟨D, ?_, ?_, hD.congr (fun i j hi hj => by rw [k3 i j hi hj])⟩
      · simp only [Mat.sub, e, bind_ok', e']
      · rw [form_binop e', form_binop e]; rfl
    | two B1 B2 => exact h.elim


/-! ### In-place operations -/

theorem dense_self_sat [AddZeroClass R] (op : R → R → R) {A : Dense R} {r c : Nat} {f : Nat → Nat → R} (hA : (SMat.dense A).Is r c f) :
    Sat (assignSelf op (.one (.dense A))) (fun M => shapeOf M = .one .dense ∧ M.Is r c (fun i j => op (f i j) (f i j))) := by
  obtain ⟨D, e, h1, h2⟩ := Alias.C72_self op hA.1
  exact ⟨.one (.dense D), by simp only [assignSelf, e, bind_ok', pure_ok'], rfl, h2, by rw [h1, hA.2]⟩

/-- Right operand a zero matrix: nothing happens. -/
theorem zero_right_sat [AddZeroClass R] (op : R → R → R) (h0 : ∀ x, op x 0 = x) {A B : SMat R} {r c : Nat} {f g : Nat → Nat → R}
    (hA : A.Is r c f) (hB : B.Is r c g) (hz : formOf B = .zero) :
    Sat (SMat.binassign op A B) (fun M => formOf M = formOf A ∧ M.Is r c (fun i j => op (f i j) (g i j))) := by
  cases B with
  | dense => cases hz
  | sparse => cases hz
  | zero e =>
    obtain ⟨b1, b2, b3⟩ := hB
    have key : A.Is r c (fun i j => op (f i j) (g i j)) := hA.congr (fun i j hi hj => by rw [b3 i j hi hj, h0])
    cases A with
    | dense A =>
      obtain ⟨a1, a2⟩ := hA
      exact ⟨.dense A, by simp [SMat.binassign, assertThat, a1.rows, a1.cols, b1, b2], rfl, key⟩
    | sparse A =>
      obtain ⟨⟨L, a1, _⟩, a2⟩ := hA
      exact ⟨.sparse A, by simp [SMat.binassign, assertThat, a1.rows, a1.cols, b1, b2], rfl, key⟩
    | zero d =>
      obtain ⟨a1, a2, a3⟩ := hA
      exact ⟨.zero d, by simp [SMat.binassign, assertThat, a1, a2, b1, b2], rfl, key⟩

theorem self_sat [AddZeroClass R] (op : R → R → R) (h0 : ∀ x, op x 0 = x) {A : Mat R} {r c : Nat} {f g : Nat → Nat → R} (hA : A.Is r c f)
    (hfg : A.Is r c g) (hc : (shapeOf A).CanAssign (shapeOf A)) :
    Sat (assignSelf op A) (fun M => shapeOf M = shapeOf A ∧ M.Is r c (fun i j => op (f i j) (g i j))) := by
  cases A with
  | two => exact hc.elim
  | one A =>
    cases A with
    | dense A =>
      refine (dense_self_sat op hA).mono fun M hM => ⟨hM.1, hM.2.congr fun i j hi hj => ?_⟩
      have := hA.1.elems i j hi hj
      rw [hfg.1.elems i j hi hj] at this
      rw [Except.ok.inj this]
    | sparse A => exact hc.elim
    | zero d =>
      obtain ⟨M, e, h1, h2⟩ := zero_right_sat op h0 (A := .zero d) (B := .zero d) (f := f) (g := g) hA hfg rfl
      exact ⟨.one M, by simp only [assignSelf, e, bind_ok', pure_ok'], congrArg Shape.one h1, h2⟩

theorem other_sat [AddCommGroup R] {A B : Mat R} {r c : Nat} {f g : Nat → Nat → R} (hA : A.Is r c f)
    (hB : B.Is r c g) (hc : (shapeOf A).CanAssign (shapeOf B)) :
    Sat (Mat.addAssign A B) (fun M => shapeOf M = shapeOf A ∧ M.Is r c (fun i j => f i j + g i j)) ∧
    Sat (Mat.subAssign A B) (fun M => shapeOf M = shapeOf A ∧ M.Is r c (fun i j => f i j - g i j)) := by
  cases A with
  | two => exact hc.elim
  | one A =>
    by_cases hd : ∃ D, A = .dense D
    · obtain ⟨D, rfl⟩ := hd
      cases B with
      | one B =>
        constructor
        · obtain ⟨_, e, E, rfl, h⟩ := SMat.binassign_dense_sat (· + ·) (by simp) hA hB
          exact ⟨.one (.dense E), by simp only [Mat.addAssign, e, bind_ok', pure_ok'], rfl, h⟩
        · obtain ⟨_, e, E, rfl, h⟩ := SMat.binassign_dense_sat (· - ·) (by simp) hA hB
          exact ⟨.one (.dense E), by simp only [Mat.subAssign, e, bind_ok', pure_ok'], rfl, h⟩
      | two B1 B2 =>
        obtain ⟨⟨E, e, h, o⟩, ⟨E', e', h', o'⟩⟩ := C20_dense_assign_multiple D B1 B2 r c f g hA.1 hA.2 hB
        exact ⟨⟨_, e, rfl, h, o⟩, ⟨_, e', rfl, h', o'⟩⟩
    · cases B with
      | two => cases A with
        | dense D => exact (hd ⟨D, rfl⟩).elim
        | _ => exact hc.elim
      | one B =>
        have hz : formOf B = .zero := by
          cases A with
          | dense D => exact (hd ⟨D, rfl⟩).elim
          | sparse => cases B <;> first | rfl | exact hc.elim
          | zero => cases B <;> first | rfl | exact hc.elim
        constructor
        · obtain ⟨M, e, h1, h2⟩ := zero_right_sat (· + ·) (by simp) hA hB hz
          exact ⟨.one M, by simp only [Mat.addAssign, e, bind_ok', pure_ok'], congrArg Shape.one h1, h2⟩
        · obtain ⟨M, e, h1, h2⟩ := zero_right_sat (· - ·) (by simp) hA hB hz
          exact ⟨.one M, by simp only [Mat.subAssign, e, bind_ok', pure_ok'], congrArg Shape.one h1, h2⟩


/-! ### Simulation -/

theorem Agrees.new [Zero R] [Add R] {s : State R} {t : Store R} (h : Agrees s t) (x : Nat) {M : Mat R} {o : Obj R}
    (hs : shapeOf M = o.shape) (hM : M.Is o.rows o.cols o.elem) : Agrees (s.new x M) (t.new x o) := by
  refine ⟨?_, h.lazy, ?_, ?_⟩
  · show Function.update s.vars x _ = Function.update t.vars x _
    rw [h.vars, h.length]
  · show (s.heap ++ [M]).length = (t.objs ++ [o]).length
    rw [List.length_append, List.length_append, h.length]; rfl
  · intro l M' o' e1 e2
    change (s.heap ++ [M])[l]? = some M' at e1
    change (t.objs ++ [o])[l]? = some o' at e2
    rw [List.getElem?_append] at e1 e2
    rw [h.length] at e1
    split at e1
    · rename_i hl
      rw [if_pos hl] at e2
      exact h.objs l M' o' e1 e2
    · rename_i hl
      rw [if_neg hl] at e2
      have hl0 : l - t.objs.length = 0 := by
        by_contra hne
        obtain ⟨k, hk⟩ := Nat.exists_eq_succ_of_ne_zero hne
        rw [hk] at e1
        simp at e1
      rw [hl0] at e1 e2
      cases e1; cases e2
      exact ⟨hs, hM⟩

theorem Agrees.deref [Zero R] [Add R] {s : State R} {t : Store R} (h : Agrees s t) {x l : Nat} {o : Obj R}
    (hv : t.vars x = some l) (ho : t.objs[l]? = some o) :
    ∃ M, s.deref x = .ok (l, M) ∧ s.heap[l]? = some M ∧ shapeOf M = o.shape ∧ M.Is o.rows o.cols o.elem := by
  have hl : l < s.heap.length := by rw [h.length]; exact (List.getElem?_eq_some_iff.1 ho).1
  have e : s.heap[l]? = some s.heap[l] := List.getElem?_eq_getElem hl
  obtain ⟨h1, h2⟩ := h.objs l _ o e ho
  exact ⟨_, by simp only [State.deref, h.vars, hv, e], e, h1, h2⟩

theorem Agrees.at [Zero R] [Add R] {s : State R} {t : Store R} (h : Agrees s t) {x : Nat} {o : Obj R} (ho : t.at x = some o) :
    ∃ l M, t.vars x = some l ∧ t.objs[l]? = some o ∧ s.deref x = .ok (l, M) ∧ s.heap[l]? = some M ∧ shapeOf M = o.shape ∧
      M.Is o.rows o.cols o.elem := by
  obtain ⟨l, hv, ho⟩ := Option.bind_eq_some_iff.1 ho
  obtain ⟨M, e, h1⟩ := h.deref hv ho
  exact ⟨l, M, hv, ho, e, h1⟩

theorem Agrees.change [Zero R] [Add R] {s : State R} {t : Store R} (h : Agrees s t) {l : Nat} {M : Mat R} {o : Obj R}
    {f : Nat → Nat → R} (hs : shapeOf M = o.shape) (hM : M.Is o.rows o.cols f) :
    Agrees { s with heap := s.heap.set l M } (t.change l o f) := by
  refine ⟨h.vars, h.lazy, ?_, ?_⟩
  · simp [Store.change, h.length]
  · intro k M' o' e1 e2
    change (s.heap.set l M)[k]? = some M' at e1
    change (t.objs.set l { o with elem := f })[k]? = some o' at e2
    rw [List.getElem?_set] at e1 e2
    rw [h.length] at e1
    by_cases hk : l = k
    · rw [if_pos hk] at e1 e2
      by_cases hl : l < t.objs.length
      · rw [if_pos hl] at e1 e2
        cases e1; cases e2
        exact ⟨hs, hM⟩
      · rw [if_neg hl] at e1
        cases e1
    · rw [if_neg hk] at e1 e2
      exact h.objs k M' o' e1 e2

variable [Ring R] [DecidableEq R]

theorem mul_agrees {s : State R} {t : Store R} (h : Agrees s t) (x : Nat) {y z : Nat} {a b : Obj R} (ha : t.at y = some a)
    (hb : t.at z = some b) (hd : a.cols = b.rows) :
    Sat (s.mul x y z) (fun s' => Agrees s' (t.new x ⟨.one (a.shape.prod b.shape), a.rows, b.cols,
        fun i j => ∑ l ∈ Finset.range a.cols, a.elem i l * b.elem l j⟩)) := by
  obtain ⟨la, A, -, -, eA, -, sA, iA⟩ := h.at ha
  obtain ⟨lb, B, -, -, eB, -, sB, iB⟩ := h.at hb
  rw [← hd] at iB
  obtain ⟨C, e, hC⟩ := Mat.mul_sat iA iB
  refine ⟨s.new x (.one C), ?_, h.new x ?_ hC⟩
  · simp only [State.mul, eA, eB, bind_ok', e, pure_ok']
  · show Shape.one (formOf C) = _
    rw [form_matmul e, sA, sB]

omit [DecidableEq R] in
theorem assign_agrees {s : State R} {t : Store R} (h : Agrees s t) {x y l : Nat} {a b : Obj R} (hv : t.vars x = some l)
    (ha : t.objs[l]? = some a) (hb : t.at y = some b) (hc : a.shape.CanAssign b.shape) (h1 : a.rows = b.rows) (h2 : a.cols = b.cols) :
    Sat (s.assign (· + ·) Mat.addAssign x y) (fun s' => Agrees s' (t.change l a (fun i j => a.elem i j + b.elem i j))) ∧
    Sat (s.assign (· - ·) Mat.subAssign x y) (fun s' => Agrees s' (t.change l a (fun i j => a.elem i j - b.elem i j))) := by
  obtain ⟨A, eA, gA, sA, iA⟩ := h.deref hv ha
  obtain ⟨k, B, -, kb, eB, gB, sB, iB⟩ := h.at hb
  rw [← h1, ← h2] at iB
  by_cases hl : l = k
  · subst hl
    rw [ha] at kb; cases kb
    constructor
    · obtain ⟨M, e, hs, hM⟩ := self_sat (· + ·) (by simp) iA iA (by rw [sA]; exact hc)
      exact ⟨_, by simp only [State.assign, eA, eB, bind_ok', assignVal, decide_true, if_true, e, pure_ok'], h.change (hs.trans sA) hM⟩
    · obtain ⟨M, e, hs, hM⟩ := self_sat (· - ·) (by simp) iA iA (by rw [sA]; exact hc)
      exact ⟨_, by simp only [State.assign, eA, eB, bind_ok', assignVal, decide_true, if_true, e, pure_ok'], h.change (hs.trans sA) hM⟩
  · obtain ⟨⟨M, e, hs, hM⟩, ⟨M', e', hs', hM'⟩⟩ := other_sat iA iB (by rw [sA, sB]; exact hc)
    exact ⟨⟨_, by simp only [State.assign, eA, eB, bind_ok', assignVal, decide_eq_true_eq, if_neg hl, e, pure_ok'], h.change (hs.trans sA) hM⟩,
      ⟨_, by simp only [State.assign, eA, eB, bind_ok', assignVal, decide_eq_true_eq, if_neg hl, e', pure_ok'], h.change (hs'.trans sA) hM'⟩⟩

theorem step_agrees {s : State R} {t t' : Store R} {st : Stmt R} (h : Agrees s t) (m : Means t st t') :
    Sat (step s st) (fun s' => Agrees s' t') := by
  cases m with
  | make hM => exact ⟨_, rfl, h.new _ rfl hM⟩
  | share => exact ⟨_, rfl, by rw [← h.vars], h.lazy, h.length, h.objs⟩
  | reset => exact ⟨_, rfl, by rw [← h.vars], h.lazy, h.length, h.objs⟩
  | add ha hb h1 h2 =>
    obtain ⟨la, A, -, -, eA, -, sA, iA⟩ := h.at ha
    obtain ⟨lb, B, -, -, eB, -, sB, iB⟩ := h.at hb
    rw [← h1, ← h2] at iB
    obtain ⟨C, e, hC⟩ := Mat.add_sat iA iB
    refine ⟨s.new _ (.one C), by simp only [step, eA, eB, bind_ok', e, pure_ok'], h.new _ ?_ hC⟩
    show Shape.one (formOf C) = _
    rw [form_add e, sA, sB]
  | sub ha hb h1 h2 hc =>
    obtain ⟨la, A, -, -, eA, -, sA, iA⟩ := h.at ha
    obtain ⟨lb, B, -, -, eB, -, sB, iB⟩ := h.at hb
    rw [← h1, ← h2] at iB
    obtain ⟨C, e, hs, hC⟩ := sub_sat iA iB (by rw [sA, sB]; exact hc)
    refine ⟨s.new _ (.one C), by simp only [step, eA, eB, bind_ok', e, pure_ok'], h.new _ ?_ hC⟩
    show Shape.one (formOf C) = _
    rw [hs, sA, sB]
  | mul ha hb hd => exact mul_agrees h _ ha hb hd
  | addAssign hv ha hb hc h1 h2 => exact (assign_agrees h hv ha hb hc h1 h2).1
  | subAssign hv ha hb hc h1 h2 => exact (assign_agrees h hv ha hb hc h1 h2).2
  | lazy => exact ⟨_, rfl, h.vars, by rw [← h.lazy], h.length, h.objs⟩
  | eval hp ha hb hd =>
    obtain ⟨s', e, h'⟩ := mul_agrees h _ ha hb hd
    exact ⟨s', by simp only [step, h.lazy, hp]; exact e, h'⟩

/-! ### The claims -/

omit [DecidableEq R] in
theorem init_agrees : Agrees (State.init : State R) ⟨[], fun _ => none, fun _ => none⟩ :=
  ⟨rfl, rfl, rfl, fun l M o e => by cases e⟩

/-- C110 for the programs whose differences and in-place operations are between kinds the library gets right
(`Shape.CanSub`, `Shape.CanAssign`; sums, products, copies, stored products are unrestricted): whatever the memory says the
program does, the program does, and converting the matrix a variable refers to gives its elements.  (Missing: the other
kinds, for which the claim is false, `C110_difference_is_wrong`, `C110_in_place_is_wrong`.) -/
theorem C110_programs_partial (p : List (Stmt R)) (s : State R) (t t' : Store R) (h : Agrees s t) (r : Runs t p t') :
    ∃ s', exec s p = .ok s' ∧ Agrees s' t' ∧
      ∀ x o, t'.at x = some o → ∃ l M D, s'.deref x = .ok (l, M) ∧ M.toDense = .ok D ∧ D.Is o.rows o.cols o.elem := by
  suffices hs : ∃ s', exec s p = .ok s' ∧ Agrees s' t' by
    obtain ⟨s', e, h'⟩ := hs
    refine ⟨s', e, h', fun x o ho => ?_⟩
    obtain ⟨l, M, -, -, e', -, -, i⟩ := h'.at ho
    obtain ⟨D, eD, hD⟩ := Mat.toDense_sat i
    exact ⟨l, M, D, e', eD, hD.1⟩
  induction r generalizing s with
  | nil => exact ⟨s, rfl, h⟩
  | cons m _ ih =>
    obtain ⟨s1, e1, h1⟩ := step_agrees h m
    obtain ⟨s', e, h'⟩ := ih s1 h1
    exact ⟨s', by simp only [exec, e1, bind_ok']; exact e, h'⟩

/-- What `x` points to. -/
def State.at (s : State R) (x : Nat) : Option (Mat R) := (s.vars x).bind (fun l => s.heap[l]?)

omit [Ring R] [DecidableEq R] in
theorem assign_effect {s s' : State R} {op : R → R → R} {opM : Mat R → Mat R → Res (Mat R)} {x y : Nat} (e : s.assign op opM x y = .ok s') :
    s'.vars = s.vars ∧ s'.lazy = s.lazy ∧ ∀ v, s.vars v ≠ s.vars x → s'.at v = s.at v := by
  obtain ⟨⟨l, A⟩, e1, e⟩ := Own.bind_eq_ok e
  obtain ⟨⟨k, B⟩, e2, e⟩ := Own.bind_eq_ok e
  obtain ⟨M, e3, e⟩ := Own.bind_eq_ok e
  cases e
  have hl : s.vars x = some l := by
    unfold State.deref at e1
    split at e1
    · cases e1
    · split at e1
      · cases e1
      · cases e1; assumption
  refine ⟨rfl, rfl, fun v hv => ?_⟩
  show (s.vars v).bind _ = (s.vars v).bind _
  cases hs : s.vars v with
  | none => rfl
  | some k =>
    show (s.heap.set l M)[k]? = s.heap[k]?
    rw [List.getElem?_set_ne]
    rintro rfl
    exact hv (hs.trans hl.symm)

/-- C110: `x += y` and `x -= y`, for operands of all kinds, move no pointer, change the matrix of every variable that refers
to the same matrix as `x`, and no other. -/
theorem C110_in_place_is_shared (s s' : State R) (x y : Nat) (h : step s (.addAssign x y) = .ok s' ∨ step s (.subAssign x y) = .ok s') :
    s'.vars = s.vars ∧ ∀ v, (s.vars v = s.vars x → s'.at v = s'.at x) ∧ (s.vars v ≠ s.vars x → s'.at v = s.at v) := by
  have key : s'.vars = s.vars ∧ s'.lazy = s.lazy ∧ ∀ v, s.vars v ≠ s.vars x → s'.at v = s.at v := by
    cases h with
    | inl h => exact assign_effect h
    | inr h => exact assign_effect h
  obtain ⟨h1, -, h2⟩ := key
  exact ⟨h1, fun v => ⟨fun hv => by simp only [State.at, h1, hv], h2 v⟩⟩

omit [Ring R] [DecidableEq R] in
theorem new_effect {s : State R} (hs : ∀ v l, s.vars v = some l → l < s.heap.length) (x : Nat) (M : Mat R) :
    (s.new x M).at x = some M ∧ ∀ v, v ≠ x → (s.new x M).at v = s.at v ∧ (s.new x M).vars v = s.vars v ∧ (s.new x M).vars v ≠ (s.new x M).vars x := by
  constructor
  · simp [State.at, State.new]
  · intro v hv
    have e : (s.new x M).vars v = s.vars v := by simp [State.new, hv]
    refine ⟨?_, e, ?_⟩
    · show ((s.new x M).vars v).bind _ = _
      rw [e]
      cases hl : s.vars v with
      | none => simp [State.at, hl]
      | some l =>
        show (s.heap ++ [M])[l]? = _
        rw [List.getElem?_append_left (hs v l hl)]
        simp [State.at, hl]
    · rw [e]
      intro hx
      have : (s.new x M).vars x = some s.heap.length := by simp [State.new]
      rw [this] at hx
      exact absurd (hs v _ hx) (lt_irrefl _)

/-- All pointers are null or point to a matrix. -/
def State.Valid (s : State R) : Prop := ∀ v l, s.vars v = some l → l < s.heap.length

omit [Ring R] [DecidableEq R] in
theorem new_valid {s : State R} (hs : s.Valid) (x : Nat) (M : Mat R) : (s.new x M).Valid := by
  intro v l h
  show l < (s.heap ++ [M]).length
  rw [List.length_append]
  by_cases hv : v = x
  · subst hv
    simp [State.new] at h
    subst h; simp
  · simp only [State.new, Function.update_of_ne hv] at h
    have := hs v l h
    omega

theorem mul_cases {s s' : State R} {x y z : Nat} (e : s.mul x y z = .ok s') : ∃ C, s' = s.new x (.one C) := by
  obtain ⟨⟨l, A⟩, e1, e⟩ := Own.bind_eq_ok e
  obtain ⟨⟨k, B⟩, e2, e⟩ := Own.bind_eq_ok e
  obtain ⟨M, e3, e⟩ := Own.bind_eq_ok e
  cases e
  exact ⟨M, rfl⟩

/-- C110: whatever the program does, no pointer dangles. -/
theorem C110_pointers_valid (p : List (Stmt R)) (s s' : State R) (h : exec s p = .ok s') (hs : s.Valid) : s'.Valid := by
  induction p generalizing s with
  | nil => cases h; exact hs
  | cons st p ih =>
    obtain ⟨s1, e1, e⟩ := Own.bind_eq_ok h
    refine ih s1 e ?_
    cases st with
    | make x M => cases e1; exact new_valid hs x M
    | share x y =>
      cases e1
      intro v l h
      by_cases hv : v = x
      · subst hv; simp only [Function.update_self] at h; exact hs y l h
      · simp only [Function.update_of_ne hv] at h; exact hs v l h
    | reset x =>
      cases e1
      intro v l h
      by_cases hv : v = x
      · subst hv; simp only [Function.update_self] at h; cases h
      · simp only [Function.update_of_ne hv] at h; exact hs v l h
    | add x y z =>
      obtain ⟨⟨l, A⟩, -, e1⟩ := Own.bind_eq_ok e1
      obtain ⟨⟨k, B⟩, -, e1⟩ := Own.bind_eq_ok e1
      obtain ⟨M, -, e1⟩ := Own.bind_eq_ok e1
      cases e1; exact new_valid hs _ _
    | sub x y z =>
      obtain ⟨⟨l, A⟩, -, e1⟩ := Own.bind_eq_ok e1
      obtain ⟨⟨k, B⟩, -, e1⟩ := Own.bind_eq_ok e1
      obtain ⟨M, -, e1⟩ := Own.bind_eq_ok e1
      cases e1; exact new_valid hs _ _
    | mul x y z => obtain ⟨C, rfl⟩ := mul_cases e1; exact new_valid hs _ _
    | addAssign x y =>
      obtain ⟨⟨l, A⟩, -, e1⟩ := Own.bind_eq_ok e1
      obtain ⟨⟨k, B⟩, -, e1⟩ := Own.bind_eq_ok e1
      obtain ⟨M, -, e1⟩ := Own.bind_eq_ok e1
      cases e1
      intro v l h
      show l < (s.heap.set _ M).length
      rw [List.length_set]; exact hs v l h
    | subAssign x y =>
      obtain ⟨⟨l, A⟩, -, e1⟩ := Own.bind_eq_ok e1
      obtain ⟨⟨k, B⟩, -, e1⟩ := Own.bind_eq_ok e1
      obtain ⟨M, -, e1⟩ := Own.bind_eq_ok e1
      cases e1
      intro v l h
      show l < (s.heap.set _ M).length
      rw [List.length_set]; exact hs v l h
    | lazy p y z => cases e1; exact hs
    | eval x p =>
      simp only [step] at e1
      split at e1
      · cases e1
      · obtain ⟨C, rfl⟩ := mul_cases e1; exact new_valid hs _ _

/-- C110: the result of `+`, `-`, an executed product or the evaluation of a stored product is a matrix of its own: no other
variable refers to it, all other variables refer to what they referred to, unchanged. -/
theorem C110_results_are_new (s s' : State R) (hs : s.Valid) (st : Stmt R) (x : Nat)
    (hst : (∃ y z, st = .add x y z ∨ st = .sub x y z ∨ st = .mul x y z) ∨ ∃ p, st = .eval x p) (h : step s st = .ok s') :
    (∃ C, s'.at x = some (.one C)) ∧ ∀ v, v ≠ x → s'.at v = s.at v ∧ s'.vars v = s.vars v ∧ s'.vars v ≠ s'.vars x := by
  have key : ∃ C, s' = s.new x (.one C) := by
    obtain ⟨y, z, rfl | rfl | rfl⟩ | ⟨p, rfl⟩ := hst
    · obtain ⟨⟨l, A⟩, -, e1⟩ := Own.bind_eq_ok h
      obtain ⟨⟨k, B⟩, -, e1⟩ := Own.bind_eq_ok e1
      obtain ⟨M, -, e1⟩ := Own.bind_eq_ok e1
      cases e1; exact ⟨_, rfl⟩
    · obtain ⟨⟨l, A⟩, -, e1⟩ := Own.bind_eq_ok h
      obtain ⟨⟨k, B⟩, -, e1⟩ := Own.bind_eq_ok e1
      obtain ⟨M, -, e1⟩ := Own.bind_eq_ok e1
      cases e1; exact ⟨_, rfl⟩
    · exact mul_cases h
    · simp only [step] at h
      split at h
      · cases h
      · exact mul_cases h
  obtain ⟨C, rfl⟩ := key
  obtain ⟨h1, h2⟩ := new_effect hs x (.one C)
  exact ⟨⟨C, h1⟩, h2⟩

/-- C110: a statement that reads through a null pointer is undefined, whatever the other operand is. -/
theorem C110_null_pointer (s : State R) (x y z : Nat) (h : s.vars y = none) :
    step s (.add x y z) = .error .ub ∧ step s (.sub x y z) = .error .ub ∧ step s (.mul x y z) = .error .ub ∧
    step s (.addAssign y z) = .error .ub ∧ step s (.subAssign y z) = .error .ub := by
  have e : s.deref y = .error .ub := by simp only [State.deref, h]
  refine ⟨?_, ?_, ?_, ?_, ?_⟩ <;> simp only [step, State.mul, State.assign, e, bind_error']

/-- A 1×1 dense matrix. -/
def num (v : Int) : Mat Int := .one (.dense ⟨.col, Dim.mk' 1 1, [some v]⟩)

/-- C110: a copy is a reference: after `y = x; x += z;` also `y` has changed; `x = x + z` leaves `y` alone. -/
theorem C110_copy_is_a_reference :
    (∃ s', exec State.init [.make 0 (num 1), .make 2 (num 10), .share 1 0, .addAssign 0 2] = .ok s' ∧ s'.at 1 = some (num 11)) ∧
    (∃ s', exec State.init [.make 0 (num 1), .make 2 (num 10), .share 1 0, .add 0 0 2] = .ok s' ∧ s'.at 1 = some (num 1) ∧
      s'.at 0 = some (num 11)) := ⟨⟨_, rfl, rfl⟩, ⟨_, rfl, rfl, rfl⟩⟩

/-- C110: a stored product sees later changes of the variables, both of the pointers and of the matrices. -/
theorem C110_stored_product_is_late :
    (∃ s', exec State.init [.make 0 (num 2), .make 1 (num 3), .lazy 0 0 1, .make 0 (num 5), .eval 2 0] = .ok s' ∧ s'.at 2 = some (num 15)) ∧
    (∃ s', exec State.init [.make 0 (num 2), .make 1 (num 3), .lazy 0 0 1, .addAssign 0 1, .eval 2 0] = .ok s' ∧ s'.at 2 = some (num 15)) :=
  ⟨⟨_, rfl, rfl⟩, ⟨_, rfl, rfl⟩⟩

/-- C110 is false for differences in general: Zero − (5) is (5), not (−5). -/
theorem C110_difference_is_wrong : ∃ s', exec State.init [.make 0 (.one (.zero (Dim.mk' 1 1))), .make 1 (num 5), .sub 2 0 1] = .ok s' ∧
    s'.at 2 = some (num 5) := ⟨_, rfl, rfl⟩

/-- C110 is false for in-place operations in general: a two-part matrix (1)+(2) gets the 10 twice, and after `x += x` it is
not 6 = 2·3. -/
theorem C110_in_place_is_wrong :
    (∃ s' M D, exec State.init [.make 0 (.two (.dense ⟨.col, Dim.mk' 1 1, [some 1]⟩) (.dense ⟨.col, Dim.mk' 1 1, [some 2]⟩)), .make 1 (num 10),
      .addAssign 0 1] = .ok s' ∧ s'.at 0 = some M ∧ M.toDense = .ok D ∧ D.get 0 0 = .ok (23 : Int)) ∧
    (∃ s' M D, exec State.init [.make 0 (.two (.dense ⟨.col, Dim.mk' 1 1, [some 1]⟩) (.dense ⟨.col, Dim.mk' 1 1, [some 2]⟩)),
      .addAssign 0 0] = .ok s' ∧ s'.at 0 = some M ∧ M.toDense = .ok D ∧ D.get 0 0 = .ok (14 : Int)) ∧
    (∃ e, exec State.init [.make 0 (.one (.zero (Dim.mk' 1 1))), .make 1 (num 10), .addAssign 0 1] = .error (.throw e)) :=
  ⟨⟨_, _, _, rfl, rfl, rfl, rfl⟩, ⟨_, _, _, rfl, rfl, rfl, rfl⟩, ⟨_, rfl⟩⟩

/-- Non-vacuity of `C110_programs_partial`: a program with a copy, an in-place operation through it, a stored product and a
difference has a meaning, which is what one expects. -/
example : ∃ t', Runs (⟨[], fun _ => none, fun _ => none⟩ : Store Int)
    [.make 0 (num 2), .make 1 (num 3), .share 2 0, .lazy 0 0 1, .addAssign 2 1, .eval 3 0, .sub 3 3 2] t' ∧
    ∃ o, t'.at 3 = some o ∧ o.shape = .one .dense ∧ o.rows = 1 ∧ o.cols = 1 ∧ o.elem 0 0 = 10 := by
  have hn : ∀ v : Int, (num v).Is 1 1 (fun _ _ => v) := fun v => by
    refine ⟨⟨rfl, rfl, rfl, rfl, fun i j hi hj => ?_⟩, rfl⟩
    obtain rfl : i = 0 := by omega
    obtain rfl : j = 0 := by omega
    rfl
  refine ⟨_, .cons (.make (hn 2)) (.cons (.make (hn 3)) (.cons .share (.cons .lazy (.cons (.addAssign rfl rfl rfl trivial rfl rfl)
    (.cons (.eval rfl rfl rfl rfl) (.cons (.sub rfl rfl rfl rfl trivial) .nil)))))), _, rfl, rfl, rfl, rfl, ?_⟩
  decide

end BB.Dyn
