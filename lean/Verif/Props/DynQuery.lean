import Verif.SpecDynQuery
import Verif.Props.Dyn
import Verif.Props.Norm
import Verif.Props.Info

/-! C112: queries in programs over dynamic matrices. -/

namespace BB.Dyn

/-- The norm the library computes for a matrix of any kind. -/
noncomputable def nrm (b : Build) : Mat ℝ → Res ℝ := Info.blockNorm b

section effect
variable {R : Type} [Ring R] [DecidableEq R]

/-- A statement keeps all matrices it does not change in place. -/
theorem step_keeps {s s' : State R} {o : Stmt R} (e : step s o = .ok s') :
    s.heap.length ≤ s'.heap.length ∧ ∀ l, (∀ x y, o = .addAssign x y ∨ o = .subAssign x y → s.vars x ≠ some l) → l < s.heap.length → s'.heap[l]? = s.heap[l]? := by
  have knew : ∀ (x : Nat) (M : Mat R), s.heap.length ≤ (s.new x M).heap.length ∧ ∀ l, l < s.heap.length → (s.new x M).heap[l]? = s.heap[l]? := by
    intro x M
    refine ⟨?_, fun l hl => ?_⟩
    · show _ ≤ (s.heap ++ [M]).length
      simp
    · exact List.getElem?_append_left hl
  have kassign : ∀ {op : R → R → R} {opM : Mat R → Mat R → Res (Mat R)} {x y : Nat}, s.assign op opM x y = .ok s' →
      s.heap.length ≤ s'.heap.length ∧ ∀ l, s.vars x ≠ some l → l < s.heap.length → s'.heap[l]? = s.heap[l]? := by
    intro op opM x y e
    obtain ⟨⟨l, A⟩, e1, e⟩ := Own.bind_eq_ok e
    obtain ⟨⟨k, B⟩, e2, e⟩ := Own.bind_eq_ok e
    obtain ⟨M, e3, e⟩ := Own.bind_eq_ok e
    cases e
    have hl : s.vars x = some l := by
      unfold State.deref at e1
      split at e1
      · cases e1
      · split at e1
        · cases e1
        · cases e1; assumption
    refine ⟨by simp, fun k hk _ => ?_⟩
    show (s.heap.set l M)[k]? = _
    rw [List.getElem?_set_ne]
    rintro rfl
    exact hk hl
  have kmul : ∀ {x y z : Nat}, s.mul x y z = .ok s' → s.heap.length ≤ s'.heap.length ∧ ∀ l, l < s.heap.length → s'.heap[l]? = s.heap[l]? := by
    intro x y z e
    obtain ⟨C, rfl⟩ := mul_cases e
    exact knew _ _
  cases o with
  | make x M => cases e; exact ⟨(knew x M).1, fun l _ => (knew x M).2 l⟩
  | share x y => cases e; exact ⟨le_rfl, fun l _ _ => rfl⟩
  | reset x => cases e; exact ⟨le_rfl, fun l _ _ => rfl⟩
  | add x y z =>
    obtain ⟨⟨l, A⟩, -, e⟩ := Own.bind_eq_ok e
    obtain ⟨⟨k, B⟩, -, e⟩ := Own.bind_eq_ok e
    obtain ⟨M, -, e⟩ := Own.bind_eq_ok e
    cases e; exact ⟨(knew x _).1, fun l _ => (knew x _).2 l⟩
  | sub x y z =>
    obtain ⟨⟨l, A⟩, -, e⟩ := Own.bind_eq_ok e
    obtain ⟨⟨k, B⟩, -, e⟩ := Own.bind_eq_ok e
    obtain ⟨M, -, e⟩ := Own.bind_eq_ok e
    cases e; exact ⟨(knew x _).1, fun l _ => (knew x _).2 l⟩
  | mul x y z => exact ⟨(kmul e).1, fun l _ => (kmul e).2 l⟩
  | addAssign x y => exact ⟨(kassign e).1, fun l h => (kassign e).2 l (h x y (.inl rfl))⟩
  | subAssign x y => exact ⟨(kassign e).1, fun l h => (kassign e).2 l (h x y (.inr rfl))⟩
  | lazy p y z => cases e; exact ⟨le_rfl, fun l _ _ => rfl⟩
  | eval x p =>
    simp only [step] at e
    split at e
    · cases e
    · exact ⟨(kmul e).1, fun l _ => (kmul e).2 l⟩

end effect

/-- The memory keeps all matrices the statement does not change in place. -/
theorem means_keeps {t t' : Store ℝ} {o : Stmt ℝ} (m : Means t o t') {l : Nat} (h : ¬ Changes t o l) {a : Obj ℝ} (ha : t.objs[l]? = some a) :
    t'.objs[l]? = some a := by
  have hl : l < t.objs.length := (List.getElem?_eq_some_iff.1 ha).1
  have knew : ∀ (x : Nat) (q : Obj ℝ), (t.new x q).objs[l]? = some a := by
    intro x q
    exact (List.getElem?_append_left hl).trans ha
  cases m with
  | make _ => exact knew _ _
  | share => exact ha
  | reset => exact ha
  | add _ _ _ _ => exact knew _ _
  | sub _ _ _ _ _ => exact knew _ _
  | mul _ _ _ => exact knew _ _
  | addAssign hv _ _ _ _ _ =>
    refine (List.getElem?_set_ne ?_).trans ha
    rintro rfl
    exact h ⟨_, _, .inl rfl, hv⟩
  | subAssign hv _ _ _ _ _ =>
    refine (List.getElem?_set_ne ?_).trans ha
    rintro rfl
    exact h ⟨_, _, .inr rfl, hv⟩
  | lazy => exact ha
  | eval _ _ _ _ => exact knew _ _

/-- The state of the program and the memory, with the remembered norms and the notes. -/
structure QAgrees (s : QState ℝ ℝ) (t : QStore) : Prop where
  mem : Agrees s.st t.mem
  length : s.norms.length = s.st.heap.length
  norms : ∀ (l : Nat) (v : ℝ), s.norms[l]? = some (some v) → l ∈ t.asked ∧ ∃ o, t.mem.objs[l]? = some o ∧ IsNorm .two o.rows o.cols o.elem v
  given : ∀ l, l ∈ t.given → ∃ S, s.st.heap[l]? = some (.one (.sparse S)) ∧ S.Tight

theorem mat_dims {M : Mat ℝ} {r c : Nat} {f : Nat → Nat → ℝ} (h : M.Is r c f) : M.rows = r ∧ M.cols = c := by
  cases M with
  | one A => exact ⟨SMat.Is.rows h, SMat.Is.cols h⟩
  | two X Y =>
    obtain ⟨f1, f2, h1, h2, -⟩ := h
    exact ⟨SMat.Is.rows h1, SMat.Is.cols h1⟩

theorem isNorm_unique {r c : Nat} {f : Nat → Nat → ℝ} {v w : ℝ} (hv : IsNorm .two r c f v) (hw : IsNorm .two r c f w) : v = w := by
  obtain ⟨h1, h2⟩ := hv
  obtain ⟨h3, h4⟩ := hw
  exact (pow_left_inj₀ h1 h3 (by norm_num)).1 (h2.trans h4.symm)

theorem blockNorm_sat (b : Build) {M : Mat ℝ} {r c : Nat} {f : Nat → Nat → ℝ} (hM : M.Is r c f)
    (h : shapeOf M = .one .dense ∨ shapeOf M = .one .zero ∨ ∃ S, M = .one (.sparse S) ∧ S.Tight) :
    Sat (nrm b M) (IsNorm .two r c f) := by
  cases M with
  | one A =>
    have hn : Normable .two (.one A) := by
      cases A with
      | dense A => trivial
      | sparse S =>
        rcases h with h | h | ⟨S', h, ht⟩
        · cases h
        · cases h
        · cases h; exact ht
      | zero d => rfl
    obtain ⟨x, e, hx⟩ := C35_norm_partial .two _ r c f hM hn
    exact ⟨x, e, hx⟩
  | two X Y =>
    rcases h with h | h | ⟨S, h, -⟩ <;> cases h

theorem getNorm_sat (b : Build) {s : QState ℝ ℝ} {t : QStore} (h : QAgrees s t) {x l : Nat} {o : Obj ℝ} {v : ℝ} (hv : t.mem.vars x = some l)
    (ho : t.mem.objs[l]? = some o) (hs : o.shape = .one .dense ∨ o.shape = .one .zero ∨ l ∈ t.given) (hn : IsNorm .two o.rows o.cols o.elem v) :
    ∃ s', s.getNorm (nrm b) x = .ok (s', v) ∧ QAgrees s' ⟨t.mem, l :: t.asked, t.given⟩ := by
  obtain ⟨M, eM, gM, sM, iM⟩ := h.mem.deref hv ho
  have more : QAgrees s ⟨t.mem, l :: t.asked, t.given⟩ :=
    ⟨h.mem, h.length, fun k w hw => ⟨List.mem_cons_of_mem _ (h.norms k w hw).1, (h.norms k w hw).2⟩, h.given⟩
  simp only [QState.getNorm, eM, bind_ok']
  cases e : s.norms[l]?.join with
  | some w =>
    have e' : s.norms[l]? = some (some w) := Option.join_eq_some_iff.1 e
    obtain ⟨-, o', ho', hw⟩ := h.norms l w e'
    rw [ho] at ho'; cases ho'
    rw [isNorm_unique hw hn] at e ⊢
    exact ⟨s, rfl, more⟩
  | none =>
    have hs' : shapeOf M = .one .dense ∨ shapeOf M = .one .zero ∨ ∃ S, M = .one (.sparse S) ∧ S.Tight := by
      rw [sM]
      rcases hs with h' | h' | h'
      · exact .inl h'
      · exact .inr (.inl h')
      · obtain ⟨S, e1, e2⟩ := h.given l h'
        rw [gM] at e1
        cases e1
        exact .inr (.inr ⟨S, rfl, e2⟩)
    obtain ⟨w, ew, hw⟩ := blockNorm_sat b iM hs'
    rw [isNorm_unique hw hn] at ew
    simp only [ew, bind_ok']
    by_cases hr : remembers M = true
    · rw [if_pos hr]
      refine ⟨_, rfl, h.mem, ?_, ?_, h.given⟩
      · show (s.norms.set l (some v)).length = _
        rw [List.length_set]; exact h.length
      · intro k w hk
        change (s.norms.set l (some v))[k]? = some (some w) at hk
        rw [List.getElem?_set] at hk
        by_cases hlk : l = k
        · subst hlk
          rw [if_pos rfl] at hk
          split at hk
          · cases hk
            exact ⟨List.mem_cons_self, o, ho, hn⟩
          · cases hk
        · rw [if_neg hlk] at hk
          exact ⟨List.mem_cons_of_mem _ (h.norms k w hk).1, (h.norms k w hk).2⟩
    · rw [if_neg hr]
      exact ⟨s, rfl, more⟩

theorem stmt_sat (b : Build) {s : QState ℝ ℝ} {t : QStore} (h : QAgrees s t) {o : Stmt ℝ} {m : Store ℝ} (hm : Means t.mem o m)
    (hc : ∀ l, Changes t.mem o l → l ∉ t.asked ∧ l ∉ t.given) :
    ∃ s', qstep (nrm b) s (.stmt o) = .ok (s', .nothing) ∧ QAgrees s' ⟨m, t.asked, t.given⟩ ∧ step s.st o = .ok s'.st := by
  obtain ⟨st, e, hst⟩ := step_agrees h.mem hm
  obtain ⟨k1, k2⟩ := step_keeps e
  refine ⟨⟨st, s.norms ++ List.replicate (st.heap.length - s.norms.length) none⟩, by simp only [qstep, e, bind_ok', pure_ok'], ⟨hst, ?_, ?_, ?_⟩, e⟩
  · show (s.norms ++ _).length = st.heap.length
    rw [List.length_append, List.length_replicate, h.length]
    omega
  · intro l v hl
    change (s.norms ++ List.replicate _ none)[l]? = some (some v) at hl
    rw [List.getElem?_append] at hl
    split at hl
    · obtain ⟨h1, q, h2, h3⟩ := h.norms l v hl
      exact ⟨h1, q, means_keeps hm (fun hch => (hc l hch).1 h1) h2, h3⟩
    · rw [List.getElem?_replicate] at hl
      split at hl <;> cases hl
  · intro l hl
    obtain ⟨S, e1, e2⟩ := h.given l hl
    refine ⟨S, ?_, e2⟩
    have hlt : l < s.st.heap.length := (List.getElem?_eq_some_iff.1 e1).1
    show st.heap[l]? = _
    rw [k2 l ?_ hlt]
    · exact e1
    · rintro x y hxy hx
      rw [h.mem.vars] at hx
      exact (hc l ⟨x, y, hxy, hx⟩).2 hl

theorem qstep_sat (b : Build) {s : QState ℝ ℝ} {t t' : QStore} {q : QStmt ℝ ℝ} {a : Ans ℝ} (h : QAgrees s t) (m : QMeans t q a t') :
    ∃ s', qstep (nrm b) s q = .ok (s', a) ∧ QAgrees s' t' := by
  cases m with
  | stmt hm hc =>
    obtain ⟨s', e, h', -⟩ := stmt_sat b h hm hc
    exact ⟨s', e, h'⟩
  | @give o _ hm hg =>
    have hnc : ∀ l, Changes t.mem o l → l ∉ t.asked ∧ l ∉ t.given := by
      obtain ⟨x, S, rfl, -⟩ := hg
      rintro l ⟨x', y', h1 | h1, -⟩ <;> cases h1
    obtain ⟨s', e, h', es⟩ := stmt_sat b h hm hnc
    refine ⟨s', e, h'.mem, h'.length, h'.norms, ?_⟩
    obtain ⟨x, S, rfl, ht⟩ := hg
    intro l hl
    rcases List.mem_cons.1 hl with rfl | hl
    · refine ⟨S, ?_, ht⟩
      have : s'.st = s.st.new x (.one (.sparse S)) := (Except.ok.inj es).symm
      rw [this, ← h.mem.length]
      show (s.st.heap ++ [_])[s.st.heap.length]? = _
      simp
    · exact h'.given l hl
  | rows ho =>
    obtain ⟨l, M, -, -, eM, -, -, iM⟩ := h.mem.at ho
    refine ⟨s, ?_, h⟩
    simp only [qstep, eM, bind_ok', pure_ok', (mat_dims iM).1]
  | cols ho =>
    obtain ⟨l, M, -, -, eM, -, -, iM⟩ := h.mem.at ho
    refine ⟨s, ?_, h⟩
    simp only [qstep, eM, bind_ok', pure_ok', (mat_dims iM).2]
  | @size _ o ho hz =>
    obtain ⟨l, M, -, -, eM, -, sM, iM⟩ := h.mem.at ho
    refine ⟨s, ?_, h⟩
    have : sizeOf M = o.rows * o.cols := by
      rw [← sM] at hz
      have key : ∀ {A : SMat ℝ} {r c : Nat} {f : Nat → Nat → ℝ}, A.Is r c f → formOf A ≠ .zero → sizeOf (.one A) = r * c := by
        intro A r c f hA hf
        cases A with
        | dense A => exact hA.1.size
        | sparse A =>
          obtain ⟨⟨L, hL, -⟩, -⟩ := hA
          exact hL.size
        | zero d => exact absurd rfl hf
      cases M with
      | one A => exact key iM (fun e => hz.1 (congrArg Shape.one e))
      | two X Y =>
        obtain ⟨f1, f2, i1, i2, -⟩ := iM
        have := key i1 (fun e => hz.2 (formOf Y) (by show Shape.two _ _ = _; rw [e]))
        cases X <;> exact this
    simp only [qstep, eM, bind_ok', pure_ok', this]
  | norm hv ho hs hn =>
    obtain ⟨s', e, h'⟩ := getNorm_sat b h hv ho hs hn
    exact ⟨s', by simp only [qstep, e, bind_ok', pure_ok'], h'⟩
  | normLarger hv ho hs hn hb =>
    obtain ⟨s', e, h'⟩ := getNorm_sat b h hv ho hs hn
    refine ⟨s', ?_, h'⟩
    simp only [qstep, e, bind_ok', pure_ok']
    congr 3
    rw [Bool.eq_iff_iff, decide_eq_true_iff]
    exact hb.symm

/-- C112 for programs whose statements are as in `C110_programs_partial` and that do not change a matrix in place after its norm
has been asked for: every query about dimensions, size and norm of a variable is answered with the value for the contents
the matrix has at that moment, through whichever variable it is asked.  (Missing: sizes of zero matrices, norms of two-part
matrices and of sparse results, norms after in-place changes: false, see below.) -/
theorem C112_queries_partial (b : Build) (p : List (QStmt ℝ ℝ)) (s : QState ℝ ℝ) (t t' : QStore) (as : List (Ans ℝ)) (h : QAgrees s t)
    (r : QRuns t p as t') : ∃ s', qexec (nrm b) s p = .ok (s', as) ∧ QAgrees s' t' := by
  induction r generalizing s with
  | nil => exact ⟨s, rfl, h⟩
  | cons m _ ih =>
    obtain ⟨s1, e1, h1⟩ := qstep_sat b h m
    obtain ⟨s', e, h'⟩ := ih s1 h1
    exact ⟨s', by simp only [qexec, e1, bind_ok', e, pure_ok'], h'⟩

/-- A program starts without matrices. -/
theorem init_qagrees : QAgrees ⟨.init, []⟩ ⟨⟨[], fun _ => none, fun _ => none⟩, [], []⟩ :=
  ⟨init_agrees, rfl, fun l v h => by simp at h, fun l h => by cases h⟩

section first
variable {R V : Type} [Ring R] [DecidableEq R] [LT V] [DecidableLT V]

theorem getNorm_keeps {nrm : Mat R → Res V} {s s' : QState R V} {x : Nat} {w : V} (e : s.getNorm nrm x = .ok (s', w)) :
    s'.st = s.st ∧ s'.norms.length = s.norms.length ∧ ∀ (l : Nat) (v : V), s.norms[l]? = some (some v) → s'.norms[l]? = some (some v) := by
  obtain ⟨⟨l, M⟩, e1, e⟩ := Own.bind_eq_ok e
  dsimp only at e
  split at e
  · cases e; exact ⟨rfl, rfl, fun _ _ h => h⟩
  · rename_i hn
    obtain ⟨u, -, e⟩ := Own.bind_eq_ok e
    split at e
    · cases e
      refine ⟨rfl, by simp, fun k v hk => ?_⟩
      show (s.norms.set l _)[k]? = _
      rw [List.getElem?_set_ne]
      · exact hk
      · rintro rfl
        rw [hk] at hn
        cases hn
    · cases e; exact ⟨rfl, rfl, fun _ _ h => h⟩

theorem qstep_keeps {nrm : Mat R → Res V} {s s' : QState R V} {q : QStmt R V} {a : Ans V} (e : qstep nrm s q = .ok (s', a))
    (hs : s.norms.length = s.st.heap.length) :
    s'.norms.length = s'.st.heap.length ∧ ∀ (l : Nat) (v : V), s.norms[l]? = some (some v) → s'.norms[l]? = some (some v) := by
  cases q with
  | stmt o =>
    obtain ⟨t, e1, e⟩ := Own.bind_eq_ok e
    cases e
    have := (step_keeps e1).1
    refine ⟨?_, fun l v hl => ?_⟩
    · show (s.norms ++ List.replicate _ none).length = t.heap.length
      rw [List.length_append, List.length_replicate, hs]
      omega
    · show (s.norms ++ List.replicate _ none)[l]? = _
      rw [List.getElem?_append_left (List.getElem?_eq_some_iff.1 hl).1]
      exact hl
  | rows x => obtain ⟨_, -, e⟩ := Own.bind_eq_ok e; cases e; exact ⟨hs, fun _ _ h => h⟩
  | cols x => obtain ⟨_, -, e⟩ := Own.bind_eq_ok e; cases e; exact ⟨hs, fun _ _ h => h⟩
  | size x => obtain ⟨_, -, e⟩ := Own.bind_eq_ok e; cases e; exact ⟨hs, fun _ _ h => h⟩
  | norm x =>
    obtain ⟨⟨u, w⟩, e1, e⟩ := Own.bind_eq_ok e
    cases e
    obtain ⟨h1, h2, h3⟩ := getNorm_keeps e1
    exact ⟨by rw [h1, h2]; exact hs, h3⟩
  | normLarger x w =>
    obtain ⟨⟨u, w⟩, e1, e⟩ := Own.bind_eq_ok e
    cases e
    obtain ⟨h1, h2, h3⟩ := getNorm_keeps e1
    exact ⟨by rw [h1, h2]; exact hs, h3⟩

theorem qexec_keeps {nrm : Mat R → Res V} {p : List (QStmt R V)} {s s' : QState R V} {as : List (Ans V)} (e : qexec nrm s p = .ok (s', as))
    (hs : s.norms.length = s.st.heap.length) :
    s'.norms.length = s'.st.heap.length ∧ ∀ (l : Nat) (v : V), s.norms[l]? = some (some v) → s'.norms[l]? = some (some v) := by
  induction p generalizing s as with
  | nil => cases e; exact ⟨hs, fun _ _ h => h⟩
  | cons q p ih =>
    obtain ⟨⟨s1, a1⟩, e1, e⟩ := Own.bind_eq_ok e
    obtain ⟨⟨s2, as2⟩, e2, e⟩ := Own.bind_eq_ok e
    cases e
    obtain ⟨k1, k2⟩ := qstep_keeps e1 hs
    obtain ⟨k3, k4⟩ := ih e2 k1
    exact ⟨k3, fun l v h => k4 l v (k2 l v h)⟩

theorem deref_eq {s : State R} {x l : Nat} {M : Mat R} (e : s.deref x = .ok (l, M)) : s.vars x = some l ∧ s.heap[l]? = some M := by
  unfold State.deref at e
  split at e
  · cases e
  · split at e
    · cases e
    · cases e
      exact ⟨by assumption, by assumption⟩

/-- C112, what the code does instead, for all programs: the first answer about the norm of a dense or sparse matrix is given for
ever.  Whatever a program does between two queries — in-place changes of the matrix included —, the second one, through
any variable that points to the same matrix, gets the answer of the first. -/
theorem C112_first_norm_stays (nrm : Mat R → Res V) (p q : List (QStmt R V)) (as bs : List (Ans V)) (s s1 s2 s3 : QState R V) (x y : Nat) (a b : Ans V)
    (hp : qexec nrm ⟨.init, []⟩ p = .ok (s, as)) (hx : qstep nrm s (.norm x) = .ok (s1, a))
    (hM : (∃ A, s.st.at x = some (.one (.dense A))) ∨ ∃ A, s.st.at x = some (.one (.sparse A)))
    (hq : qexec nrm s1 q = .ok (s2, bs)) (hy : s2.st.vars y = s.st.vars x) (hb : qstep nrm s2 (.norm y) = .ok (s3, b)) : b = a := by
  have hl := (qexec_keeps hp rfl).1
  have hl1 := (qstep_keeps hx hl).1
  obtain ⟨⟨t1, v⟩, e1, e⟩ := Own.bind_eq_ok hx
  cases e
  obtain ⟨⟨l, M⟩, d1, e1⟩ := Own.bind_eq_ok e1
  dsimp only at e1
  obtain ⟨vx, hx'⟩ := deref_eq d1
  have hM' : remembers M = true := by
    rcases hM with ⟨A, h⟩ | ⟨A, h⟩ <;> simp only [State.at, vx, Option.bind_some, hx', Option.some.injEq] at h <;> subst h <;> rfl
  have known : s1.norms[l]? = some (some v) := by
    split at e1
    · rename_i h
      cases e1
      exact Option.join_eq_some_iff.1 h
    · obtain ⟨u, -, e1⟩ := Own.bind_eq_ok e1
      rw [if_pos hM'] at e1
      cases e1
      show (s.norms.set l _)[l]? = _
      rw [List.getElem?_set_self]
      rw [hl]
      exact (List.getElem?_eq_some_iff.1 hx').1
  have known2 := (qexec_keeps hq hl1).2 l v known
  obtain ⟨⟨t2, w⟩, e2, e⟩ := Own.bind_eq_ok hb
  cases e
  obtain ⟨⟨k, N⟩, d2, e2⟩ := Own.bind_eq_ok e2
  dsimp only at e2
  obtain ⟨vy, -⟩ := deref_eq d2
  rw [hy, vx] at vy
  cases vy
  rw [known2] at e2
  cases e2
  rfl

/-- The matrix is dense or sparse, not a zero or a two-part matrix. -/
def Plainly : Mat R → Prop
  | .one (.dense _) => True
  | .one (.sparse _) => True
  | .one (.zero _) => False
  | .two _ _ => False

def PlainlyS : SMat R → Prop
  | .dense _ => True
  | .sparse _ => True
  | .zero _ => False

theorem plainly_one {A : SMat R} : Plainly (.one A) ↔ PlainlyS A := by cases A <;> rfl

theorem binassign_plainly {op : R → R → R} {A B C : SMat R} (e : SMat.binassign op A B = .ok C) : PlainlyS C ↔ PlainlyS A := by
  cases A <;> cases B <;> simp only [SMat.binassign] at e <;> first
    | (obtain ⟨_, -, e⟩ := Own.bind_eq_ok e; cases e; exact Iff.rfl)
    | (obtain ⟨_, -, e⟩ := Own.bind_eq_ok e; obtain ⟨_, -, e⟩ := Own.bind_eq_ok e; cases e; exact Iff.rfl)
    | cases e

/-- An in-place operation does not change the type of the matrix. -/
theorem assignVal_plainly {op : R → R → R} {opM : Mat R → Mat R → Res (Mat R)} {same : Bool} {A B C : Mat R}
    (ho : ∀ {A B C : Mat R}, opM A B = .ok C → (Plainly C ↔ Plainly A)) (e : assignVal op opM same A B = .ok C) : Plainly C ↔ Plainly A := by
  unfold assignVal at e
  split at e
  · unfold assignSelf at e
    split at e
    · obtain ⟨_, -, e⟩ := Own.bind_eq_ok e
      cases e; exact Iff.rfl
    · obtain ⟨_, h, e⟩ := Own.bind_eq_ok e
      cases e
      rw [plainly_one, plainly_one]
      exact binassign_plainly h
    · obtain ⟨_, -, e⟩ := Own.bind_eq_ok e
      obtain ⟨_, -, e⟩ := Own.bind_eq_ok e
      obtain ⟨_, -, e⟩ := Own.bind_eq_ok e
      obtain ⟨_, -, e⟩ := Own.bind_eq_ok e
      cases e; exact Iff.rfl
  · exact ho e

theorem addAssign_plainly {A B C : Mat R} (e : Mat.addAssign A B = .ok C) : Plainly C ↔ Plainly A := by
  unfold Mat.addAssign at e
  split at e
  · obtain ⟨_, h, e⟩ := Own.bind_eq_ok e
    cases e
    rw [plainly_one, plainly_one]
    exact binassign_plainly h
  · obtain ⟨_, -, e⟩ := Own.bind_eq_ok e
    obtain ⟨_, h, e⟩ := Own.bind_eq_ok e
    cases e
    rw [plainly_one, plainly_one]
    exact binassign_plainly h
  · obtain ⟨_, -, e⟩ := Own.bind_eq_ok e
    obtain ⟨_, -, e⟩ := Own.bind_eq_ok e
    cases e; exact Iff.rfl
  · obtain ⟨_, -, e⟩ := Own.bind_eq_ok e
    obtain ⟨_, -, e⟩ := Own.bind_eq_ok e
    obtain ⟨_, -, e⟩ := Own.bind_eq_ok e
    obtain ⟨_, -, e⟩ := Own.bind_eq_ok e
    cases e; exact Iff.rfl

theorem subAssign_plainly {A B C : Mat R} (e : Mat.subAssign A B = .ok C) : Plainly C ↔ Plainly A := by
  unfold Mat.subAssign at e
  split at e
  · obtain ⟨_, h, e⟩ := Own.bind_eq_ok e
    cases e
    rw [plainly_one, plainly_one]
    exact binassign_plainly h
  · obtain ⟨_, h1, e⟩ := Own.bind_eq_ok e
    obtain ⟨_, h, e⟩ := Own.bind_eq_ok e
    cases e
    rw [plainly_one, plainly_one]
    exact (binassign_plainly h).trans (binassign_plainly h1)
  · obtain ⟨_, -, e⟩ := Own.bind_eq_ok e
    obtain ⟨_, -, e⟩ := Own.bind_eq_ok e
    cases e; exact Iff.rfl
  · obtain ⟨_, -, e⟩ := Own.bind_eq_ok e
    obtain ⟨_, -, e⟩ := Own.bind_eq_ok e
    obtain ⟨_, -, e⟩ := Own.bind_eq_ok e
    obtain ⟨_, -, e⟩ := Own.bind_eq_ok e
    cases e; exact Iff.rfl

theorem step_plainly {s s' : State R} {o : Stmt R} (e : step s o = .ok s') {l : Nat} {M : Mat R} (h : s.heap[l]? = some M) :
    ∃ N, s'.heap[l]? = some N ∧ (Plainly N ↔ Plainly M) := by
  have hl : l < s.heap.length := (List.getElem?_eq_some_iff.1 h).1
  by_cases hc : ∀ x y, o = .addAssign x y ∨ o = .subAssign x y → s.vars x ≠ some l
  · exact ⟨M, by rw [(step_keeps e).2 l hc hl, h], Iff.rfl⟩
  have main : ∀ {op : R → R → R} {opM : Mat R → Mat R → Res (Mat R)} {x y : Nat}, s.vars x = some l →
      (∀ {A B C : Mat R}, opM A B = .ok C → (Plainly C ↔ Plainly A)) → s.assign op opM x y = .ok s' →
      ∃ N, s'.heap[l]? = some N ∧ (Plainly N ↔ Plainly M) := by
    intro op opM x y hx ho e
    obtain ⟨⟨l', A⟩, e1, e⟩ := Own.bind_eq_ok e
    obtain ⟨⟨k, B⟩, e2, e⟩ := Own.bind_eq_ok e
    obtain ⟨N, e3, e⟩ := Own.bind_eq_ok e
    cases e
    obtain ⟨v1, h1⟩ := deref_eq e1
    rw [hx] at v1
    cases v1
    rw [h] at h1
    cases h1
    exact ⟨N, List.getElem?_set_self hl, assignVal_plainly ho e3⟩
  push Not at hc
  obtain ⟨x, y, ho, hx⟩ := hc
  rcases ho with rfl | rfl
  · exact main hx addAssign_plainly e
  · exact main hx subAssign_plainly e

/-- Only dense and sparse matrices have a remembered norm. -/
def OnlyPlain (s : QState R V) : Prop :=
  s.norms.length = s.st.heap.length ∧ ∀ (l : Nat) (v : V) (M : Mat R), s.norms[l]? = some (some v) → s.st.heap[l]? = some M → Plainly M

theorem getNorm_plain {nrm : Mat R → Res V} {s s' : QState R V} {x : Nat} {w : V} (e : s.getNorm nrm x = .ok (s', w)) (h : OnlyPlain s) :
    OnlyPlain s' := by
  obtain ⟨⟨l, M⟩, e1, e⟩ := Own.bind_eq_ok e
  dsimp only at e
  obtain ⟨-, hM⟩ := deref_eq e1
  split at e
  · cases e; exact h
  · obtain ⟨u, -, e⟩ := Own.bind_eq_ok e
    split at e
    · rename_i hr
      cases e
      refine ⟨by simp [h.1], fun k v N hk hN => ?_⟩
      by_cases hkl : l = k
      · subst hkl
        dsimp only at hN
        rw [hM] at hN
        cases hN
        cases M with
        | one A => cases A with
          | dense _ => trivial
          | sparse _ => trivial
          | zero _ => cases hr
        | two _ _ => cases hr
      · dsimp only at hk
        rw [List.getElem?_set_ne hkl] at hk
        exact h.2 k v N hk hN
    · cases e; exact h

theorem qstep_plain {nrm : Mat R → Res V} {s s' : QState R V} {q : QStmt R V} {a : Ans V} (e : qstep nrm s q = .ok (s', a))
    (h : OnlyPlain s) : OnlyPlain s' := by
  cases q with
  | stmt o =>
    have hk := (qstep_keeps e h.1).1
    obtain ⟨t, e1, e⟩ := Own.bind_eq_ok e
    cases e
    refine ⟨hk, fun l v M hl hM => ?_⟩
    dsimp only at hl hM
    have hl' : s.norms[l]? = some (some v) := by
      rw [List.getElem?_append] at hl
      split at hl
      · exact hl
      · rw [List.getElem?_replicate] at hl
        split at hl <;> cases hl
    have hlt : l < s.st.heap.length := h.1 ▸ (List.getElem?_eq_some_iff.1 hl').1
    obtain ⟨N, hN, k⟩ := step_plainly e1 (List.getElem?_eq_getElem hlt)
    rw [hM] at hN
    cases hN
    exact k.2 (h.2 l v _ hl' (List.getElem?_eq_getElem hlt))
  | rows x => obtain ⟨_, -, e⟩ := Own.bind_eq_ok e; cases e; exact h
  | cols x => obtain ⟨_, -, e⟩ := Own.bind_eq_ok e; cases e; exact h
  | size x => obtain ⟨_, -, e⟩ := Own.bind_eq_ok e; cases e; exact h
  | norm x =>
    obtain ⟨⟨u, w⟩, e1, e⟩ := Own.bind_eq_ok e
    cases e
    exact getNorm_plain e1 h
  | normLarger x w =>
    obtain ⟨⟨u, w⟩, e1, e⟩ := Own.bind_eq_ok e
    cases e
    exact getNorm_plain e1 h

theorem qexec_plain {nrm : Mat R → Res V} {p : List (QStmt R V)} {s s' : QState R V} {as : List (Ans V)} (e : qexec nrm s p = .ok (s', as))
    (h : OnlyPlain s) : OnlyPlain s' := by
  induction p generalizing s as with
  | nil => cases e; exact h
  | cons q p ih =>
    obtain ⟨⟨s1, a1⟩, e1, e⟩ := Own.bind_eq_ok e
    obtain ⟨⟨s2, as2⟩, e2, e⟩ := Own.bind_eq_ok e
    cases e
    exact ih e2 (qstep_plain e1 h)

/-- C112, for all programs: the norm of a zero or a two-part matrix is computed anew at every query, from the matrix as it is then
— only dense and sparse matrices answer from memory (`C112_first_norm_stays`). -/
theorem C112_others_ask_again (nrm : Mat R → Res V) (p : List (QStmt R V)) (as : List (Ans V)) (s : QState R V) (x : Nat) (M : Mat R)
    (hp : qexec nrm ⟨.init, []⟩ p = .ok (s, as)) (hM : s.st.at x = some M)
    (hk : (∃ d, M = .one (.zero d)) ∨ ∃ A B, M = .two A B) :
    qstep nrm s (.norm x) = (nrm M).bind fun v => .ok (s, .num v) := by
  have hs : OnlyPlain s := qexec_plain hp ⟨rfl, fun l v M h => by simp at h⟩
  have hn : ¬ Plainly M := by rcases hk with ⟨d, rfl⟩ | ⟨A, B, rfl⟩ <;> exact fun h => h
  have hr : remembers M = false := by rcases hk with ⟨d, rfl⟩ | ⟨A, B, rfl⟩ <;> rfl
  obtain ⟨l, vx, hl⟩ := Option.bind_eq_some_iff.1 hM
  have d : s.st.deref x = .ok (l, M) := by simp only [State.deref, vx, hl]
  have nn : s.norms[l]?.join = none := by
    cases h : s.norms[l]?.join with
    | none => rfl
    | some v => exact absurd (hs.2 l v M (Option.join_eq_some_iff.1 h) hl) hn
  simp only [qstep, QState.getNorm, d, bind_ok', nn, hr]
  cases nrm M <;> rfl

/-- The hypotheses of `C112_others_ask_again`: a two-part matrix that was asked, changed and asked again. -/
example : ∃ s, qexec (fun _ : Mat Int => (.ok 7 : Res Int)) ⟨.init, []⟩ [.stmt (.make 0 (.two (.dense ⟨.col, Dim.mk' 1 1, [some 3]⟩) (.dense ⟨.col, Dim.mk' 1 1, [some 4]⟩))),
    .norm 0, .stmt (.addAssign 0 0)] = .ok (s, [.nothing, .num 7, .nothing]) ∧
    s.st.at 0 = some (.two (.dense ⟨.col, Dim.mk' 1 1, [some 16]⟩) (.dense ⟨.col, Dim.mk' 1 1, [some 20]⟩)) := ⟨_, rfl, rfl⟩

end first

/-- A 1×1 dense matrix. -/
def numR (a : ℝ) : Mat ℝ := .one (.dense ⟨.col, Dim.mk' 1 1, [some a]⟩)

theorem numR_is (a : ℝ) : (numR a).Is 1 1 (fun _ _ => a) := ⟨Dense.ofFn_is .col 1 1 (fun _ _ => a), rfl⟩

theorem nrm_numR (b : Build) {a : ℝ} (h : 0 ≤ a) : nrm b (numR a) = .ok a := by
  obtain ⟨x, e, hx⟩ := blockNorm_sat b (numR_is a) (.inl rfl)
  rw [e, isNorm_unique hx ⟨h, by simp⟩]

/-- C112 is false after in-place changes: the norm of `x = (3)` is 3; after `x += (4)`, `x` is (7) and its norm is still 3. -/
theorem C112_norm_is_stale (b : Build) : ∃ s, qexec (nrm b) ⟨.init, []⟩ [.stmt (.make 0 (numR 3)), .stmt (.make 1 (numR 4)), .norm 0,
      .stmt (.addAssign 0 1), .norm 0] = .ok (s, [.nothing, .nothing, .num 3, .nothing, .num 3]) ∧ s.st.at 0 = some (numR (3 + 4)) := by
  refine ⟨⟨⟨[numR (3 + 4), numR 4], ((State.init.new 0 (numR 3)).new 1 (numR 4)).vars, fun _ => none⟩, [some 3, none]⟩, ?_, rfl⟩
  have e : ∀ (t : State ℝ), t.deref 0 = .ok (0, numR 3) → (QState.mk t [none, none]).getNorm (nrm b) 0 = .ok (⟨t, [some 3, none]⟩, 3) := by
    intro t ht
    simp only [QState.getNorm, ht, bind_ok', nrm_numR b (show (0 : ℝ) ≤ 3 by norm_num)]
    rfl
  simp only [qexec, qstep, step, bind_ok', pure_ok']
  have e' : ∀ n : List (Option ℝ), n = [none, none] → (QState.mk ((State.init.new 0 (numR 3)).new 1 (numR 4)) n).getNorm (nrm b) 0
      = .ok (⟨(State.init.new 0 (numR 3)).new 1 (numR 4), [some 3, none]⟩, 3) := by
    rintro n rfl
    exact e _ rfl
  rw [e']
  · rfl
  · rfl

/-- C112 is false for sizes of zero matrices: a computed 1×1 zero matrix says that it has 0 elements, a constructed one 1. -/
theorem C112_size_of_a_zero_product (nrm : Mat Int → Res Int) : ∃ s, qexec nrm ⟨.init, []⟩ [.stmt (.make 0 (.one (.zero (Dim.mk' 1 1)))),
    .stmt (.mul 1 0 0), .size 0, .rows 1, .cols 1, .size 1] = .ok (s, [.nothing, .nothing, .nat 1, .nat 1, .nat 1, .nat 0]) := ⟨_, rfl⟩

/-- C112 is false for norms of sparse results: the sum of a sparse matrix with itself has spare cells, which are read. -/
theorem C112_norm_of_a_sparse_sum_is_ub (b : Build) : qexec (nrm b) ⟨.init, []⟩ [.stmt (.make 0 (.one (.sparse exNormS))), .stmt (.add 1 0 0), .norm 1]
    = .error .ub := rfl

/-- C112 is false for norms of two-part matrices: the norm of (3)+(4) is 0, or the query fails. -/
theorem C112_norm_of_two_parts :
    (∃ s, qexec (nrm .release) ⟨.init, []⟩ [.stmt (.make 0 (.two (.dense ⟨.col, Dim.mk' 1 1, [some 3]⟩) (.dense ⟨.col, Dim.mk' 1 1, [some 4]⟩))), .norm 0]
      = .ok (s, [.nothing, .num 0])) ∧
    qexec (nrm .exception) ⟨.init, []⟩ [.stmt (.make 0 (.two (.dense ⟨.col, Dim.mk' 1 1, [some 3]⟩) (.dense ⟨.col, Dim.mk' 1 1, [some 4]⟩))), .norm 0]
      = .error (.throw "not implemented yet") := ⟨⟨_, rfl⟩, rfl⟩

theorem ex_cons {t t' : QStore} {q : QStmt ℝ ℝ} {a : Ans ℝ} {p : List (QStmt ℝ ℝ)} {as : List (Ans ℝ)} (h : QMeans t q a t')
    (k : ∃ u, QRuns t' p as u) : ∃ u, QRuns t (q :: p) (a :: as) u := by
  obtain ⟨u, k⟩ := k
  exact ⟨u, .cons h k⟩

/-- The hypotheses of `C112_queries_partial`: a program that asks for dimensions, size and norms through two variables. -/
example : ∃ t', QRuns ⟨⟨[], fun _ => none, fun _ => none⟩, [], []⟩
    [.stmt (.make 0 (numR 3)), .stmt (.share 1 0), .stmt (.addAssign 1 0), .rows 0, .size 1, .norm 0, .normLarger 1 5]
    [.nothing, .nothing, .nothing, .nat 1, .nat 1, .num 6, .bool true] t' := by
  refine ex_cons (.stmt (.make (numR_is 3)) ?_) ?_
  · rintro l ⟨x', y', h1 | h1, -⟩ <;> cases h1
  refine ex_cons (.stmt .share ?_) ?_
  · rintro l ⟨x', y', h1 | h1, -⟩ <;> cases h1
  refine ex_cons (.stmt (.addAssign rfl rfl rfl trivial rfl rfl) ?_) ?_
  · intro l _; exact ⟨by simp, by simp⟩
  refine ex_cons (.rows (o := ⟨.one .dense, 1, 1, fun _ _ => 3 + 3⟩) rfl) ?_
  refine ex_cons (.size (o := ⟨.one .dense, 1, 1, fun _ _ => 3 + 3⟩) rfl ⟨by simp, by simp⟩) ?_
  refine ex_cons (.norm (l := 0) (o := ⟨.one .dense, 1, 1, fun _ _ => 3 + 3⟩) rfl rfl (.inl rfl) ⟨by norm_num, ?_⟩) ?_
  · simp; norm_num
  refine ex_cons (.normLarger (l := 0) (o := ⟨.one .dense, 1, 1, fun _ _ => 3 + 3⟩) (v := 6) rfl rfl (.inl rfl) ⟨by norm_num, ?_⟩ ?_) ⟨_, .nil⟩
  · simp; norm_num
  · norm_num

end BB.Dyn
