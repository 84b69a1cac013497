import Verif.SpecCache
import Verif.Props.Checker
import Verif.Props.Norm

/-!
# C33, C34: cached occupation and norm
-/

namespace BB.Cache

variable {M R V : Type}

theorem less_eq [LinearOrder R] (a b : Checker R) :
    sameKey a b = true ↔ a = b := by
  unfold sameKey
  constructor
  · intro h
    have blen : ∀ x y : Checker R, x.kind = y.kind → x.bounds.length = y.bounds.length := by
      intro x y; cases x <;> cases y <;> simp [Checker.kind, Checker.bounds]
    have binj : ∀ x y : Checker R, x.kind = y.kind → x.bounds = y.bounds → x = y := by
      intro x y; cases x <;> cases y <;> simp [Checker.kind, Checker.bounds]
    have form : ∀ x y : Checker R, TChecker.less ⟨true, x⟩ ⟨true, y⟩
        = .ok (decide (x.kind < y.kind) || (decide (x.kind = y.kind) && lexLt x.bounds y.bounds)) := by
      intro x y
      simp only [TChecker.less, TChecker.id, if_true, true_and]
      rcases lt_trichotomy x.kind y.kind with h | h | h
      · simp [h]
      · simp [h]
      · simp [h, Nat.ne_of_gt h, not_lt.2 h.le]
    rw [form a b, form b a] at h
    split at h
    · rename_i h1 h2
      injection h1 with h1
      injection h2 with h2
      simp only [Bool.or_eq_false_iff, decide_eq_false_iff_not, not_lt, Bool.and_eq_false_iff] at h1 h2
      have hk : a.kind = b.kind := le_antisymm h2.1 h1.1
      have h3 := h1.2.resolve_left (by simp [hk])
      have h4 := h2.2.resolve_left (by simp [hk])
      exact binj _ _ hk (lexLt_total _ _ (blen _ _ hk) h3 h4)
    · cases h
  · rintro rfl
    simp [TChecker.less, lexLt_irrefl]

theorem lookup_cons [LinearOrder R] (l : List (Checker R × Nat)) (k c : Checker R) (n : Nat) :
    lookup ((c, n) :: l) k = if c = k then some n else lookup l k := by
  unfold lookup
  rw [List.find?_cons]
  by_cases h : c = k
  · have h2 := (less_eq c k).2 h
    dsimp only
    rw [h2]; simp [h]
  · have h2 := (less_eq c k).not.2 h
    simp only [Bool.not_eq_true] at h2
    dsimp only
    rw [h2]; simp [h]

theorem lookup_nil [LT R] [DecidableLT R] (k : Checker R) : lookup ([] : List (Checker R × Nat)) k = none := rfl

/-- Relation between an object and its state for norm queries. -/
def NormInv (K : Ops M R V) (o : Obj M R V) : State → Prop
  | .clean => o.norm = none
  | .asked => ∃ v, o.norm = some v ∧ K.nrm o.mat = .ok v
  | .stale => True

/-- Relation between an object and its state for occupation queries. -/
def OccInv [LT R] [DecidableLT R] (K : Ops M R V) (o : Obj M R V) : State → Prop
  | .clean => o.occ = []
  | .asked => ∀ k n, lookup o.occ k = some n → K.cnt k o.mat = .ok n
  | .stale => True

theorem NormInv.touch {K : Ops M R V} {o : Obj M R V} {s : State} (h : NormInv K o s) (m : M) : NormInv K { o with mat := m } s.touch := by
  cases s with
  | clean => exact h
  | asked => trivial
  | stale => trivial

theorem OccInv.touch [LT R] [DecidableLT R] {K : Ops M R V} {o : Obj M R V} {s : State} (h : OccInv K o s) (m : M) :
    OccInv K { o with mat := m } s.touch := by
  cases s with
  | clean => exact h
  | asked => trivial
  | stale => trivial

theorem NormInv.congr {K : Ops M R V} {o o' : Obj M R V} {s : State} (h : NormInv K o s) (h1 : o'.mat = o.mat) (h2 : o'.norm = o.norm) :
    NormInv K o' s := by
  cases s with
  | clean => exact h2.trans h
  | asked => obtain ⟨v, a, b⟩ := h; exact ⟨v, h2.trans a, by rw [h1]; exact b⟩
  | stale => trivial

theorem OccInv.congr [LT R] [DecidableLT R] {K : Ops M R V} {o o' : Obj M R V} {s : State} (h : OccInv K o s) (h1 : o'.mat = o.mat)
    (h2 : o'.occ = o.occ) : OccInv K o' s := by
  cases s with
  | clean => exact h2.trans h
  | asked => intro k n hk; rw [h2] at hk; rw [h1]; exact h k n hk
  | stale => trivial

theorem get_ok {p : Pool M R V} {x : Nat} {o : Obj M R V} (h : p.get x = .ok o) : p x = some o := by
  unfold Pool.get at h
  split at h
  · rename_i q hq; cases h; exact hq
  · cases h

theorem set_some {p : Pool M R V} {x z : Nat} {o q : Obj M R V} (h : (p.set x o) z = some q) : (z = x ∧ q = o) ∨ (z ≠ x ∧ p z = some q) := by
  unfold Pool.set at h
  by_cases hz : z = x
  · rw [if_pos hz] at h; cases h; exact .inl ⟨hz, rfl⟩
  · rw [if_neg hz] at h; exact .inr ⟨hz, h⟩

theorem bind_eq_ok {α β : Type} {x : Res α} {f : α → Res β} {b : β} (h : (x >>= f) = .ok b) : ∃ a, x = .ok a ∧ f a = .ok b := by
  cases x with
  | error e => cases h
  | ok a => exact ⟨a, rfl, h⟩

theorem getNorm_ok {K : Ops M R V} {o o' : Obj M R V} {v : V} (h : o.getNorm K = .ok (o', v)) :
    o'.mat = o.mat ∧ o'.occ = o.occ ∧ o'.norm = some v ∧ (o.norm = some v ∨ (o.norm = none ∧ K.nrm o.mat = .ok v)) := by
  unfold Obj.getNorm at h
  split at h
  · rename_i w hw; cases h; exact ⟨rfl, rfl, hw, .inl hw⟩
  · rename_i hw
    obtain ⟨w, e, h⟩ := bind_eq_ok h
    cases h
    exact ⟨rfl, rfl, rfl, .inr ⟨hw, e⟩⟩

theorem getCount_ok [LT R] [DecidableLT R] {K : Ops M R V} {o o' : Obj M R V} {k : Checker R} {n : Nat} (h : o.getCount K k = .ok (o', n)) :
    o'.mat = o.mat ∧ o'.norm = o.norm ∧
    ((o'.occ = o.occ ∧ lookup o.occ k = some n) ∨ (o'.occ = (k, n) :: o.occ ∧ lookup o.occ k = none ∧ K.cnt k o.mat = .ok n)) := by
  unfold Obj.getCount at h
  split at h
  · rename_i w hw; cases h; exact ⟨rfl, rfl, .inl ⟨rfl, hw⟩⟩
  · rename_i hw
    obtain ⟨w, e, h⟩ := bind_eq_ok h
    cases h
    exact ⟨rfl, rfl, .inr ⟨rfl, hw, e⟩⟩

/-- One step keeps a property of (object, state) pairs, given how it survives the elementary changes. -/
theorem step_inv [LinearOrder R] {K : Ops M R V} {p p' : Pool M R V} {op : Op M R} {a : Ans V} {g : Nat → State} (w : What)
    (I : Obj M R V → State → Prop) (hstep : step K p op = .ok (p', a))
    (hfresh : ∀ m, I (.fresh m) .clean)
    (htouch : ∀ o s m, I o s → I { o with mat := m } s.touch)
    (hreset : ∀ o s, I o s → I { o with occ := [] } (if w = .occ then .clean else s))
    (hnorm : ∀ o o' s v, I o s → o.getNorm K = .ok (o', v) → I o' (if w = .norm ∧ s = .clean then .asked else s))
    (hcount : ∀ o o' s k n, I o s → o.getCount K k = .ok (o', n) → I o' (if w = .occ ∧ s = .clean then .asked else s))
    (hinv : ∀ z o, p z = some o → I o (g z)) :
    ∀ z o, p' z = some o → I o (track w g op z) := by
  intro z o hz
  cases op with
  | make x m =>
    cases hstep
    rcases set_some hz with ⟨rfl, rfl⟩ | ⟨hne, hz⟩
    · simp only [track, if_true]; exact hfresh m
    · simp only [track, if_neg hne]; exact hinv z o hz
  | copy x y =>
    simp only [step] at hstep
    obtain ⟨q, hq, h⟩ := bind_eq_ok hstep
    cases h
    rcases set_some hz with ⟨rfl, rfl⟩ | ⟨hne, hz⟩
    · simp only [track, if_true]; exact hinv y _ (get_ok hq)
    · simp only [track, if_neg hne]; exact hinv z o hz
  | move x y =>
    simp only [step] at hstep
    obtain ⟨q, hq, h⟩ := bind_eq_ok hstep
    cases h
    rcases set_some hz with ⟨rfl, rfl⟩ | ⟨hne, hz⟩
    · simp only [track, if_true]; exact hfresh _
    · rcases set_some hz with ⟨rfl, rfl⟩ | ⟨hne', hz⟩
      · simp only [track, if_neg hne, if_true]; exact htouch _ _ _ (hinv _ _ (get_ok hq))
      · simp only [track, if_neg hne, if_neg hne']; exact hinv z o hz
  | assign x y =>
    simp only [step] at hstep
    obtain ⟨q0, -, hstep⟩ := bind_eq_ok hstep
    obtain ⟨q, hq, h⟩ := bind_eq_ok hstep
    cases h
    rcases set_some hz with ⟨rfl, rfl⟩ | ⟨hne, hz⟩
    · simp only [track, if_true]; exact hinv y _ (get_ok hq)
    · simp only [track, if_neg hne]; exact hinv z o hz
  | moveAssign x y =>
    simp only [step] at hstep
    obtain ⟨o0, ho0, hstep⟩ := bind_eq_ok hstep
    obtain ⟨q, hq, h⟩ := bind_eq_ok hstep
    cases h
    rcases set_some hz with ⟨rfl, rfl⟩ | ⟨hne, hz⟩
    · simp only [track, or_true, if_true]; exact htouch _ _ _ (hinv _ _ (get_ok hq))
    · rcases set_some hz with ⟨rfl, rfl⟩ | ⟨hne', hz⟩
      · simp only [track, true_or, if_true]; exact htouch _ _ _ (hinv _ _ (get_ok ho0))
      · simp only [track, hne, hne', or_self, if_false]; exact hinv z o hz
  | swap x y =>
    simp only [step] at hstep
    obtain ⟨o0, ho0, hstep⟩ := bind_eq_ok hstep
    obtain ⟨q, hq, h⟩ := bind_eq_ok hstep
    cases h
    rcases set_some hz with ⟨rfl, rfl⟩ | ⟨hne, hz⟩
    · simp only [track, or_true, if_true]; exact htouch _ _ _ (hinv _ _ (get_ok hq))
    · rcases set_some hz with ⟨rfl, rfl⟩ | ⟨hne', hz⟩
      · simp only [track, true_or, if_true]; exact htouch _ _ _ (hinv _ _ (get_ok ho0))
      · simp only [track, hne, hne', or_self, if_false]; exact hinv z o hz
  | edit x f =>
    simp only [step] at hstep
    obtain ⟨q, hq, h⟩ := bind_eq_ok hstep
    cases h
    rcases set_some hz with ⟨rfl, rfl⟩ | ⟨hne, hz⟩
    · simp only [track, if_true]; exact htouch _ _ _ (hinv _ _ (get_ok hq))
    · simp only [track, if_neg hne]; exact hinv z o hz
  | reset x =>
    simp only [step] at hstep
    obtain ⟨q, hq, h⟩ := bind_eq_ok hstep
    cases h
    rcases set_some hz with ⟨rfl, rfl⟩ | ⟨hne, hz⟩
    · simp only [track, true_and]; exact hreset _ _ (hinv _ _ (get_ok hq))
    · simp only [track, hne, false_and, if_false]; exact hinv z o hz
  | norm x =>
    simp only [step] at hstep
    obtain ⟨q, hq, hstep⟩ := bind_eq_ok hstep
    obtain ⟨⟨q', v⟩, hv, h⟩ := bind_eq_ok hstep
    cases h
    rcases set_some hz with ⟨rfl, rfl⟩ | ⟨hne, hz⟩
    · simp only [track, true_and]; exact hnorm _ _ _ _ (hinv _ _ (get_ok hq)) hv
    · simp only [track, hne, false_and, if_false]; exact hinv z o hz
  | count x k =>
    simp only [step] at hstep
    obtain ⟨q, hq, hstep⟩ := bind_eq_ok hstep
    obtain ⟨⟨q', v⟩, hv, h⟩ := bind_eq_ok hstep
    cases h
    rcases set_some hz with ⟨rfl, rfl⟩ | ⟨hne, hz⟩
    · simp only [track, true_and]; exact hcount _ _ _ _ _ (hinv _ _ (get_ok hq)) hv
    · simp only [track, hne, false_and, if_false]; exact hinv z o hz

theorem norm_step [LinearOrder R] {K : Ops M R V} {p p' : Pool M R V} {op : Op M R} {a : Ans V} {g : Nat → State}
    (hstep : step K p op = .ok (p', a)) (hinv : ∀ z o, p z = some o → NormInv K o (g z)) :
    ∀ z o, p' z = some o → NormInv K o (track .norm g op z) := by
  refine step_inv .norm (NormInv K) hstep (fun _ => rfl) (fun o s m h => h.touch m) ?_ ?_ ?_ hinv
  · intro o s h; simp only [reduceCtorEq, if_false]; exact h.congr rfl rfl
  · intro o o' s v h hv
    obtain ⟨h1, h2, h3, h4⟩ := getNorm_ok hv
    cases s with
    | clean =>
      simp only [and_self, if_true]
      refine ⟨v, h3, ?_⟩
      rw [h1]
      rcases h4 with h4 | h4
      · rw [show o.norm = none from h] at h4; cases h4
      · exact h4.2
    | asked =>
      obtain ⟨w, hw, hn⟩ := h
      simp only [reduceCtorEq, and_false, if_false]
      refine ⟨w, ?_, by rw [h1]; exact hn⟩
      rw [h3]
      rcases h4 with h4 | h4
      · rw [← h4, hw]
      · rw [hw] at h4; cases h4.1
    | stale => trivial
  · intro o o' s k n h hv
    obtain ⟨h1, h2, -⟩ := getCount_ok hv
    simp only [reduceCtorEq, false_and, if_false]
    exact h.congr h1 h2

theorem occ_step [LinearOrder R] {K : Ops M R V} {p p' : Pool M R V} {op : Op M R} {a : Ans V} {g : Nat → State}
    (hstep : step K p op = .ok (p', a)) (hinv : ∀ z o, p z = some o → OccInv K o (g z)) :
    ∀ z o, p' z = some o → OccInv K o (track .occ g op z) := by
  refine step_inv .occ (OccInv K) hstep (fun _ => rfl) (fun o s m h => h.touch m) ?_ ?_ ?_ hinv
  · intro o s h; simp only [if_true]; rfl
  · intro o o' s v h hv
    obtain ⟨h1, h2, -⟩ := getNorm_ok hv
    simp only [reduceCtorEq, false_and, if_false]
    exact h.congr h1 h2
  · intro o o' s k n h hv
    obtain ⟨h1, -, h4⟩ := getCount_ok hv
    have key : (∀ k n, lookup o.occ k = some n → K.cnt k o.mat = .ok n) →
        ∀ k n, lookup o'.occ k = some n → K.cnt k o'.mat = .ok n := by
      intro hh k' n' hk'
      rw [h1]
      rcases h4 with ⟨h4, -⟩ | ⟨h4, -, h5⟩
      · rw [h4] at hk'; exact hh k' n' hk'
      · rw [h4, lookup_cons] at hk'
        split at hk'
        · rename_i e; cases hk'; subst e; exact h5
        · exact hh k' n' hk'
    cases s with
    | clean =>
      simp only [and_self, if_true]
      refine key ?_
      intro k' n' hk'
      rw [show o.occ = [] from h, lookup_nil] at hk'
      cases hk'
    | asked =>
      simp only [reduceCtorEq, and_false, if_false]
      exact key h
    | stale => trivial

theorem norm_run [LinearOrder R] {K : Ops M R V} (ops : List (Op M R)) {p p' : Pool M R V} {g : Nat → State}
    (hrun : run K ops p = .ok p') (hinv : ∀ z o, p z = some o → NormInv K o (g z)) :
    ∀ z o, p' z = some o → NormInv K o (trackAll .norm g ops z) := by
  induction ops generalizing p g with
  | nil => cases hrun; exact hinv
  | cons op ops ih =>
    simp only [run] at hrun
    obtain ⟨⟨q, a⟩, hs, hrun⟩ := bind_eq_ok hrun
    exact ih hrun (norm_step hs hinv)

theorem occ_run [LinearOrder R] {K : Ops M R V} (ops : List (Op M R)) {p p' : Pool M R V} {g : Nat → State}
    (hrun : run K ops p = .ok p') (hinv : ∀ z o, p z = some o → OccInv K o (g z)) :
    ∀ z o, p' z = some o → OccInv K o (trackAll .occ g ops z) := by
  induction ops generalizing p g with
  | nil => cases hrun; exact hinv
  | cons op ops ih =>
    simp only [run] at hrun
    obtain ⟨⟨q, a⟩, hs, hrun⟩ := bind_eq_ok hrun
    exact ih hrun (occ_step hs hinv)

/-- C34 for histories in which the object has not been changed after its norm was asked for: whatever else
happened, `getNorm` answers the norm of the present contents.  (Missing: all other histories,
`C34_norm_is_sticky`.) -/
theorem C34_fresh_partial [LinearOrder R] (K : Ops M R V) (ops : List (Op M R)) (p : Pool M R V) (hrun : run K ops (fun _ => none) = .ok p)
    (x : Nat) (o : Obj M R V) (hx : p x = some o) (hs : trackAll .norm noneAsked ops x ≠ .stale) :
    (∀ p' a, step K p (.norm x) = .ok (p', a) → ∃ v, a = .norm v ∧ K.nrm o.mat = .ok v) ∧
    ∀ v, K.nrm o.mat = .ok v → ∃ p', step K p (.norm x) = .ok (p', .norm v) := by
  have hinv := norm_run ops hrun (g := noneAsked) (by intro z o h; cases h) x o hx
  have hget : p.get x = .ok o := by unfold Pool.get; rw [hx]
  have hfresh : o.norm = none ∨ ∃ v, o.norm = some v ∧ K.nrm o.mat = .ok v := by
    cases hst : trackAll .norm noneAsked ops x with
    | clean => rw [hst] at hinv; exact .inl hinv
    | asked => rw [hst] at hinv; exact .inr hinv
    | stale => exact absurd hst hs
  constructor
  · intro p' a h
    simp only [step, hget] at h
    obtain ⟨⟨q, v⟩, hv, h⟩ := bind_eq_ok (x := o.getNorm K) h
    cases h
    obtain ⟨-, -, -, h4⟩ := getNorm_ok hv
    refine ⟨v, rfl, ?_⟩
    rcases h4 with h4 | h4
    · rcases hfresh with h0 | ⟨w, hw, hn⟩
      · rw [h0] at h4; cases h4
      · rw [hw] at h4; cases h4; exact hn
    · exact h4.2
  · intro v hv
    simp only [step, hget, bind_ok']
    rcases hfresh with h0 | ⟨w, hw, hn⟩
    · simp only [Obj.getNorm, h0, hv, bind_ok']
      exact ⟨_, rfl⟩
    · rw [hn] at hv; cases hv
      simp only [Obj.getNorm, hw]
      exact ⟨_, rfl⟩

/-- C33 for histories in which the object has not been changed since one of its occupations was asked for, or
was `reset()` after the change: `getNbOfSignificantElements` answers the count of the present contents.
(Missing: all other histories, `C33_count_is_sticky`.) -/
theorem C33_fresh_partial [LinearOrder R] (K : Ops M R V) (ops : List (Op M R)) (p : Pool M R V) (hrun : run K ops (fun _ => none) = .ok p)
    (x : Nat) (o : Obj M R V) (hx : p x = some o) (hs : trackAll .occ noneAsked ops x ≠ .stale) (k : Checker R) :
    (∀ p' a, step K p (.count x k) = .ok (p', a) → ∃ n, a = .count n ∧ K.cnt k o.mat = .ok n) ∧
    ∀ n, K.cnt k o.mat = .ok n → ∃ p', step K p (.count x k) = .ok (p', .count n) := by
  have hinv := occ_run ops hrun (g := noneAsked) (by intro z o h; cases h) x o hx
  have hget : p.get x = .ok o := by unfold Pool.get; rw [hx]
  have hfresh : ∀ n, lookup o.occ k = some n → K.cnt k o.mat = .ok n := by
    cases hst : trackAll .occ noneAsked ops x with
    | clean => rw [hst] at hinv; intro n hn; rw [show o.occ = [] from hinv] at hn; cases hn
    | asked => rw [hst] at hinv; exact hinv k
    | stale => exact absurd hst hs
  constructor
  · intro p' a h
    simp only [step, hget] at h
    obtain ⟨⟨q, v⟩, hv, h⟩ := bind_eq_ok (x := o.getCount K k) h
    cases h
    obtain ⟨-, -, h4⟩ := getCount_ok hv
    refine ⟨v, rfl, ?_⟩
    rcases h4 with ⟨-, h4⟩ | ⟨-, -, h4⟩
    · exact hfresh _ h4
    · exact h4
  · intro v hv
    simp only [step, hget, bind_ok']
    cases hl : lookup o.occ k with
    | none =>
      simp only [Obj.getCount, hl, hv, bind_ok']
      exact ⟨_, rfl⟩
    | some w =>
      have := hfresh w hl
      rw [hv] at this; cases this
      simp only [Obj.getCount, hl]
      exact ⟨_, rfl⟩

/-! ### Negative results -/

/-- The operation puts another object at name `x` (constructs it or copy-assigns to it). -/
def replaces (x : Nat) : Op M R → Prop
  | .make y _ => y = x
  | .copy y _ => y = x
  | .move y _ => y = x
  | .assign y _ => y = x
  | _ => False

theorem norm_sticky_step [LinearOrder R] {K : Ops M R V} {p p' : Pool M R V} {op : Op M R} {a : Ans V} {x : Nat} {v : V}
    (hstep : step K p op = .ok (p', a)) (hop : ¬ replaces x op) (hp : ∃ o, p x = some o ∧ o.norm = some v) :
    ∃ o, p' x = some o ∧ o.norm = some v := by
  obtain ⟨o, ho, hv⟩ := hp
  have hget : p.get x = .ok o := by unfold Pool.get; rw [ho]
  cases op with
  | make y m =>
    cases hstep
    exact ⟨o, by unfold Pool.set; rw [if_neg (fun e => hop e.symm)]; exact ho, hv⟩
  | copy y z =>
    simp only [step] at hstep
    obtain ⟨q, hq, h⟩ := bind_eq_ok hstep
    cases h
    exact ⟨o, by unfold Pool.set; rw [if_neg (fun e => hop e.symm)]; exact ho, hv⟩
  | move y z =>
    simp only [step] at hstep
    obtain ⟨q, hq, h⟩ := bind_eq_ok hstep
    cases h
    unfold Pool.set
    rw [if_neg (fun e => hop e.symm)]
    by_cases hz : x = z
    · subst hz
      rw [hget] at hq; cases hq
      exact ⟨_, if_pos rfl, hv⟩
    · exact ⟨o, by rw [if_neg hz]; exact ho, hv⟩
  | assign y z =>
    simp only [step] at hstep
    obtain ⟨q0, -, hstep⟩ := bind_eq_ok hstep
    obtain ⟨q, hq, h⟩ := bind_eq_ok hstep
    cases h
    exact ⟨o, by unfold Pool.set; rw [if_neg (fun e => hop e.symm)]; exact ho, hv⟩
  | moveAssign y z =>
    simp only [step] at hstep
    obtain ⟨o0, ho0, hstep⟩ := bind_eq_ok hstep
    obtain ⟨q, hq, h⟩ := bind_eq_ok hstep
    cases h
    unfold Pool.set
    by_cases hz : x = z
    · subst hz
      rw [hget] at hq; cases hq
      exact ⟨_, if_pos rfl, hv⟩
    · rw [if_neg hz]
      by_cases hy : x = y
      · subst hy
        rw [hget] at ho0; cases ho0
        exact ⟨_, if_pos rfl, hv⟩
      · exact ⟨o, by rw [if_neg hy]; exact ho, hv⟩
  | swap y z =>
    simp only [step] at hstep
    obtain ⟨o0, ho0, hstep⟩ := bind_eq_ok hstep
    obtain ⟨q, hq, h⟩ := bind_eq_ok hstep
    cases h
    unfold Pool.set
    by_cases hz : x = z
    · subst hz
      rw [hget] at hq; cases hq
      exact ⟨_, if_pos rfl, hv⟩
    · rw [if_neg hz]
      by_cases hy : x = y
      · subst hy
        rw [hget] at ho0; cases ho0
        exact ⟨_, if_pos rfl, hv⟩
      · exact ⟨o, by rw [if_neg hy]; exact ho, hv⟩
  | edit y f =>
    simp only [step] at hstep
    obtain ⟨q, hq, h⟩ := bind_eq_ok hstep
    cases h
    unfold Pool.set
    by_cases hy : x = y
    · subst hy
      rw [hget] at hq; cases hq
      exact ⟨_, if_pos rfl, hv⟩
    · exact ⟨o, by rw [if_neg hy]; exact ho, hv⟩
  | reset y =>
    simp only [step] at hstep
    obtain ⟨q, hq, h⟩ := bind_eq_ok hstep
    cases h
    unfold Pool.set
    by_cases hy : x = y
    · subst hy
      rw [hget] at hq; cases hq
      exact ⟨_, if_pos rfl, hv⟩
    · exact ⟨o, by rw [if_neg hy]; exact ho, hv⟩
  | norm y =>
    simp only [step] at hstep
    obtain ⟨q, hq, hstep⟩ := bind_eq_ok hstep
    obtain ⟨⟨q', w⟩, hw, h⟩ := bind_eq_ok hstep
    cases h
    unfold Pool.set
    by_cases hy : x = y
    · subst hy
      rw [hget] at hq; cases hq
      refine ⟨q', if_pos rfl, ?_⟩
      obtain ⟨-, -, h3, h4⟩ := getNorm_ok hw
      rw [h3]
      rcases h4 with h4 | h4
      · rw [← h4, hv]
      · rw [hv] at h4; cases h4.1
    · exact ⟨o, by rw [if_neg hy]; exact ho, hv⟩
  | count y k =>
    simp only [step] at hstep
    obtain ⟨q, hq, hstep⟩ := bind_eq_ok hstep
    obtain ⟨⟨q', w⟩, hw, h⟩ := bind_eq_ok hstep
    cases h
    unfold Pool.set
    by_cases hy : x = y
    · subst hy
      rw [hget] at hq; cases hq
      exact ⟨q', if_pos rfl, by rw [(getCount_ok hw).2.1]; exact hv⟩
    · exact ⟨o, by rw [if_neg hy]; exact ho, hv⟩

/-- C33 for a dense matrix, in terms of its elements: after any history that did not change the object since its
occupation was last asked for, `getOccupation` returns the number of elements the checker accepts, divided by the
number of elements.  (Missing: changed since, see `C33_count_is_sticky` and `C33_stale_answer`.) -/
theorem C33_dense_occupation_partial [Field R] [LinearOrder R] [IsStrictOrderedRing R] (nrm : Dense R → Res V)
    (ops : List (Op (Dense R) R)) (p : Pool (Dense R) R V) (hrun : run (denseOps nrm) ops (fun _ => none) = .ok p)
    (x : Nat) (o : Obj (Dense R) R V) (hx : p x = some o) (hs : trackAll .occ noneAsked ops x ≠ .stale) (k : Checker R)
    (r c : Nat) (f : Nat → Nat → R) (hA : o.mat.Is r c f) (hne : r * c ≠ 0) :
    ∃ o', ∃ n : Nat, o.getOccupation (denseOps nrm) k = .ok (o', some ((n : R) / ((r * c : Nat) : R))) ∧
      n = ∑ i ∈ Finset.range r, ∑ j ∈ Finset.range c, if k.accepts (f i j) = true then 1 else 0 := by
  have hc := C32_dense_count k o.mat r c f hA
  generalize (∑ i ∈ Finset.range r, ∑ j ∈ Finset.range c, if k.accepts (f i j) = true then 1 else 0) = N at hc ⊢
  obtain ⟨p', hp⟩ := (C33_fresh_partial (denseOps nrm) ops p hrun x o hx hs k).2 _ hc
  have hget : p.get x = .ok o := by unfold Pool.get; rw [hx]
  simp only [step, hget, bind_ok'] at hp
  obtain ⟨⟨o', n⟩, hn, hp⟩ := bind_eq_ok hp
  cases hp
  have hmat := (getCount_ok hn).1
  refine ⟨o', _, ?_, rfl⟩
  simp only [Obj.getOccupation, hn, bind_ok', occupationOf, hmat]
  rw [if_neg (by show ¬ o.mat.dim.fullSize = 0; rw [hA.size]; exact hne)]
  show Except.ok (o', some (_ / ((o.mat.dim.fullSize : Nat) : R))) = _
  rw [hA.size]

/-- C34 for a dense matrix, in terms of its elements: after any history that did not change the object since its
norm was last asked for, `getNorm` returns the norm of the present elements.  (Missing: changed since, see
`C34_norm_is_sticky` and `C34_stale_answers`.) -/
theorem C34_dense_norm_partial (k : NormKind) (ops : List (Op (Dense ℝ) ℝ)) (p : Pool (Dense ℝ) ℝ ℝ)
    (hrun : run (denseOps (fun A => (SMat.dense A).norm k)) ops (fun _ => none) = .ok p)
    (x : Nat) (o : Obj (Dense ℝ) ℝ ℝ) (hx : p x = some o) (hs : trackAll .norm noneAsked ops x ≠ .stale)
    (r c : Nat) (f : Nat → Nat → ℝ) (hA : o.mat.Is r c f) :
    ∃ p' v, step (denseOps (fun A => (SMat.dense A).norm k)) p (.norm x) = .ok (p', .norm v) ∧ IsNorm k r c f v := by
  obtain ⟨v, hv, hi⟩ := C35_dense k o.mat r c f hA
  obtain ⟨p', hp⟩ := (C34_fresh_partial _ ops p hrun x o hx hs).2 v hv
  exact ⟨p', v, hp, hi⟩

/-- C34, negative: once the norm of an object has been asked for, every later answer is the same value,
whatever was written to, moved into or swapped with the object, until another object is constructed or
copy-assigned in its place.  There is no operation that makes the object recompute its norm. -/
theorem C34_norm_is_sticky [LinearOrder R] (K : Ops M R V) (p p1 p2 p3 : Pool M R V) (x : Nat) (v : V) (ops : List (Op M R)) (a : Ans V)
    (h1 : step K p (.norm x) = .ok (p1, .norm v)) (h2 : run K ops p1 = .ok p2) (hops : ∀ op ∈ ops, ¬ replaces x op)
    (h3 : step K p2 (.norm x) = .ok (p3, a)) : a = .norm v := by
  have start : ∃ o, p1 x = some o ∧ o.norm = some v := by
    simp only [step] at h1
    obtain ⟨q, hq, h1⟩ := bind_eq_ok h1
    obtain ⟨⟨q', w⟩, hw, h⟩ := bind_eq_ok h1
    cases h
    exact ⟨q', if_pos rfl, (getNorm_ok hw).2.2.1⟩
  have mid : ∃ o, p2 x = some o ∧ o.norm = some v := by
    clear h1 h3
    induction ops generalizing p1 with
    | nil => cases h2; exact start
    | cons op ops ih =>
      simp only [run] at h2
      obtain ⟨⟨q, b⟩, hs, h2⟩ := bind_eq_ok h2
      exact ih q h2 (fun op h => hops op (by simp [h])) (norm_sticky_step hs (hops op (by simp)) start)
  obtain ⟨o, ho, hv⟩ := mid
  have hget : p2.get x = .ok o := by unfold Pool.get; rw [ho]
  simp only [step, hget, bind_ok', Obj.getNorm, hv] at h3
  cases h3
  rfl

theorem stale_after_edit [LinearOrder R] (K : Ops M R V) (A B : M) (a : V) (hA : K.nrm A = .ok a) :
    ∃ p p', run K [.make 0 A, .norm 0, .edit 0 (fun _ => B)] (fun _ => none) = .ok p ∧
      step K p (.norm 0) = .ok (p', .norm a) ∧ (p 0).map Obj.mat = some B := by
  refine ⟨fun z => if z = 0 then some ⟨B, some a, []⟩ else none, fun z => if z = 0 then some ⟨B, some a, []⟩ else none, ?_, ?_, rfl⟩
  · simp only [run, step, Pool.get, Pool.set, Obj.fresh, Obj.getNorm, hA, bind_ok', pure_ok', if_true]
    congr 1; funext z; unfold Pool.set; by_cases h : z = 0 <;> simp [h]
  · simp only [step, Pool.get, Pool.set, Obj.getNorm, bind_ok', pure_ok', if_true]
    congr 2; funext z; unfold Pool.set; by_cases h : z = 0 <;> simp [h]

theorem stale_after_moveAssign [LinearOrder R] (K : Ops M R V) (A B : M) (a : V) (hA : K.nrm A = .ok a) :
    ∃ p p', run K [.make 0 A, .make 1 B, .norm 0, .moveAssign 0 1] (fun _ => none) = .ok p ∧
      step K p (.norm 0) = .ok (p', .norm a) ∧ (p 0).map Obj.mat = some B := by
  refine ⟨fun z => if z = 1 then some ⟨K.taken B, none, []⟩ else if z = 0 then some ⟨B, some a, []⟩ else none,
    fun z => if z = 1 then some ⟨K.taken B, none, []⟩ else if z = 0 then some ⟨B, some a, []⟩ else none, ?_, ?_, rfl⟩
  · simp only [run, step, Pool.get, Pool.set, Obj.fresh, Obj.getNorm, hA, bind_ok', pure_ok', if_true,
      show (0 : Nat) ≠ 1 from by decide, show (1 : Nat) ≠ 0 from by decide, if_false]
    congr 1; funext z
    unfold Pool.set
    by_cases h1 : z = 1
    · simp [h1]
    · by_cases h0 : z = 0
      · simp [h0]
      · simp [h1, h0]
  · simp only [step, Pool.get, Pool.set, Obj.getNorm, bind_ok', pure_ok', if_true,
      show (0 : Nat) ≠ 1 from by decide, if_false]
    congr 2; funext z
    unfold Pool.set
    by_cases h0 : z = 0
    · simp [h0]
    · simp [h0]

/-- C34, negative, concretely: after its norm was asked for, a matrix keeps answering the old norm – here 3 –
although it was overwritten, or another matrix was moved into it, and its norm is now 4. -/
theorem C34_stale_answers (k : NormKind) :
    let K := denseOps (fun A : Dense ℝ => (SMat.dense A).norm k)
    let A : Dense ℝ := Dense.ofFn .col 1 1 (fun _ _ => 3)
    let B : Dense ℝ := Dense.ofFn .col 1 1 (fun _ _ => 4)
    K.nrm A = .ok 3 ∧ K.nrm B = .ok 4 ∧
    (∃ p p', run K [.make 0 A, .norm 0, .edit 0 (fun _ => B)] (fun _ => none) = .ok p ∧
      step K p (.norm 0) = .ok (p', .norm 3) ∧ (p 0).map Obj.mat = some B) ∧
    (∃ p p', run K [.make 0 A, .make 1 B, .norm 0, .moveAssign 0 1] (fun _ => none) = .ok p ∧
      step K p (.norm 0) = .ok (p', .norm 3) ∧ (p 0).map Obj.mat = some B) := by
  intro K A B
  have hn : ∀ y : ℝ, 0 ≤ y → IsNorm k 1 1 (fun _ _ => y) y := by
    intro y hy
    cases k with
    | one => simp [IsNorm, abs_of_nonneg hy]
    | two => simp [IsNorm, hy]
    | max => exact ⟨fun _ _ _ _ => by rw [abs_of_nonneg hy], .inr ⟨0, 0, by omega, by omega, abs_of_nonneg hy⟩⟩
  have hA : K.nrm A = .ok 3 := by
    obtain ⟨x, hx, hx'⟩ := C35_dense k A 1 1 _ (Dense.ofFn_is .col 1 1 _)
    have := (C35_laws k 1 1 _ x hx').2.2.2 3 (hn 3 (by norm_num))
    rw [← this] at hx; exact hx
  have hB : K.nrm B = .ok 4 := by
    obtain ⟨x, hx, hx'⟩ := C35_dense k B 1 1 _ (Dense.ofFn_is .col 1 1 _)
    have := (C35_laws k 1 1 _ x hx').2.2.2 4 (hn 4 (by norm_num))
    rw [← this] at hx; exact hx
  exact ⟨hA, hB, stale_after_edit K A B 3 hA, stale_after_moveAssign K A B 3 hA⟩

/-- C33, negative: the count for a checker that has been asked for stays the same under every change of the
matrix. -/
theorem C33_count_is_sticky [LinearOrder R] (K : Ops M R V) (o o' : Obj M R V) (k : Checker R) (n : Nat) (f : M → M)
    (h : o.getCount K k = .ok (o', n)) : ({ o' with mat := f o'.mat } : Obj M R V).getCount K k = .ok ({ o' with mat := f o'.mat }, n) := by
  obtain ⟨-, -, h4⟩ := getCount_ok h
  have hl : lookup o'.occ k = some n := by
    rcases h4 with ⟨h4, h5⟩ | ⟨h4, -, -⟩
    · rw [h4]; exact h5
    · rw [h4, lookup_cons, if_pos rfl]
  simp only [Obj.getCount, hl]

/-- A 1×1 zero matrix whose elements above 0 were counted before it was set to 5. -/
def exStale : Res (Pool (Dense ℚ) ℚ Unit × Ans Unit) := do
  let K := denseOps (fun _ : Dense ℚ => .ok ())
  let p ← run K [.make 0 (Dense.ofFn .col 1 1 (fun _ _ => 0)), .count 0 (.above 0), .edit 0 (fun A => { A with data := [some 5] })] (fun _ => none)
  step K p (.count 0 (.above 0))

/-- The fresh count is 1, the answer is 0. -/
theorem C33_stale_answer : (do let (_, a) ← exStale; return match a with | .count n => some n | _ => none) = Except.ok (some 0) ∧
    Dense.countSig (.above (0 : ℚ)) ⟨.col, Dim.mk' 1 1, [some 5]⟩ = .ok 1 := by
  constructor <;> decide +kernel

/-- C33, consequence: the conversion of that matrix to a sparse one writes outside its arrays. -/
theorem C33_stale_count_overflows :
    (do
      let K := denseOps (fun _ : Dense ℚ => .ok ())
      let p ← run K [.make 0 (Dense.ofFn .col 1 1 (fun _ _ => 0)), .count 0 (.above 0),
        .edit 0 (fun A => { A with data := [some 5] })] (fun _ => none)
      let o ← p.get 0
      return (o.toSparse K (.above 0) .col) matches .error .ub) = Except.ok true := by decide +kernel

/-- Non-vacuity of the positive results: a history that modifies, resets and moves, after which both theorems
apply to object 2. -/
example : trackAll .occ noneAsked ([.make 0 (), .count 0 (.above 0), .edit 0 id, .reset 0, .copy 2 0] : List (Op Unit ℚ)) 2 = .clean ∧
    trackAll .norm noneAsked ([.make 0 (), .edit 0 id, .norm 0, .copy 2 0] : List (Op Unit ℚ)) 2 = .asked ∧
    trackAll .norm noneAsked ([.make 0 (), .norm 0, .edit 0 id, .reset 0] : List (Op Unit ℚ)) 0 = .stale := by
  refine ⟨rfl, rfl, rfl⟩

end BB.Cache
