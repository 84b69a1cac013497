import Verif.Model.Python
import Verif.Lemmas.Base

/-! C137: the Python module. -/

namespace BB.Python

variable {R : Type}

/-! Specification: which names are bound, and what a program with defined behaviour shows. -/

/-- The names that are bound after a statement. -/
def bound (B : Nat → Bool) : Stmt → Nat → Bool
  | .make x b => if b then Function.update B x true else B
  | .bind x y => if B y then Function.update B x true else B
  | .del x => if B x then Function.update B x false else B
  | .add x y z => if B y && B z then Function.update B x true else B
  | .mul _ _ _ => B
  | .str _ => B

/-- The statement adds two matrices. -/
def Adds (B : Nat → Bool) : Stmt → Prop
  | .add _ y z => B y = true ∧ B z = true
  | _ => False

/-- Somewhere the program adds two matrices. -/
def AddsIn (B : Nat → Bool) : List Stmt → Prop
  | [] => False
  | c :: cs => Adds B c ∨ AddsIn (bound B c) cs

/-- What a statement that does not add two matrices shows. -/
def shown (B : Nat → Bool) : Stmt → Ans
  | .make _ b => if b then .done else .raised "TypeError"
  | .bind _ y => if B y then .done else .raised "NameError"
  | .del x => if B x then .done else .raised "NameError"
  | .add _ _ _ => .raised "NameError"
  | .mul _ y z => .raised (if B y && B z then "TypeError" else "NameError")
  | .str x => if B x then .text "DynamicMatrix" else .raised "NameError"

def shownAll (B : Nat → Bool) : List Stmt → List Ans
  | [] => []
  | c :: cs => shown B c :: shownAll (bound B c) cs

/-- No object holds a matrix, and there is none in memory. -/
structure Empty (s : State R) : Prop where
  heap : s.dyn.heap = []
  vars : ∀ o, s.dyn.vars o = none

def State.bound (s : State R) : Nat → Bool := fun x => (s.names x).isSome

variable [Zero R] [Add R] [Mul R] [Sub R] [Neg R] [DecidableEq R]

theorem step_empty (s : State R) (h : Empty s) (c : Stmt) :
    (Adds s.bound c → step s c = .error .ub) ∧
    (¬ Adds s.bound c → ∃ s', step s c = .ok (s', shown s.bound c) ∧ Empty s' ∧ s'.bound = Python.bound s.bound c) := by
  have upd : ∀ (x : Nat) (v : Option Nat), (fun y => (Function.update s.names x v y).isSome) = Function.update s.bound x v.isSome := by
    intro x v
    funext y
    unfold State.bound Function.update
    by_cases e : y = x <;> simp [e]
  cases c with
  | make x b =>
    refine ⟨fun h => h.elim, fun _ => ?_⟩
    cases b with
    | false => exact ⟨s, rfl, h, rfl⟩
    | true =>
      refine ⟨_, rfl, ⟨h.heap, fun o => ?_⟩, ?_⟩
      · show Function.update s.dyn.vars s.next none o = none
        by_cases e : o = s.next
        · subst e; simp
        · simp [Function.update_of_ne e, h.vars]
      · exact upd x (some s.next)
  | bind x y =>
    refine ⟨fun h => h.elim, fun _ => ?_⟩
    cases hy : s.names y with
    | none => exact ⟨s, by simp [step, hy, shown, State.bound], h, by simp [Python.bound, State.bound, hy]⟩
    | some o =>
      refine ⟨{ s with names := Function.update s.names x (some o) }, by simp [step, hy, shown, State.bound], ⟨h.heap, h.vars⟩, ?_⟩
      have : s.bound y = true := by simp [State.bound, hy]
      simp only [Python.bound, this, if_true]
      exact upd x (some o)
  | del x =>
    refine ⟨fun h => h.elim, fun _ => ?_⟩
    cases hy : s.names x with
    | none => exact ⟨s, by simp [step, hy, shown, State.bound], h, by simp [Python.bound, State.bound, hy]⟩
    | some o =>
      refine ⟨{ s with names := Function.update s.names x none }, by simp [step, hy, shown, State.bound], ⟨h.heap, h.vars⟩, ?_⟩
      have : s.bound x = true := by simp [State.bound, hy]
      simp only [Python.bound, this, if_true]
      exact upd x none
  | add x y z =>
    cases hy : s.names y with
    | none =>
      have hb : s.bound y = false := by simp [State.bound, hy]
      exact ⟨fun ha => (by simp [Adds, hb] at ha), fun _ => ⟨s, by simp [step, hy, shown], h, by simp [Python.bound, hb]⟩⟩
    | some a =>
      cases hz : s.names z with
      | none =>
        have hb : s.bound z = false := by simp [State.bound, hz]
        exact ⟨fun ha => (by simp [Adds, hb] at ha), fun _ => ⟨s, by simp [step, hy, hz, shown], h, by simp [Python.bound, hb]⟩⟩
      | some b =>
        refine ⟨fun _ => ?_, fun hn => absurd ⟨by simp [State.bound, hy], by simp [State.bound, hz]⟩ hn⟩
        simp only [step, hy, hz, Dyn.step, Dyn.State.deref, h.vars]
        rfl
  | mul x y z =>
    refine ⟨fun h => h.elim, fun _ => ⟨s, ?_, h, rfl⟩⟩
    cases hy : s.names y with
    | none => simp [step, hy, shown, State.bound]
    | some a =>
      cases hz : s.names z with
      | none => simp [step, hy, hz, shown, State.bound]
      | some b => simp [step, hy, hz, shown, State.bound, Dyn.step]
  | str x =>
    refine ⟨fun h => h.elim, fun _ => ⟨s, ?_, h, rfl⟩⟩
    cases hy : s.names x <;> simp [step, hy, shown, State.bound]

theorem exec_empty (s : State R) (h : Empty s) (cs : List Stmt) :
    (AddsIn s.bound cs → exec s cs = .error .ub) ∧
    (¬ AddsIn s.bound cs → ∃ s', exec s cs = .ok (s', shownAll s.bound cs) ∧ Empty s') := by
  induction cs generalizing s with
  | nil => exact ⟨fun h => h.elim, fun _ => ⟨s, rfl, h⟩⟩
  | cons c cs ih =>
    obtain ⟨h1, h2⟩ := step_empty s h c
    by_cases ha : Adds s.bound c
    · refine ⟨fun _ => ?_, fun hn => absurd (.inl ha) hn⟩
      rw [exec, h1 ha, bind_error']
    · obtain ⟨s1, e, he, hb⟩ := h2 ha
      obtain ⟨i1, i2⟩ := ih s1 he
      rw [hb] at i1 i2
      refine ⟨fun hh => ?_, fun hn => ?_⟩
      · rw [exec, e, bind_ok']
        simp only [i1 (hh.resolve_left ha), bind_error']
      · obtain ⟨s2, e2, he2⟩ := i2 (fun hh => hn (.inr hh))
        refine ⟨s2, ?_, he2⟩
        rw [exec, e, bind_ok']
        simp only [e2, bind_ok', pure_ok', shownAll, hb]

/-- C137 (negation): whatever a Python program does, none of its `Matrix` objects ever holds a matrix: not those made from arrays, and sums are never
made. -/
theorem C137_matrices_hold_nothing (cs : List Stmt) {s : State R} {l : List Ans} (h : exec .init cs = .ok (s, l)) :
    s.dyn.heap = [] ∧ ∀ o, s.dyn.vars o = none := by
  obtain ⟨h1, h2⟩ := exec_empty (R := R) .init ⟨rfl, fun _ => rfl⟩ cs
  by_cases ha : AddsIn (State.bound (.init : State R)) cs
  · rw [h1 ha] at h; cases h
  · obtain ⟨s', e, he⟩ := h2 ha
    rw [e] at h
    simp only [Except.ok.injEq, Prod.mk.injEq] at h
    rw [← h.1]
    exact ⟨he.heap, he.vars⟩

/-- C137: a Python program has defined behaviour exactly if it never adds two matrices; what it shows then is determined: `str` of a matrix is always
"DynamicMatrix", products raise `TypeError`.  (Missing: that matrices hold the arrays they are made from, and sums and products, where the claim is false,
`C137_matrices_hold_nothing`.) -/
theorem C137_programs_partial (cs : List Stmt) :
    (AddsIn (fun _ => false) cs → exec (.init : State R) cs = .error .ub) ∧
    (¬ AddsIn (fun _ => false) cs → ∃ s, exec (.init : State R) cs = .ok (s, shownAll (fun _ => false) cs)) := by
  obtain ⟨h1, h2⟩ := exec_empty (R := R) .init ⟨rfl, fun _ => rfl⟩ cs
  have hb : State.bound (.init : State R) = fun _ => false := rfl
  rw [hb] at h1 h2
  exact ⟨h1, fun hn => let ⟨s, e, _⟩ := h2 hn; ⟨s, e⟩⟩

/-- C137 (negation): `Matrix(a) + Matrix(a)` is undefined behaviour, `Matrix(a) * Matrix(a)` raises `TypeError`, and `str` of a matrix made from an array shows nothing of
it. -/
theorem C137_first_use_counterexample :
    exec (.init : State Int) [.make 0 true, .add 1 0 0] = .error .ub ∧
    (exec (.init : State Int) [.make 0 true, .mul 1 0 0, .str 0, .bind 2 0, .del 0, .str 0, .str 2, .make 3 false]).toOption.map (·.2) =
      some [.done, .raised "TypeError", .text "DynamicMatrix", .done, .done, .raised "NameError", .text "DynamicMatrix", .raised "TypeError"] := by
  constructor
  · rfl
  · decide +kernel

end BB.Python
