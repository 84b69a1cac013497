import Verif.Model.Tracker
import Verif.Lemmas.Base
import Mathlib.Data.List.Basic
import Mathlib.Data.List.Induction
import Mathlib.Algebra.BigOperators.Group.List.Basic

/-!
# C51 (call tracker) and C52 (enum parser)
-/

namespace BB

/-! ### C52 -/

namespace EnumParser

variable {T : Type} [DecidableEq T]

theorem toEnum_foldl (l : List (String × T)) (P : EnumParser T) (s : String) :
    (l.foldl (fun P x => P.map x.1 x.2) P).toEnum s =
      match l.reverse.find? (fun x => x.1 = s) with
      | some x => some x.2
      | none => P.toEnum s := by
  induction l generalizing P with
  | nil => rfl
  | cons x l ih =>
    simp only [List.foldl_cons, ih, List.reverse_cons, List.find?_append]
    cases h : l.reverse.find? (fun x => x.1 = s) with
    | some y => simp
    | none =>
      by_cases hx : x.1 = s
      · simp [hx, map]
      · simp [hx, map, Ne.symm hx]

theorem toName_foldl (l : List (String × T)) (P : EnumParser T) (e : T) :
    (l.foldl (fun P x => P.map x.1 x.2) P).toName e =
      match l.reverse.find? (fun x => x.2 = e) with
      | some x => some x.1
      | none => P.toName e := by
  induction l generalizing P with
  | nil => rfl
  | cons x l ih =>
    simp only [List.foldl_cons, ih, List.reverse_cons, List.find?_append]
    cases h : l.reverse.find? (fun x => x.2 = e) with
    | some y => simp
    | none =>
      by_cases hx : x.2 = e
      · simp [hx, map]
      · simp [hx, map, Ne.symm hx]

/-- C52: after any sequence of registrations, a name parses to the value of its **last** registration. -/
theorem C52_parse_is_last_registration (b : Build) (l : List (String × T)) (s : String) (e : T) :
    (register l).parse b s = .ok e ↔ ∃ l1 l2, l = l1 ++ (s, e) :: l2 ∧ ∀ x ∈ l2, x.1 ≠ s := by
  unfold parse register
  rw [toEnum_foldl]
  constructor
  · intro h
    cases hf : l.reverse.find? (fun x => x.1 = s) with
    | none => rw [hf] at h; cases b <;> simp [empty, notFound] at h
    | some x =>
      rw [hf] at h
      simp only [Except.ok.injEq] at h
      obtain ⟨hx, as, bs, hl, hn⟩ := List.find?_eq_some_iff_append.1 hf
      refine ⟨bs.reverse, as.reverse, ?_, fun y hy => by simpa using hn y (by simpa using hy)⟩
      have := congrArg List.reverse hl
      simp only [List.reverse_reverse, List.reverse_append, List.reverse_cons, List.append_assoc] at this
      rw [this]
      have hx' : x = (s, e) := by
        simp only [decide_eq_true_eq] at hx
        rw [← hx, ← h]
      rw [hx']; simp
  · rintro ⟨l1, l2, rfl, hn⟩
    have : (l1 ++ (s, e) :: l2).reverse.find? (fun x => x.1 = s) = some (s, e) := by
      refine List.find?_eq_some_iff_append.2 ⟨by simp, l2.reverse, l1.reverse, by simp, fun y hy => by simpa using hn y (by simpa using hy)⟩
    rw [this]

/-- C52: if the registered pairs are one-to-one (equal names exactly for equal values), then for every registered pair
name → value and value → name are inverse to each other, whatever the order of registration and in every build. -/
theorem C52_inverse (b : Build) (l : List (String × T)) (h : ∀ x ∈ l, ∀ y ∈ l, x.1 = y.1 ↔ x.2 = y.2) (s : String) (e : T) :
    ((s, e) ∈ l ↔ (register l).parse b s = .ok e) ∧ ((s, e) ∈ l ↔ (register l).name b e = .ok s) := by
  constructor
  · unfold parse register
    rw [toEnum_foldl]
    constructor
    · intro hm
      cases hf : l.reverse.find? (fun x => x.1 = s) with
      | none => exact absurd (by simp) (List.find?_eq_none.1 hf (s, e) (by simpa using hm))
      | some x =>
        have h1 := List.find?_some hf
        have h2 := List.mem_of_find?_eq_some hf
        simp only [decide_eq_true_eq, List.mem_reverse] at h1 h2
        simp only [(h x h2 (s, e) hm).1 h1]
    · intro hp
      cases hf : l.reverse.find? (fun x => x.1 = s) with
      | none => rw [hf] at hp; cases b <;> simp [empty, notFound] at hp
      | some x =>
        rw [hf] at hp
        have h1 := List.find?_some hf
        have h2 := List.mem_of_find?_eq_some hf
        simp only [decide_eq_true_eq, List.mem_reverse, Except.ok.injEq] at h1 h2 hp
        rw [← h1, ← hp]; exact h2
  · unfold name register
    rw [toName_foldl]
    constructor
    · intro hm
      cases hf : l.reverse.find? (fun x => x.2 = e) with
      | none => exact absurd (by simp) (List.find?_eq_none.1 hf (s, e) (by simpa using hm))
      | some x =>
        have h1 := List.find?_some hf
        have h2 := List.mem_of_find?_eq_some hf
        simp only [decide_eq_true_eq, List.mem_reverse] at h1 h2
        simp only [(h x h2 (s, e) hm).2 h1]
    · intro hp
      cases hf : l.reverse.find? (fun x => x.2 = e) with
      | none => rw [hf] at hp; cases b <;> simp [empty, notFound] at hp
      | some x =>
        rw [hf] at hp
        have h1 := List.find?_some hf
        have h2 := List.mem_of_find?_eq_some hf
        simp only [decide_eq_true_eq, List.mem_reverse, Except.ok.injEq] at h1 h2 hp
        rw [← h1, ← hp]; exact h2

/-- C52: unknown names and values are rejected by a failing assertion.  (Outside the claim: builds without assertions,
`C69_enum_parser_is_ub`.) -/
theorem C52_unknown_rejected (b : Build) (hb : b ≠ .release) (l : List (String × T)) (s : String) (e : T) :
    ((∀ x ∈ l, x.1 ≠ s) → (register l).parse b s = .error .assertFail) ∧
    ((∀ x ∈ l, x.2 ≠ e) → (register l).name b e = .error .assertFail) := by
  constructor
  · intro h
    unfold parse register
    rw [toEnum_foldl, List.find?_eq_none.2 (by simpa using fun a b hm => h (a, b) hm)]
    cases b <;> simp [empty, notFound] at hb ⊢
  · intro h
    unfold name register
    rw [toName_foldl, List.find?_eq_none.2 (by simpa using fun a b hm => h (a, b) hm)]
    cases b <;> simp [empty, notFound] at hb ⊢

/-- C69, negative: in a build without assertions an unknown name is undefined behaviour. -/
theorem C69_enum_parser_is_ub (l : List (String × T)) (s : String) (h : ∀ x ∈ l, x.1 ≠ s) :
    (register l).parse .release s = .error .ub := by
  unfold parse register
  rw [toEnum_foldl, List.find?_eq_none.2 (by simpa using fun a b hm => h (a, b) hm)]
  rfl

/-- C52, why one-to-one is needed: two names for one value parse both, but only the later one is printed. -/
theorem C52_alias (b : Build) (s t : String) (e : T) (h : s ≠ t) :
    (register [(s, e), (t, e)]).parse b s = .ok e ∧ (register [(s, e), (t, e)]).name b e = .ok t := by
  simp [register, parse, name, map, h]

end EnumParser

namespace Tracker

/-- The tracker's own enumeration is registered one-to-one … -/
theorem parser_oneToOne : ∀ x ∈ List.zip idNames (List.finRange nbIds), ∀ y ∈ List.zip idNames (List.finRange nbIds),
    x.1 = y.1 ↔ x.2 = y.2 := by decide +kernel

/-- … and completely: C52 for the enumeration of the library: parsing the printed name of any tracked operation gives
that operation back. -/
theorem C52_tracker_ids (b : Build) (id : Id) : ∃ s, parser.name b id = .ok s ∧ parser.parse b s = .ok id := by
  have hm : ∀ id : Id, (idNames.getD id.val "", id) ∈ List.zip idNames (List.finRange nbIds) := by decide +kernel
  have := EnumParser.C52_inverse b _ parser_oneToOne (idNames.getD id.val "") id
  exact ⟨_, this.2.1 (hm id), this.1.1 (hm id)⟩

/-! ### C51 -/

/-- A finished call of a tracked operation with its start and stop times; the tracked calls made by it are finished
calls themselves. -/
inductive Call where
  | mk (id : Id) (start stop : Int) (inner : List Call)

mutual
/-- The events of one finished call. -/
def Call.events : Call → List Event
  | .mk id start stop inner => .enter id start :: (eventsOf inner ++ [.leave stop])
/-- The events of consecutive finished calls. -/
def eventsOf : List Call → List Event
  | [] => []
  | c :: cs => c.events ++ eventsOf cs
end

mutual
/-- All calls, nested ones included, as (operation, duration). -/
def Call.all : Call → List (Id × Int)
  | .mk id start stop inner => (id, stop - start) :: allOf inner
def allOf : List Call → List (Id × Int)
  | [] => []
  | c :: cs => c.all ++ allOf cs
end

/-- A history of one thread: calls finished, then calls still running, each of which has finished calls inside it:
`done` before the first open call, then per open call its operation, its start and the finished calls in it. -/
structure History where
  done : List Call
  opened : List (Id × Int × List Call)

def History.events (h : History) : List Event :=
  eventsOf h.done ++ h.opened.flatMap (fun o => .enter o.1 o.2.1 :: eventsOf o.2.2)

/-- All finished calls of a history. -/
def History.finished (h : History) : List (Id × Int) :=
  allOf h.done ++ h.opened.flatMap (fun o => allOf o.2.2)

/-- Specification: number of finished calls of an operation and the sum of their durations. -/
def History.calls (h : History) (id : Id) : Nat := (h.finished.filter (·.1 = id)).length
def History.duration (h : History) (id : Id) : Int := ((h.finished.filter (·.1 = id)).map Prod.snd).sum

theorem run_append (s : State) (a b : List Event) : run s (a ++ b) = (run s a >>= fun s' => run s' b) := by
  induction a generalizing s with
  | nil => rfl
  | cons e a ih =>
    simp only [List.cons_append, run]
    cases step s e with
    | error e => rfl
    | ok s' => simp only [bind_ok']; exact ih s'

/-- The register after adding a list of finished calls, in any case. -/
def addAll (r : Reg) (l : List (Id × Int)) : Reg := l.foldl (fun r x => r.add x.1 x.2) r

theorem Reg.add_comm (r : Reg) (i j : Id) (a b : Int) : (r.add i a).add j b = (r.add j b).add i a := by
  unfold Reg.add
  by_cases h : i = j
  · subst h
    simp only [List.modify_modify_eq, Reg.mk.injEq]
    constructor
    · congr 1; funext x; simp only [Function.comp_apply]; omega
    · trivial
  · have h' : (i : Nat) ≠ (j : Nat) := fun e => h (Fin.ext e)
    simp only [Reg.mk.injEq]
    exact ⟨List.modify_modify_ne _ _ _ h', List.modify_modify_ne _ _ _ h'⟩

theorem addAll_add (r : Reg) (l : List (Id × Int)) (i : Id) (d : Int) : (addAll r l).add i d = addAll (r.add i d) l := by
  unfold addAll
  induction l generalizing r with
  | nil => rfl
  | cons x l ih => simp only [List.foldl_cons]; rw [ih, Reg.add_comm]

mutual
theorem run_call (c : Call) (st : List (Id × Int)) (r : Reg) : run ⟨st, r⟩ c.events = .ok ⟨st, addAll r c.all⟩ := by
  match c with
  | .mk id start stop inner =>
    simp only [Call.events, run, step, bind_ok', run_append, run_calls inner, Call.all]
    rw [addAll_add]; rfl
theorem run_calls (cs : List Call) (st : List (Id × Int)) (r : Reg) : run ⟨st, r⟩ (eventsOf cs) = .ok ⟨st, addAll r (allOf cs)⟩ := by
  match cs with
  | [] => rfl
  | c :: cs =>
    simp only [eventsOf, allOf, run_append, run_call c, run_calls cs, bind_ok', addAll, List.foldl_append]
end

theorem run_history (h : History) :
    run State.init h.events = .ok ⟨(h.opened.map fun o => (o.1, o.2.1)).reverse, addAll Reg.init h.finished⟩ := by
  unfold History.events History.finished State.init
  rw [run_append, run_calls, bind_ok']
  have key : ∀ (os : List (Id × Int × List Call)) (st : List (Id × Int)) (r : Reg),
      run ⟨st, r⟩ (os.flatMap fun o => .enter o.1 o.2.1 :: eventsOf o.2.2) =
        .ok ⟨(os.map fun o => (o.1, o.2.1)).reverse ++ st, addAll r (os.flatMap fun o => allOf o.2.2)⟩ := by
    intro os
    induction os with
    | nil => intro st r; rfl
    | cons o os ih =>
      intro st r
      simp only [List.flatMap_cons, List.cons_append, run, step, bind_ok', run_append, run_calls, ih]
      simp [addAll]
  rw [key]
  simp [addAll]

theorem addAll_spec (l : List (Id × Int)) (r : Reg) (hc : r.count.length = nbIds) (ht : r.time.length = nbIds) (id : Id)
    (n : Nat) (hn : r.count[id.val]? = some (n % sizeMod)) (t : Int) (hti : r.time[id.val]? = some t) :
    (addAll r l).count[id.val]? = some ((n + (l.filter (·.1 = id)).length) % sizeMod) ∧
    (addAll r l).time[id.val]? = some (t + ((l.filter (·.1 = id)).map Prod.snd).sum) := by
  induction l generalizing r n t with
  | nil => simpa [addAll] using ⟨hn, hti⟩
  | cons x l ih =>
    have hstep : addAll r (x :: l) = addAll (r.add x.1 x.2) l := rfl
    rw [hstep]
    by_cases hx : x.1 = id
    · have := ih (r.add x.1 x.2) (by simpa [Reg.add] using hc) (by simpa [Reg.add] using ht) (n + 1)
        (by simp [Reg.add, hx, List.getElem?_modify, hn]) (t + x.2) (by simp [Reg.add, hx, List.getElem?_modify, hti])
      simp only [hx, List.filter_cons, decide_true, if_true, List.length_cons, List.map_cons, List.sum_cons]
      refine ⟨by rw [hx] at this; rw [this.1]; congr 2; omega, by rw [hx] at this; rw [this.2]; congr 1; omega⟩
    · have hx' : (x.1 : Nat) ≠ id := fun e => hx (Fin.ext e)
      have := ih (r.add x.1 x.2) (by simpa [Reg.add] using hc) (by simpa [Reg.add] using ht) n
        (by simp [Reg.add, List.getElem?_modify, hx', hn]) t (by simp [Reg.add, List.getElem?_modify, hx', hti])
      simpa [List.filter_cons, hx] using this

/-- C51: after any history – any nesting, calls still running included – the tracker holds for every operation the number
of its finished calls (as a `size_t`) and the sum of their durations. -/
theorem C51_register (h : History) (id : Id) :
    ∃ s, run State.init h.events = .ok s ∧
      s.reg.count[id.val]? = some (h.calls id % 2 ^ 64) ∧ s.reg.time[id.val]? = some (h.duration id) := by
  refine ⟨_, run_history h, ?_⟩
  have := addAll_spec h.finished Reg.init (by simp [Reg.init]) (by simp [Reg.init]) id 0
    (by simp [Reg.init, id.2]) 0 (by simp [Reg.init, id.2])
  simpa [History.calls, History.duration, sizeMod] using this

/-- C51: every sequence of events that can occur is such a history: a sequence that never leaves more scopes than
were entered is the event sequence of some history. -/
theorem C51_histories_are_all (es : List Event) (s : State) (hr : run State.init es = .ok s) : ∃ h : History, es = h.events := by
  -- append one event to a history
  have snoc : ∀ (h : History) (e : Event) (s' : State), (∃ s0, run State.init h.events = .ok s0 ∧ step s0 e = .ok s') →
      ∃ h' : History, h.events ++ [e] = h'.events := by
    rintro ⟨done, opened⟩ e s' ⟨s0, h0, hs⟩
    rw [run_history] at h0
    cases h0
    cases e with
    | enter id now => exact ⟨⟨done, opened ++ [(id, now, [])]⟩, by simp [History.events, eventsOf]⟩
    | leave now =>
      rcases List.eq_nil_or_concat opened with rfl | ⟨os, o, rfl⟩
      · simp [step] at hs
      · obtain ⟨id, start, inner⟩ := o
        have happ : ∀ a b : List Call, eventsOf (a ++ b) = eventsOf a ++ eventsOf b := by
          intro a b
          induction a with
          | nil => rfl
          | cons c a ih => simp [eventsOf, ih]
        rcases List.eq_nil_or_concat os with rfl | ⟨os', o', rfl⟩
        · exact ⟨⟨done ++ [.mk id start now inner], []⟩, by simp [History.events, happ, eventsOf, Call.events]⟩
        · obtain ⟨id', start', inner'⟩ := o'
          exact ⟨⟨done, os' ++ [(id', start', inner' ++ [.mk id start now inner])]⟩, by
            simp [History.events, happ, eventsOf, Call.events]⟩
  induction es using List.reverseRec generalizing s with
  | nil => exact ⟨⟨[], []⟩, rfl⟩
  | append_singleton es e ih =>
    rw [run_append] at hr
    cases h1 : run State.init es with
    | error f => rw [h1] at hr; simp at hr
    | ok s0 =>
      obtain ⟨h, rfl⟩ := ih s0 h1
      rw [h1, bind_ok'] at hr
      refine snoc h e s ⟨s0, h1, ?_⟩
      simp only [run] at hr
      cases h2 : step s0 e with
      | error f => rw [h2] at hr; simp at hr
      | ok s1 => rw [h2, bind_ok'] at hr; exact hr

/-- C51: the printed report has exactly one row for every operation with a finished call, in the order of the
enumeration, with its registered name, number of calls and total duration (fewer than 2^64 calls). -/
theorem C51_report (b : Build) (h : History) (hn : ∀ id, h.calls id < 2 ^ 64) :
    ∃ s, run State.init h.events = .ok s ∧
      report b s.reg = .ok (((List.finRange nbIds).filter (fun id => 0 < h.calls id)).map
        (fun id => (idNames.getD id.val "", h.calls id, h.duration id))) := by
  refine ⟨_, run_history h, ?_⟩
  have hreg : ∀ id : Id, (addAll Reg.init h.finished).count.getD id.val 0 = h.calls id ∧
      (addAll Reg.init h.finished).time.getD id.val 0 = h.duration id := by
    intro id
    obtain ⟨s, hs, h1, h2⟩ := C51_register h id
    rw [run_history] at hs
    cases hs
    rw [Nat.mod_eq_of_lt (hn id)] at h1
    simp only at h1 h2
    simp only [List.getD_eq_getElem?_getD, h1, h2, Option.getD_some, and_self]
  have hname : ∀ id : Id, parser.name b id = .ok (idNames.getD id.val "") := by
    intro id
    have hm : (idNames.getD id.val "", id) ∈ List.zip idNames (List.finRange nbIds) := by
      have : ∀ id : Id, (idNames.getD id.val "", id) ∈ List.zip idNames (List.finRange nbIds) := by decide +kernel
      exact this id
    exact (EnumParser.C52_inverse b _ parser_oneToOne _ id).2.1 hm
  unfold report
  have key : ∀ (l : List Id) (acc : List (String × Nat × Int)), l.foldlM (fun acc (id : Id) =>
      if (addAll Reg.init h.finished).count.getD id 0 = 0 then (.ok acc : Res _)
      else do
        let n ← parser.name b id
        return acc ++ [(n, (addAll Reg.init h.finished).count.getD id 0, (addAll Reg.init h.finished).time.getD id 0)]) acc =
      .ok (acc ++ (l.filter (fun id => 0 < h.calls id)).map (fun id => (idNames.getD id.val "", h.calls id, h.duration id))) := by
    intro l
    induction l with
    | nil => intro acc; simp
    | cons id l ih =>
      intro acc
      rw [List.foldlM_cons, (hreg id).1, (hreg id).2, hname id]
      by_cases h0 : h.calls id = 0
      · rw [if_pos h0, bind_ok', ih]
        simp [h0]
      · rw [if_neg h0]
        simp only [bind_ok']
        refine (ih _).trans ?_
        simp [Nat.pos_of_ne_zero h0, List.filter_cons]
  have := key (List.finRange nbIds) []
  simpa using this

/-- Non-vacuity: a nested history; `get_block_size` (24) calls `get_detection_arrays` (23) twice, one gemm is still
running. -/
example :
    let h : History := ⟨[.mk ⟨24, by decide⟩ 0 100 [.mk ⟨23, by decide⟩ 10 20 [], .mk ⟨23, by decide⟩ 30 50 []]], [(⟨0, by decide⟩, 110, [.mk ⟨16, by decide⟩ 120 125 []])]⟩
    h.calls ⟨24, by decide⟩ = 1 ∧ h.duration ⟨24, by decide⟩ = 100 ∧ h.calls ⟨23, by decide⟩ = 2 ∧ h.duration ⟨23, by decide⟩ = 30 ∧ h.calls ⟨0, by decide⟩ = 0 ∧ h.calls ⟨16, by decide⟩ = 1 := by
  decide +kernel

end Tracker

end BB
