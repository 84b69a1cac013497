import Verif.Lemmas.StorageLost
import Verif.Props.Storage

/-!
# C60, exactly: what leaks

`C60_no_leak_partial` excludes two operations.  Here every history is covered: each use of one of them loses exactly
one block, for good, and nothing else is ever lost.
-/

namespace BB

open Own

variable {R : Type}

/-- Worlds that correct use can reach, with the number of operations so far that were a copy construction from an
object that does not own its memory (a proxy, or moved from) or a `load` into an object that owns memory. -/
inductive Own.ReachLosing : World R → Nat → Prop where
  | init : ReachLosing World.init 0
  | frugal {w w' : World R} {op : Op R} {k : Nat} : ReachLosing w k → Adm w op → Frugal w op → Own.step w op = .ok w' → ReachLosing w' k
  | losing {w w' : World R} {op : Op R} {k : Nat} : ReachLosing w k → Adm w op → ¬ Frugal w op → Own.step w op = .ok w' → ReachLosing w' (k + 1)

theorem Own.ReachLosing.reach {w : World R} {k : Nat} (h : ReachLosing w k) : Reach w := by
  induction h with
  | init => exact .init
  | frugal _ ha _ e ih => exact ih.step ha e
  | losing _ ha _ e ih => exact ih.step ha e

theorem Own.Reach.losing {w : World R} (h : Reach w) : ∃ k, ReachLosing w k := by
  induction h with
  | init => exact ⟨0, .init⟩
  | @step w w' op _ ha e ih =>
    obtain ⟨k, hk⟩ := ih
    by_cases hf : Frugal w op
    · exact ⟨k, hk.frugal ha hf e⟩
    · exact ⟨k + 1, hk.losing ha hf e⟩

theorem Own.lostBy_frugal {w : World R} {op : Op R} (hf : Frugal w op) (b : Nat) : ¬ LostBy w op b := by
  intro h
  cases op with
  | copy x y =>
    obtain ⟨-, o, eo, ho⟩ := h
    have := hf o eo
    rw [ho] at this; cases this
  | load x vs =>
    obtain ⟨o, eo, ho, hd⟩ := h
    rcases hf o eo with h' | h'
    · rw [ho] at h'; cases h'
    · rw [hd] at h'; cases h'
  | _ => exact h

theorem Own.lostBy_losing {w : World R} (hw : Inv w) {op : Op R} (hf : ¬ Frugal w op) :
    ∃ c, (∀ b, LostBy w op b ↔ b = c) ∧ ¬ w.Unowned c := by
  cases op with
  | copy x y =>
    simp only [Frugal, not_forall] at hf
    obtain ⟨o, eo, ho⟩ := hf
    refine ⟨w.next, fun b => ⟨fun h => h.1, fun h => ⟨h, o, eo, by simpa using ho⟩⟩, fun h => hw.weak.next h.1⟩
  | load x vs =>
    simp only [Frugal, not_forall, not_or] at hf
    obtain ⟨o, eo, ho, hd⟩ := hf
    have ho' : o.own = true := by simpa using ho
    obtain ⟨c, hc⟩ := Option.ne_none_iff_exists'.1 hd
    refine ⟨c, fun b => ⟨?_, fun h => ⟨o, eo, ho', by rw [hc, h]⟩⟩, fun h => h.2 x ⟨o, eo, ho', hc⟩⟩
    rintro ⟨p, ep, -, hp⟩
    rw [eo] at ep; cases ep; rw [hc] at hp; exact (Option.some.inj hp).symm
  | _ => exact absurd trivial hf

theorem Own.ReachLosing.count {w : World R} {k : Nat} (h : ReachLosing w k) :
    ∃ L : List Nat, L.Nodup ∧ L.length = k ∧ ∀ b, b ∈ L ↔ w.Unowned b := by
  induction h with
  | init => exact ⟨[], List.nodup_nil, rfl, fun b => ⟨fun h => by simp at h, fun h => by obtain ⟨⟨blk, e, -⟩, -⟩ := h; simp [World.init] at e⟩⟩
  | frugal hr ha hf e ih =>
    obtain ⟨L, hn, hl, hb⟩ := ih
    refine ⟨L, hn, hl, fun b => ?_⟩
    rw [step_unowned hr.reach.inv e b, hb b]
    simp [lostBy_frugal hf b]
  | losing hr ha hf e ih =>
    obtain ⟨L, hn, hl, hb⟩ := ih
    obtain ⟨c, hc, hun⟩ := lostBy_losing hr.reach.inv hf
    refine ⟨c :: L, List.nodup_cons.2 ⟨fun h => hun ((hb c).1 h), hn⟩, by simp [hl], fun b => ?_⟩
    rw [step_unowned hr.reach.inv e b, ← hb b, hc b, List.mem_cons, or_comm]

/-- C60, exactly: after any history of correct use, once all storages are destroyed, the number of blocks of the
library that are left is the number of copy constructions from objects that do not own their memory plus the number
of loads into objects that own memory. -/
theorem C60_leaks_exact (w : World R) (k : Nat) (hw : ReachLosing w k) (hdead : ∀ x, w.obj x = none) :
    ∃ L : List Nat, L.Nodup ∧ L.length = k ∧ ∀ b, b ∈ L ↔ ∃ blk, w.heap b = some blk ∧ blk.user = false := by
  obtain ⟨L, hn, hl, hb⟩ := hw.count
  refine ⟨L, hn, hl, fun b => ?_⟩
  rw [hb b]
  exact ⟨fun h => h.1, fun h => ⟨h, fun x => notAt_of_none (hdead x)⟩⟩

/-- C60: so a history leaks nothing exactly if it contains none of these operations. -/
theorem C60_no_leak_iff (w : World R) (k : Nat) (hw : ReachLosing w k) (hdead : ∀ x, w.obj x = none) :
    (∀ b blk, w.heap b = some blk → blk.user = true) ↔ k = 0 := by
  obtain ⟨L, -, hl, hb⟩ := C60_leaks_exact w k hw hdead
  constructor
  · intro h
    rw [← hl, List.length_eq_zero_iff, List.eq_nil_iff_forall_not_mem]
    intro b hm
    obtain ⟨blk, e, hu⟩ := (hb b).1 hm
    rw [h b blk e] at hu; cases hu
  · intro hk b blk e
    cases hu : blk.user with
    | true => rfl
    | false =>
      have hm := (hb b).2 ⟨blk, e, hu⟩
      rw [List.length_eq_zero_iff.1 (hl.trans hk)] at hm
      cases hm

/-- Worlds that correct use can reach from `w`. -/
inductive Own.ReachFrom (w : World R) : World R → Prop where
  | refl : ReachFrom w w
  | step {w1 w2 : World R} {op : Op R} : ReachFrom w w1 → Adm w1 op → Own.step w1 op = .ok w2 → ReachFrom w w2

/-- C60, in the middle of a history: memory that nobody owns is never owned or freed again, whatever happens. -/
theorem C60_lost_for_good (w w' : World R) (hw : Reach w) (h : ReachFrom w w') (b : Nat) (hb : w.Unowned b) : w'.Unowned b := by
  have : Reach w' ∧ w'.Unowned b := by
    induction h with
    | refl => exact ⟨hw, hb⟩
    | step _ ha e ih => exact ⟨ih.1.step ha e, (step_unowned ih.1.inv e b).2 (Or.inl ih.2)⟩
  exact this.2

/-- C60, negative, for every object that does not own its memory: copying it allocates memory that no continuation
frees, not even after the destruction of all objects. -/
theorem C60_copy_of_non_owner_leaks (w : World R) (hw : Reach w) (x y : Nat) (o : Obj) (hx : w.obj x = none)
    (hy : w.obj y = some o) (ho : o.own = false) :
    ∃ w1, Own.step w (.copy x y) = .ok w1 ∧ ∀ w', ReachFrom w1 w' → ∃ blk, w'.heap w.next = some blk ∧ blk.user = false := by
  obtain ⟨w1, e, -⟩ := C07_copy_equal w hw x y o hx hy
  refine ⟨w1, e, fun w' h => ?_⟩
  refine (C60_lost_for_good w1 w' (hw.step (op := .copy x y) ⟨hx, by simp [hy]⟩ e) h w.next ?_).1
  exact (step_unowned hw.inv e _).2 (Or.inr ⟨rfl, o, hy, ho⟩)

/-- C60, negative, for every object that owns memory: loading an archive into it loses that memory. -/
theorem C60_load_into_owner_leaks (w : World R) (hw : Reach w) (x b : Nat) (vs : List R) (o : Obj) (hx : w.obj x = some o)
    (ho : o.own = true) (hd : o.data = some b) :
    ∃ w1, Own.step w (.load x vs) = .ok w1 ∧ ∀ w', ReachFrom w1 w' → ∃ blk, w'.heap b = some blk ∧ blk.user = false := by
  have e : Own.step w (.load x vs) = .ok ((w.alloc (vs.map some) false).setObj x ⟨some w.next, vs.length, true⟩) := by
    simp [Own.step, get_ok hx]
  refine ⟨_, e, fun w' h => ?_⟩
  refine (C60_lost_for_good _ w' (hw.step (op := .load x vs) (by simp [Adm, hx]) e) h b ?_).1
  exact (step_unowned hw.inv e _).2 (Or.inr ⟨o, hx, ho, hd⟩)

/-- C61, negative, for every owner: after a self-move its elements are gone. -/
theorem C61_self_move_empties (w : World R) (hw : Reach w) (x : Nat) (o : Obj) (hx : w.obj x = some o) :
    ∃ w', Own.step w (.moveAssign x x) = .ok w' ∧ w'.contents x = some [] ∧
      (o.own = true → ∀ b, o.data = some b → w'.heap b = none) := by
  cases ho : o.own with
  | false =>
    refine ⟨_, by simp [Own.step, get_ok hx, World.release, ho]; rfl, by simp [World.contents, World.setObj, World.cells]; rfl, fun h => by cases h⟩
  | true =>
    obtain ⟨w1, e, -, -, -, -, hf⟩ := free_ok hw.inv hx ho
    refine ⟨(w1.setObj x o).setObj x ⟨none, 0, false⟩, by simp [Own.step, get_ok hx, World.release, ho, e], by simp [World.contents, World.setObj, World.cells]; rfl, fun _ b hb => hf b hb⟩

/-- The hypotheses are met: a proxy, its copy, and the copy loaded into twice. -/
example : ∃ w : World Int, ReachLosing w 2 ∧ (∀ x, w.obj x = none) ∧ w.Unowned 1 ∧ w.Unowned 2 := by
  have h1 : ReachLosing (R := Int) _ 0 := ReachLosing.frugal (op := .userAlloc [some 5]) .init trivial trivial rfl
  have h2 := ReachLosing.frugal (op := .proxy 0 0 1) h1 ⟨rfl, _, rfl, rfl, Nat.le_refl _⟩ trivial rfl
  have h3 := ReachLosing.losing (op := .copy 1 0) h2 ⟨rfl, by simp [World.setObj, upd]⟩
    (by intro h; exact absurd (h _ rfl) (by decide)) rfl
  have h4 := ReachLosing.frugal (op := .load 1 [8]) h3 (by intro h; cases h) (by intro o h; cases h; exact Or.inl rfl) rfl
  have h5 := ReachLosing.losing (op := .load 1 [9]) h4 (by intro h; cases h)
    (by intro h; exact absurd (h _ rfl) (by decide)) rfl
  have h6 := ReachLosing.frugal (op := .dtor 1) h5 (by intro h; cases h) trivial rfl
  have h7 := ReachLosing.frugal (op := .dtor 0) h6 (by intro h; cases h) trivial rfl
  refine ⟨_, h7, ?_, ⟨⟨_, rfl, rfl⟩, ?_⟩, ⟨⟨_, rfl, rfl⟩, ?_⟩⟩
  · intro x
    match x with
    | 0 => rfl
    | 1 => rfl
    | n + 2 => rfl
  all_goals
    intro x
    refine notAt_of_none ?_
    match x with
    | 0 => rfl
    | 1 => rfl
    | n + 2 => rfl

end BB
