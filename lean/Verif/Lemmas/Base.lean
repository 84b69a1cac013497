import Verif.Model.Base
import Mathlib.Tactic.Ring
import Mathlib.Tactic.Linarith

/-! Auxiliary lemmas about buffers and loops. -/

namespace BB

theorem res_bind_ok {α β : Type} (a : α) (f : α → Res β) : (Except.ok a : Res α).bind f = f a := rfl
theorem res_bind_error {α β : Type} (e : Fault) (f : α → Res β) :
    (Except.error e : Res α).bind f = Except.error e := rfl

@[simp] theorem bind_ok' {α β : Type} (a : α) (f : α → Res β) : (Except.ok a : Res α) >>= f = f a := rfl
@[simp] theorem bind_error' {α β : Type} (e : Fault) (f : α → Res β) :
    (Except.error e : Res α) >>= f = Except.error e := rfl
@[simp] theorem pure_ok' {α : Type} (a : α) : (pure a : Res α) = Except.ok a := rfl

theorem Buf.read_ok {R : Type} {b : Buf R} {i : Nat} {v : R} : b.read i = .ok v ↔ b[i]? = some (some v) := by
  unfold Buf.read
  split
  · rename_i w h; simp [h]
  · rename_i h
    constructor
    · intro h'; cases h'
    · intro h'; exact absurd h' (h v)

theorem Buf.read_lt {R : Type} {b : Buf R} {i : Nat} {v : R} (h : b.read i = .ok v) : i < b.length := by
  rw [Buf.read_ok] at h
  exact (List.getElem?_eq_some_iff.mp h).1

theorem Buf.write_ok {R : Type} {b : Buf R} {i : Nat} {v : R} (h : i < b.length) :
    b.write i v = .ok (b.set i (some v)) := by simp [Buf.write, h]

theorem Buf.read_set {R : Type} {b : Buf R} {i j : Nat} {v : R} (h : i < b.length) :
    Buf.read (b.set i (some v)) j = if i = j then .ok v else b.read j := by
  unfold Buf.read
  rw [List.getElem?_set]
  by_cases hij : i = j
  · subst hij; simp [h]
  · simp [hij]

@[simp] theorem Buf.length_alloc {R : Type} (n : Nat) : (Buf.alloc n : Buf R).length = n := by
  simp [Buf.alloc]

theorem loopN_spec {σ : Type} {n : Nat} {f : Nat → σ → Res σ} {s : σ} (I : Nat → σ → Prop)
    (h0 : I 0 s) (hs : ∀ i s, i < n → I i s → ∃ s', f i s = .ok s' ∧ I (i+1) s') :
    ∃ s', loopN n f s = .ok s' ∧ I n s' := by
  induction n with
  | zero => exact ⟨s, rfl, h0⟩
  | succ n ih =>
    obtain ⟨s1, e1, i1⟩ := ih (fun i s hi => hs i s (by omega))
    obtain ⟨s2, e2, i2⟩ := hs n s1 (by omega) i1
    exact ⟨s2, by simp [loopN, e1, e2, Except.bind], i2⟩

theorem loopN_congr {σ : Type} {n : Nat} {f g : Nat → σ → Res σ} {s : σ}
    (h : ∀ i s, i < n → f i s = g i s) : loopN n f s = loopN n g s := by
  induction n with
  | zero => rfl
  | succ n ih =>
    simp only [loopN]
    rw [ih (fun i s hi => h i s (by omega))]
    cases loopN n g s with
    | error e => rfl
    | ok a => exact h n a (by omega)

theorem ptrLoopAux_eq {σ : Type} (f : Nat → σ → Res σ) (n fuel cur stop stride : Nat) (s : σ)
    (hs : n ≠ 0 → 0 < stride) (hstop : stop = cur + n * stride) (hf : n < fuel) :
    ptrLoopAux fuel cur stop stride f s = loopN n (fun i => f (cur + i * stride)) s := by
  -- peel from the front; first restate loopN as a front-recursive loop
  have front : ∀ (n : Nat) (g : Nat → σ → Res σ) (s : σ),
      loopN (n+1) g s = (g 0 s).bind (fun s => loopN n (fun i => g (i+1)) s) := by
    intro n
    induction n with
    | zero =>
      intro g s
      simp only [loopN, res_bind_ok]
      cases g 0 s <;> rfl
    | succ n ih =>
      intro g s
      rw [loopN, ih]
      cases g 0 s with
      | error e => rfl
      | ok a => rfl
  induction n generalizing fuel cur s with
  | zero =>
    cases fuel with
    | zero => omega
    | succ fuel => simp [ptrLoopAux, hstop, loopN]
  | succ n ih =>
    cases fuel with
    | zero => omega
    | succ fuel =>
      have hpos : 0 < stride := hs (by omega)
      have hne : cur ≠ stop := by
        have : 0 < (n+1) * stride := Nat.mul_pos (by omega) hpos
        omega
      rw [front]
      simp only [ptrLoopAux, hne, if_false]
      have hz : cur + 0 * stride = cur := by omega
      rw [hz]
      congr 1
      funext s'
      rw [ih fuel (cur + stride) s' (fun _ => hpos) (by rw [hstop]; ring) (by omega)]
      apply loopN_congr
      intro i s _
      congr 1
      ring

theorem ptrLoop_eq {σ : Type} (f : Nat → σ → Res σ) (n cur stop stride : Nat) (s : σ)
    (hs : n ≠ 0 → 0 < stride) (hstop : stop = cur + n * stride) :
    ptrLoop cur stop stride f s = loopN n (fun i => f (cur + i * stride)) s := by
  apply ptrLoopAux_eq f n _ _ _ _ _ hs hstop
  by_cases hn : n = 0
  · omega
  · have := hs hn
    have : n * 1 ≤ n * stride := Nat.mul_le_mul_left _ this
    omega

end BB

namespace BB

/-- The call returns normally and its result satisfies `P`. -/
def Sat {α : Type} (x : Res α) (P : α → Prop) : Prop := ∃ a, x = .ok a ∧ P a

theorem Sat.ok {α : Type} {a : α} {P : α → Prop} (h : P a) : Sat (Except.ok a : Res α) P := ⟨a, rfl, h⟩
theorem Sat.pure {α : Type} {a : α} {P : α → Prop} (h : P a) : Sat (Pure.pure a : Res α) P := ⟨a, rfl, h⟩

theorem Sat.bind {α β : Type} {x : Res α} {f : α → Res β} {P : α → Prop} {Q : β → Prop}
    (h : Sat x P) (hf : ∀ a, P a → Sat (f a) Q) : Sat (x >>= f) Q := by
  obtain ⟨a, e, hp⟩ := h
  rw [e]; exact hf a hp

theorem Sat.mono {α : Type} {x : Res α} {P Q : α → Prop} (h : Sat x P) (hpq : ∀ a, P a → Q a) : Sat x Q := by
  obtain ⟨a, e, hp⟩ := h
  exact ⟨a, e, hpq a hp⟩

theorem Sat.of_eq {α : Type} {x : Res α} {a : α} {P : α → Prop} (e : x = .ok a) (h : P a) : Sat x P := ⟨a, e, h⟩

theorem Sat.loop {σ : Type} {n : Nat} {f : Nat → σ → Res σ} {s : σ} (I : Nat → σ → Prop)
    (h0 : I 0 s) (hs : ∀ i s, i < n → I i s → Sat (f i s) (I (i+1))) : Sat (loopN n f s) (I n) :=
  loopN_spec I h0 hs

theorem Sat.raw {σ : Type} {n : Nat} {f : Nat → σ → Res σ} {s : σ} (I : Nat → σ → Prop)
    (h0 : I 0 s) (hs : ∀ i s, i < n → I i s → Sat (f i s) (I (i+1))) : Sat (ptrLoop 0 n 1 f s) (I n) := by
  rw [ptrLoop_eq f n 0 n 1 s (by omega) (by omega)]
  apply Sat.loop I h0
  intro i s hi h
  have e : 0 + i * 1 = i := by omega
  rw [e]
  exact hs i s hi h

theorem Sat.assert {c : Bool} {β : Type} {f : Unit → Res β} {Q : β → Prop} (h : c = true)
    (hf : Sat (f ()) Q) : Sat (assertThat c >>= f) Q := by
  subst h; exact hf

theorem Sat.read {R β : Type} {b : Buf R} {i : Nat} {v : R} {f : R → Res β} {Q : β → Prop}
    (h : b.read i = .ok v) (hf : Sat (f v) Q) : Sat (b.read i >>= f) Q := by
  rw [h]; exact hf

end BB
