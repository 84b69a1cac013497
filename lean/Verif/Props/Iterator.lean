import Verif.Model.Iterator
import Verif.Props.Layout

/-!
# C107: moving iterators forwards and backwards

Specification: the elements of a view are counted 0, 1, …, n-1; `end()` is n, `rend()` is -1; `++` adds one to the count,
`--` subtracts one.
-/

namespace BB

/-- The index after a sequence of steps. -/
def indexAfter (start : Int) : List Move → Int
  | [] => start
  | .fwd :: ms => indexAfter (start + 1) ms
  | .bwd :: ms => indexAfter (start - 1) ms

/-- The address of element `t`: place `t % cont` of block `t / cont`. -/
def Striped.addr (s : Striped) (t : Nat) : Int := s.data + ((t / s.cont * (s.cont + s.sep) + t % s.cont : Nat) : Int)

/-- The iterator refers to the place with index `f`: the element's address, or it equals `end()`, or it equals `rend()`. -/
def Striped.RefersTo (s : Striped) (it : SIter) (f : Int) : Prop :=
  (∃ t : Nat, f = t ∧ t < s.nb * s.cont ∧ it.ptr = s.addr t) ∨
  (f = (s.nb * s.cont : Nat) ∧ it.ptr = s.endIt.ptr) ∨
  (f = -1 ∧ it.ptr = s.rendIt.ptr)

/-- All places before the last step are elements. -/
def StaysOnElements (n : Nat) (start : Int) (ms : List Move) : Prop :=
  ∀ k, k < ms.length → 0 ≤ indexAfter start (ms.take k) ∧ indexAfter start (ms.take k) < n

/-- All places are elements or the end. -/
def StaysInRange (n : Nat) (start : Int) (ms : List Move) : Prop :=
  ∀ k, k ≤ ms.length → 0 ≤ indexAfter start (ms.take k) ∧ indexAfter start (ms.take k) ≤ n

/-! ### Steps in terms of block and place -/

/-- Iterator at place `p` of block `k` whose block counter is `d` too large. -/
def Striped.it (s : Striped) (k p d : Nat) : SIter := { s.at k p with block := (k + d : Nat) }

theorem Striped.it_zero (s : Striped) (k p : Nat) : s.it k p 0 = s.at k p := by
  simp [Striped.it, Striped.at, SIter.mk']

theorem Striped.it_fields {s : Striped} (h : s.Ok) (k p d : Nat) :
    s.it k p d = ⟨s.data + ((k * (s.cont + s.sep) + p : Nat) : Int), p, (k + d : Nat), s.cont - 1, s.sep + 1, s.nb⟩ := by
  have h1 : (s.sep + 1) % sizeMod = s.sep + 1 := Nat.mod_eq_of_lt h.sep_lt
  simp only [Striped.it, Striped.at, SIter.mk', wrap_pred h.cont_pos h.cont_lt, h1]

theorem Striped.it_decr_in {s : Striped} (h : s.Ok) (k p d : Nat) : (s.it k (p+1) d).decr = s.it k p d := by
  rw [Striped.it_fields h, Striped.it_fields h, SIter.decr]
  simp only [Nat.add_eq_zero_iff, one_ne_zero, and_false, if_false, Nat.add_sub_cancel, SIter.mk.injEq, and_true]
  push_cast; ring

theorem Striped.it_decr_first {s : Striped} (h : s.Ok) (k d : Nat) :
    (s.it (k+1) 0 d).decr = s.it k (s.cont - 1) d := by
  have hc := h.cont_pos
  rw [Striped.it_fields h, Striped.it_fields h, SIter.decr]
  have hb : ((k + 1 + d : Nat) : Int) - 1 ≠ -1 := by omega
  simp only [if_true, if_neg hb, SIter.mk.injEq, and_true, true_and]
  constructor
  · have e1 : ((s.cont - 1 : Nat) : Int) = (s.cont : Int) - 1 := by omega
    push_cast
    rw [e1]; ring
  · push_cast; ring

/-- Address of an element. -/
theorem Striped.addr_eq (s : Striped) {k p : Nat} (hp : p < s.cont) (d : Nat) : s.addr (p + k * s.cont) = (s.it k p d).ptr :=
  Striped.cell_at (s := s) (k := k) hp

/-- Every index is a place of a block. -/
theorem Striped.split {s : Striped} (h : s.Ok) {t : Nat} (ht : t < s.nb * s.cont) :
    t / s.cont < s.nb ∧ t % s.cont < s.cont ∧ t = t % s.cont + t / s.cont * s.cont := by
  refine ⟨?_, Nat.mod_lt _ h.cont_pos, ?_⟩
  · rw [Nat.div_lt_iff_lt_mul h.cont_pos]; exact ht
  · rw [Nat.mul_comm]; exact (Nat.mod_add_div t s.cont).symm

/-- The iterator that `begin()` and steps among the elements arrive at. -/
def Striped.elem (s : Striped) (t : Nat) : SIter := s.at (t / s.cont) (t % s.cont)

theorem Striped.elem_of {s : Striped} {k p : Nat} (hp : p < s.cont) : s.elem (p + k * s.cont) = s.at k p := by
  have hc : 0 < s.cont := by omega
  have h1 : (p + k * s.cont) / s.cont = k := by
    rw [Nat.add_mul_div_right _ _ hc, Nat.div_eq_of_lt hp]; omega
  have h2 : (p + k * s.cont) % s.cont = p := by
    rw [Nat.add_mul_mod_self_right]; exact Nat.mod_eq_of_lt hp
  simp only [Striped.elem, h1, h2]

theorem Striped.elem_incr {s : Striped} (h : s.Ok) {t : Nat} (ht : t + 1 < s.nb * s.cont) :
    (s.elem t).incr = .ok (s.elem (t+1)) := by
  obtain ⟨hk, hp, e⟩ := s.split h (t := t) (by omega)
  by_cases hin : t % s.cont + 1 < s.cont
  · have e2 : t + 1 = (t % s.cont + 1) + t / s.cont * s.cont := by omega
    rw [e2, Striped.elem_of hin]
    exact s.incr_in h hin
  · have hpe : t % s.cont = s.cont - 1 := by omega
    have e2 : t + 1 = 0 + (t / s.cont + 1) * s.cont := by
      rw [Nat.add_mul]; have := h.cont_pos; omega
    have hne : t / s.cont + 1 ≠ s.nb := by
      intro hh
      rw [hh] at e2
      omega
    rw [e2, Striped.elem_of h.cont_pos]
    have := s.incr_end h hk
    rw [if_neg hne] at this
    rw [Striped.elem, hpe, this]

theorem Striped.elem_incr_last {s : Striped} (h : s.Ok) {t : Nat} (ht : t + 1 = s.nb * s.cont) :
    ∃ it, (s.elem t).incr = .ok it ∧ it.ptr = s.endPtr ∧ it.pos = 0 ∧ it.block = s.nb ∧
      it.contMinus1 = s.cont - 1 ∧ it.sepPlus1 = s.sep + 1 := by
  obtain ⟨hk, hp, e⟩ := s.split h (t := t) (by omega)
  have hke : t / s.cont + 1 = s.nb := by
    by_contra hne
    have h1 : t / s.cont + 2 ≤ s.nb := by omega
    have h2 : (t / s.cont + 2) * s.cont ≤ s.nb * s.cont := Nat.mul_le_mul_right _ h1
    have h3 : (t / s.cont + 2) * s.cont = t / s.cont * s.cont + 2 * s.cont := by ring
    omega
  have hpe : t % s.cont = s.cont - 1 := by
    have h2 : (t / s.cont + 1) * s.cont = s.nb * s.cont := by rw [hke]
    have h3 : (t / s.cont + 1) * s.cont = t / s.cont * s.cont + s.cont := by ring
    omega
  have := s.incr_end h hk
  rw [if_pos hke] at this
  rw [Striped.elem, hpe, this]
  refine ⟨_, rfl, rfl, rfl, ?_, s.contM h (t / s.cont) (s.cont - 1), Nat.mod_eq_of_lt h.sep_lt⟩
  dsimp only
  omega

theorem Striped.elem_decr {s : Striped} (h : s.Ok) {t : Nat} (ht : t + 1 < s.nb * s.cont) :
    (s.elem (t+1)).decr = s.elem t := by
  obtain ⟨hk, hp, e⟩ := s.split h (t := t) (by omega)
  by_cases hin : t % s.cont + 1 < s.cont
  · have e2 : t + 1 = (t % s.cont + 1) + t / s.cont * s.cont := by omega
    rw [e2, Striped.elem_of hin, ← Striped.it_zero, Striped.it_decr_in h, Striped.it_zero]
    rfl
  · have hpe : t % s.cont = s.cont - 1 := by omega
    have e2 : t + 1 = 0 + (t / s.cont + 1) * s.cont := by
      rw [Nat.add_mul]; have := h.cont_pos; omega
    rw [e2, Striped.elem_of h.cont_pos, ← Striped.it_zero, Striped.it_decr_first h, Striped.it_zero, Striped.elem, hpe]

theorem Striped.elem_decr_first {s : Striped} (h : s.Ok) : (s.elem 0).decr.ptr = s.rendPtr := by
  have e : s.elem 0 = s.it 0 0 0 := by rw [Striped.it_zero]; simp [Striped.elem]
  rw [e, Striped.it_fields h, SIter.decr]
  simp [Striped.rendPtr]

theorem indexAfter_add (a b : Int) (ms : List Move) : indexAfter (a + b) ms = a + indexAfter b ms := by
  induction ms generalizing b with
  | nil => rfl
  | cons m ms ih =>
    cases m
    · simp only [indexAfter]; rw [← ih]; congr 1; ring
    · simp only [indexAfter]; rw [← ih]; congr 1; ring

theorem Striped.moves_elem {s : Striped} (h : s.Ok) (ms : List Move) (t : Nat) (ht : t < s.nb * s.cont)
    (hin : StaysOnElements (s.nb * s.cont) t ms) :
    ∃ it, (s.elem t).moves ms = .ok it ∧ s.RefersTo it (indexAfter t ms) := by
  induction ms generalizing t with
  | nil => exact ⟨s.elem t, rfl, .inl ⟨t, rfl, ht, rfl⟩⟩
  | cons m ms ih =>
    have htail : ∀ start' : Int, (∀ k, indexAfter t ((m :: ms).take (k+1)) = indexAfter start' (ms.take k)) →
        StaysOnElements (s.nb * s.cont) start' ms := by
      intro start' he k hk
      have := hin (k+1) (by simpa using hk)
      rw [he] at this
      exact this
    cases m with
    | fwd =>
      have hT := htail (t+1) (fun k => rfl)
      by_cases hl : t + 1 < s.nb * s.cont
      · obtain ⟨it, e, r⟩ := ih (t+1) hl (by exact_mod_cast hT)
        refine ⟨it, ?_, ?_⟩
        · simp only [SIter.moves, SIter.move]
          rw [Striped.elem_incr h hl, bind_ok', e]
        · have : indexAfter t (.fwd :: ms) = indexAfter ((t+1 : Nat) : Int) ms := by simp [indexAfter]
          rw [this]; exact r
      · have hle : t + 1 = s.nb * s.cont := by omega
        obtain ⟨it, e, hp, -⟩ := Striped.elem_incr_last h hle
        cases ms with
        | nil =>
          refine ⟨it, ?_, .inr (.inl ⟨?_, hp⟩)⟩
          · simp only [SIter.moves, SIter.move]; rw [e, bind_ok']
          · simp only [indexAfter]; omega
        | cons m2 ms =>
          have := hT 0 (by simp)
          simp only [List.take_zero, indexAfter] at this
          omega
    | bwd =>
      have hT := htail (t-1) (fun k => rfl)
      cases t with
      | succ t =>
        have hT' : StaysOnElements (s.nb * s.cont) (t : Nat) ms := by
          have e : ((t + 1 : Nat) : Int) - 1 = (t : Nat) := by omega
          rw [e] at hT; exact hT
        obtain ⟨it, e, r⟩ := ih t (by omega) hT'
        refine ⟨it, ?_, ?_⟩
        · simp only [SIter.moves, SIter.move]
          rw [Striped.elem_decr h ht, bind_ok', e]
        · have e : ((t + 1 : Nat) : Int) - 1 = (t : Nat) := by omega
          simp only [indexAfter]
          rw [e]; exact r
      | zero =>
        cases ms with
        | nil =>
          refine ⟨(s.elem 0).decr, rfl, .inr (.inr ⟨?_, Striped.elem_decr_first h⟩)⟩
          simp [indexAfter]
        | cons m2 ms =>
          have := hT 0 (by simp)
          simp only [List.take_zero, indexAfter] at this
          omega

/-- C107, part that holds: starting at `begin()`, after every sequence of `++` and `--` that stays on the elements before
its last step, the iterator refers to the element counted, equals `end()` after the last element, equals `rend()` before
the first. -/
theorem C107_moves_from_begin_partial (s : Striped) (h : s.Ok) (ms : List Move)
    (hin : StaysOnElements (s.nb * s.cont) 0 ms) :
    ∃ it, s.begin.moves ms = .ok it ∧ s.RefersTo it (indexAfter 0 ms) := by
  have hb : s.begin = s.elem 0 := by simp [Striped.begin, Striped.elem, Striped.at]
  have hn : 0 < s.nb * s.cont := Nat.mul_pos h.nb_pos h.cont_pos
  rw [hb]
  exact Striped.moves_elem h ms 0 hn hin

/-- C107, the same from `rbegin()`, the last element. -/
theorem C107_moves_from_rbegin_partial (s : Striped) (h : s.Ok) (ms : List Move)
    (hin : StaysOnElements (s.nb * s.cont) ((s.nb * s.cont : Nat) - 1) ms) :
    ∃ it, s.rbegin.moves ms = .ok it ∧ s.RefersTo it (indexAfter ((s.nb * s.cont : Nat) - 1) ms) := by
  have hn : 0 < s.nb * s.cont := Nat.mul_pos h.nb_pos h.cont_pos
  have hc := h.cont_pos
  have e : ((s.nb * s.cont : Nat) : Int) - 1 = ((s.nb * s.cont - 1 : Nat) : Int) := by omega
  have hm : s.nb * s.cont - 1 = (s.cont - 1) + (s.nb - 1) * s.cont := by
    obtain ⟨n, hn'⟩ : ∃ n, s.nb = n + 1 := ⟨s.nb - 1, by have := h.nb_pos; omega⟩
    rw [hn', Nat.add_sub_cancel]
    have : (n+1) * s.cont = n * s.cont + s.cont := by ring
    omega
  have hptr : s.endPtr - 1 = (s.at (s.nb - 1) (s.cont - 1)).ptr := by
    have hnb := h.nb_pos
    simp only [Striped.at, SIter.mk', Striped.endPtr]
    have e1 : ((s.cont - 1 : Nat) : Int) = (s.cont : Int) - 1 := by omega
    have e2 : ((s.nb - 1 : Nat) : Int) = (s.nb : Int) - 1 := by omega
    push_cast
    rw [e1, e2]; ring
  have hb : s.rbegin = s.elem (s.nb * s.cont - 1) := by
    have hnb := h.nb_pos
    have e2 : ((s.nb - 1 : Nat) : Int) = (s.nb : Int) - 1 := by omega
    rw [hm, Striped.elem_of (by omega)]
    unfold Striped.rbegin
    rw [hptr, wrap_pred h.cont_pos h.cont_lt, ← e2]
    rfl
  rw [e] at hin ⊢
  rw [hb]
  exact Striped.moves_elem h ms _ (by omega) hin

/-! ### `end()` -/

theorem Striped.end_ptr_eq {s : Striped} (h : s.Ok) (d : Nat) :
    s.endPtr = (s.it (s.nb - 1) (s.cont - 1) d).ptr + 1 := by
  have hnb := h.nb_pos
  have hc := h.cont_pos
  simp only [Striped.it, Striped.at, SIter.mk', Striped.endPtr]
  have e1 : ((s.cont - 1 : Nat) : Int) = (s.cont : Int) - 1 := by omega
  have e2 : ((s.nb - 1 : Nat) : Int) = (s.nb : Int) - 1 := by omega
  push_cast
  rw [e1, e2]; ring

theorem Striped.end_fields {s : Striped} (h : s.Ok) :
    s.endIt = ⟨s.endPtr, s.cont, s.nb, s.cont - 1, s.sep + 1, s.nb⟩ := by
  have h1 : (s.sep + 1) % sizeMod = s.sep + 1 := Nat.mod_eq_of_lt h.sep_lt
  simp only [Striped.endIt, SIter.mk', wrap_pred h.cont_pos h.cont_lt, h1]

/-- `--end()` is the last element, with a block counter that is one too large. -/
theorem Striped.end_decr {s : Striped} (h : s.Ok) : s.endIt.decr = s.it (s.nb - 1) (s.cont - 1) 1 := by
  have hc := h.cont_pos
  have hnb := h.nb_pos
  have e := Striped.end_ptr_eq h 1
  rw [Striped.end_fields h, SIter.decr, if_neg (show ¬ (s.cont = 0) by omega)]
  rw [Striped.it_fields h] at e ⊢
  dsimp only at e ⊢
  rw [e]
  simp only [SIter.mk.injEq, and_true, true_and]
  omega

/-- C107, part that holds: from `end()`, `--` steps lead to the elements in reverse order, and after all of them to
`begin()`. -/
theorem C107_back_from_end_partial (s : Striped) (h : s.Ok) (m : Nat) (hm : m < s.nb * s.cont) :
    ∃ it, s.endIt.moves (List.replicate (m+1) .bwd) = .ok it ∧ it.ptr = s.addr (s.nb * s.cont - 1 - m) := by
  have key : ∀ (m t : Nat), m ≤ t → t < s.nb * s.cont →
      ∃ it, (s.it (t / s.cont) (t % s.cont) 1).moves (List.replicate m .bwd) = .ok it ∧ it.ptr = s.addr (t - m) := by
    intro m
    induction m with
    | zero =>
      intro t _ ht
      obtain ⟨hk, hp, e⟩ := s.split h ht
      refine ⟨_, rfl, ?_⟩
      rw [Nat.sub_zero, ← Striped.addr_eq s hp, ← e]
    | succ m ih =>
      intro t hmt ht
      obtain ⟨t, rfl⟩ : ∃ u, t = u + 1 := ⟨t - 1, by omega⟩
      obtain ⟨hk, hp, e⟩ := s.split h (t := t) (by omega)
      obtain ⟨it, e1, e2⟩ := ih t (by omega) (by omega)
      refine ⟨it, ?_, by rw [e2]; congr 1; omega⟩
      have hd : (s.it ((t+1) / s.cont) ((t+1) % s.cont) 1).decr = s.it (t / s.cont) (t % s.cont) 1 := by
        by_cases hin : t % s.cont + 1 < s.cont
        · have h1 : (t+1) / s.cont = t / s.cont := by
            have e2 : t + 1 = (t % s.cont + 1) + t / s.cont * s.cont := by omega
            rw [e2, Nat.add_mul_div_right _ _ h.cont_pos, Nat.div_eq_of_lt hin]
            omega
          have h2 : (t+1) % s.cont = t % s.cont + 1 := by
            have e2 : t + 1 = (t % s.cont + 1) + t / s.cont * s.cont := by omega
            rw [e2, Nat.add_mul_mod_self_right]; rw [Nat.mod_eq_of_lt hin]
          rw [h1, h2, Striped.it_decr_in h]
        · have hpe : t % s.cont = s.cont - 1 := by omega
          have e2 : t + 1 = 0 + (t / s.cont + 1) * s.cont := by
            rw [Nat.add_mul]; have := h.cont_pos; omega
          have h1 : (t+1) / s.cont = t / s.cont + 1 := by
            rw [e2, Nat.zero_add, Nat.mul_div_cancel _ h.cont_pos]
          have h2 : (t+1) % s.cont = 0 := by
            rw [e2, Nat.zero_add, Nat.mul_mod_left]
          rw [h1, h2, Striped.it_decr_first h, hpe]
      rw [List.replicate_succ]
      simp only [SIter.moves, SIter.move]
      rw [hd, bind_ok', e1]
  have hc := h.cont_pos
  have hdm : s.nb * s.cont - 1 = (s.cont - 1) + (s.nb - 1) * s.cont := by
    obtain ⟨n, hn'⟩ : ∃ n, s.nb = n + 1 := ⟨s.nb - 1, by have := h.nb_pos; omega⟩
    rw [hn', Nat.add_sub_cancel]
    have : (n+1) * s.cont = n * s.cont + s.cont := by ring
    omega
  obtain ⟨it, e1, e2⟩ := key m (s.nb * s.cont - 1) (by omega) (by omega)
  refine ⟨it, ?_, e2⟩
  have h1 : (s.nb * s.cont - 1) / s.cont = s.nb - 1 := by
    rw [hdm, Nat.add_mul_div_right _ _ hc, Nat.div_eq_of_lt (by omega)]; omega
  have h2 : (s.nb * s.cont - 1) % s.cont = s.cont - 1 := by
    rw [hdm, Nat.add_mul_mod_self_right]; exact Nat.mod_eq_of_lt (by omega)
  rw [h1, h2] at e1
  rw [List.replicate_succ]
  simp only [SIter.moves, SIter.move]
  rw [bind_ok', Striped.end_decr h, e1]

/-- C107 is false of the code: stepping forwards over all elements to the end and then one step back does not lead to the
last element, whenever the columns of the view are not adjacent. -/
theorem C107_back_from_reached_end_is_wrong (s : Striped) (h : s.Ok) (hsep : 0 < s.sep) :
    ∃ e it, s.begin.moves (List.replicate (s.nb * s.cont) .fwd) = .ok e ∧ e.ptr = s.endIt.ptr ∧
      e.move .bwd = .ok it ∧ it.ptr ≠ s.addr (s.nb * s.cont - 1) := by
  have hn : 0 < s.nb * s.cont := Nat.mul_pos h.nb_pos h.cont_pos
  have key : ∀ m t, t + m + 1 = s.nb * s.cont →
      ∃ e, (s.elem t).moves (List.replicate (m+1) .fwd) = .ok e ∧ e.ptr = s.endPtr ∧ e.pos = 0 ∧ e.block = s.nb ∧
        e.sepPlus1 = s.sep + 1 := by
    intro m
    induction m with
    | zero =>
      intro t ht
      obtain ⟨it, e, h1, h2, h3, -, h5⟩ := Striped.elem_incr_last h (t := t) (by omega)
      refine ⟨it, ?_, h1, h2, h3, h5⟩
      simp only [List.replicate_succ, List.replicate_zero, SIter.moves, SIter.move]
      rw [e, bind_ok']
    | succ m ih =>
      intro t ht
      obtain ⟨e, h1, h2⟩ := ih (t+1) (by omega)
      refine ⟨e, ?_, h2⟩
      rw [List.replicate_succ, SIter.moves]
      simp only [SIter.move]
      rw [Striped.elem_incr h (by omega), bind_ok', h1]
  obtain ⟨e, h1, h2, h3, h4, h5⟩ := key (s.nb * s.cont - 1) 0 (by omega)
  have hb : s.begin = s.elem 0 := by simp [Striped.begin, Striped.elem, Striped.at]
  refine ⟨e, e.decr, ?_, h2, rfl, ?_⟩
  · have e0 : s.nb * s.cont - 1 + 1 = s.nb * s.cont := by omega
    rw [e0] at h1
    rw [hb, h1]
  · have hnb := h.nb_pos
    have hc := h.cont_pos
    have hlast : s.nb * s.cont - 1 = (s.cont - 1) + (s.nb - 1) * s.cont := by
      obtain ⟨n, hn'⟩ : ∃ n, s.nb = n + 1 := ⟨s.nb - 1, by omega⟩
      rw [hn', Nat.add_sub_cancel]
      have : (n+1) * s.cont = n * s.cont + s.cont := by ring
      omega
    rw [hlast, Striped.addr_eq s (by omega) 0]
    have he := Striped.end_ptr_eq h 0
    have hbl : e.block - 1 ≠ -1 := by rw [h4]; omega
    rw [SIter.decr, if_pos h3]
    simp only [if_neg hbl]
    rw [h2, h5, he]
    push_cast
    omega

/-- C107 is false of the code: `--end()` followed by `++` does not lead back to `end()`, whenever the columns of the view
are not adjacent. -/
theorem C107_forward_after_back_from_end_is_wrong (s : Striped) (h : s.Ok) (hnb : (s.nb : Int) < intMax) (hsep : 0 < s.sep) :
    ∃ it, s.endIt.moves [.bwd, .fwd] = .ok it ∧ it.ptr ≠ s.endIt.ptr := by
  have hc := h.cont_pos
  have hn := h.nb_pos
  have hb : ((s.nb - 1 + 1 : Nat) : Int) = s.nb := by omega
  have hmod : ((s.nb : Int) + 1) % (sizeMod : Int) = s.nb + 1 := by
    apply Int.emod_eq_of_lt
    · omega
    · unfold intMax at hnb
      have : (sizeMod : Int) = 2^64 := rfl
      omega
  have he := Striped.end_ptr_eq h 1
  have hi : (s.it (s.nb - 1) (s.cont - 1) 1).incr =
      .ok ⟨(s.it (s.nb - 1) (s.cont - 1) 1).ptr + ((s.sep + 1 : Nat) : Int), 0, s.nb + 1, s.cont - 1, s.sep + 1, s.nb⟩ := by
    rw [Striped.it_fields h, SIter.incr]
    simp only [if_true]
    rw [hb, if_neg (by omega), hmod, if_neg (by omega)]
  refine ⟨⟨(s.it (s.nb - 1) (s.cont - 1) 1).ptr + ((s.sep + 1 : Nat) : Int), 0, s.nb + 1, s.cont - 1, s.sep + 1, s.nb⟩, ?_, ?_⟩
  · simp only [SIter.moves, SIter.move, bind_ok']
    rw [Striped.end_decr h, hi, bind_ok']
  · dsimp only
    show _ ≠ s.endPtr
    rw [he]; push_cast; omega

/-! ### Adjacent columns -/

/-- State of an iterator over adjacent blocks at index `t`. -/
def Striped.Flat (s : Striped) (it : SIter) (t : Nat) : Prop :=
  (∃ k p d, d ≤ 1 ∧ (k < s.nb ∧ p < s.cont ∨ k = s.nb ∧ p = 0) ∧ t = p + k * s.cont ∧ it = s.it k p d) ∨
  (t = s.nb * s.cont ∧ it = s.endIt)

theorem Striped.flat_ptr {s : Striped} (h : s.Ok) (hsep : s.sep = 0) {it : SIter} {t : Nat} (hf : s.Flat it t) :
    it.ptr = s.data + t := by
  rcases hf with ⟨k, p, d, -, -, rfl, rfl⟩ | ⟨rfl, rfl⟩
  · rw [Striped.it_fields h]
    dsimp only
    rw [hsep]; push_cast; ring
  · show s.endPtr = _
    rw [Striped.endPtr, hsep]; push_cast; ring

theorem Striped.flat_decr {s : Striped} (h : s.Ok) {it : SIter} {t : Nat}
    (hf : s.Flat it (t+1)) : s.Flat it.decr t := by
  have hc := h.cont_pos
  have hn := h.nb_pos
  rcases hf with ⟨k, p, d, hd, hkp, e, rfl⟩ | ⟨e, rfl⟩
  · cases p with
    | succ p =>
      refine .inl ⟨k, p, d, hd, by omega, by omega, Striped.it_decr_in h k p d⟩
    | zero =>
      cases k with
      | zero => omega
      | succ k =>
        refine .inl ⟨k, s.cont - 1, d, hd, .inl (by omega), ?_, Striped.it_decr_first h k d⟩
        have : (k+1) * s.cont = k * s.cont + s.cont := by ring
        omega
  · refine .inl ⟨s.nb - 1, s.cont - 1, 1, le_refl _, .inl (by omega), ?_, Striped.end_decr h⟩
    obtain ⟨n, hn'⟩ : ∃ n, s.nb = n + 1 := ⟨s.nb - 1, by omega⟩
    rw [hn'] at e ⊢
    rw [Nat.add_sub_cancel]
    have : (n+1) * s.cont = n * s.cont + s.cont := by ring
    omega

theorem Striped.flat_incr {s : Striped} (h : s.Ok) (hnb : (s.nb : Int) < intMax) (hsep : s.sep = 0) {it : SIter} {t : Nat}
    (ht : t < s.nb * s.cont) (hf : s.Flat it t) : ∃ it', it.incr = .ok it' ∧ s.Flat it' (t+1) := by
  have hc := h.cont_pos
  have hn := h.nb_pos
  rcases hf with ⟨k, p, d, hd, hkp, e, rfl⟩ | ⟨e, rfl⟩
  · have hk : k < s.nb ∧ p < s.cont := by
      rcases hkp with hkp | ⟨rfl, rfl⟩
      · exact hkp
      · omega
    by_cases hin : p + 1 < s.cont
    · refine ⟨s.it k (p+1) d, ?_, .inl ⟨k, p+1, d, hd, .inl ⟨hk.1, hin⟩, by omega, rfl⟩⟩
      rw [Striped.it_fields h, Striped.it_fields h, SIter.incr, if_neg (show ¬ (p = s.cont - 1) by omega)]
      congr 2
      push_cast; ring
    · have hpe : p = s.cont - 1 := by omega
      have hblk : ((k + d : Nat) : Int) ≠ intMax := by omega
      refine ⟨s.it (k+1) 0 d, ?_, .inl ⟨k+1, 0, d, hd, by omega, ?_, rfl⟩⟩
      · rw [Striped.it_fields h, Striped.it_fields h, SIter.incr, if_pos hpe, if_neg hblk]
        have e1 : ((s.cont - 1 : Nat) : Int) = (s.cont : Int) - 1 := by omega
        have e2 : s.data + ((k * (s.cont + s.sep) + p : Nat) : Int) + 1
            = s.data + (((k+1) * (s.cont + s.sep) + 0 : Nat) : Int) := by
          rw [hpe, hsep]; push_cast; rw [e1]; ring
        have e3 : ((k + d : Nat) : Int) + 1 = ((k + 1 + d : Nat) : Int) := by push_cast; ring
        simp only [hsep] at e2 ⊢
        simp only [Nat.zero_add, Nat.cast_one, e2, e3, ite_self]
      · have : (k+1) * s.cont = k * s.cont + s.cont := by ring
        omega
  · omega

theorem Striped.flat_moves {s : Striped} (h : s.Ok) (hnb : (s.nb : Int) < intMax) (hsep : s.sep = 0) (ms : List Move)
    (it : SIter) (t : Nat) (hf : s.Flat it t) (hin : StaysInRange (s.nb * s.cont) t ms) :
    ∃ it', it.moves ms = .ok it' ∧ it'.ptr = s.data + indexAfter t ms := by
  induction ms generalizing it t with
  | nil => exact ⟨it, rfl, Striped.flat_ptr h hsep hf⟩
  | cons m ms ih =>
    have h1 := hin 1 (by simp)
    cases m with
    | fwd =>
      simp only [List.take_succ_cons, List.take_zero, indexAfter] at h1
      obtain ⟨it1, e1, f1⟩ := Striped.flat_incr h hnb hsep (t := t) (by omega) hf
      obtain ⟨it2, e2, f2⟩ := ih it1 (t+1) f1 (fun k hk => by
        have := hin (k+1) (by simpa using hk)
        simpa [indexAfter] using this)
      refine ⟨it2, ?_, ?_⟩
      · simp only [SIter.moves, SIter.move]; rw [e1, bind_ok', e2]
      · rw [f2]; simp [indexAfter]
    | bwd =>
      simp only [List.take_succ_cons, List.take_zero, indexAfter] at h1
      obtain ⟨t, rfl⟩ : ∃ u, t = u + 1 := ⟨t - 1, by omega⟩
      have e : ((t + 1 : Nat) : Int) - 1 = (t : Nat) := by omega
      obtain ⟨it2, e2, f2⟩ := ih it.decr t (Striped.flat_decr h hf) (fun k hk => by
        have := hin (k+1) (by simpa using hk)
        simp only [List.take_succ_cons, indexAfter] at this
        rw [e] at this
        exact this)
      refine ⟨it2, ?_, ?_⟩
      · simp only [SIter.moves, SIter.move]; rw [bind_ok', e2]
      · rw [f2]; simp only [indexAfter]; rw [e]

/-- C107, part that holds in full: when the columns of the view are adjacent (windows of full height), every sequence of
`++` and `--` between `begin()` and `end()`, turning round at the end included, leads to the element counted. -/
theorem C107_adjacent_columns_from_begin_partial (s : Striped) (h : s.Ok) (hnb : (s.nb : Int) < intMax) (hsep : s.sep = 0)
    (ms : List Move) (hin : StaysInRange (s.nb * s.cont) 0 ms) :
    ∃ it, s.begin.moves ms = .ok it ∧ it.ptr = s.data + indexAfter 0 ms := by
  refine Striped.flat_moves h hnb hsep ms s.begin 0 (.inl ⟨0, 0, 0, by omega, ?_, by omega, ?_⟩) hin
  · exact .inl ⟨h.nb_pos, h.cont_pos⟩
  · rw [Striped.it_zero]; simp [Striped.begin, Striped.at]

/-- C107, the same from `end()`. -/
theorem C107_adjacent_columns_from_end_partial (s : Striped) (h : s.Ok) (hnb : (s.nb : Int) < intMax) (hsep : s.sep = 0)
    (ms : List Move) (hin : StaysInRange (s.nb * s.cont) (s.nb * s.cont : Nat) ms) :
    ∃ it, s.endIt.moves ms = .ok it ∧ it.ptr = s.data + indexAfter (s.nb * s.cont : Nat) ms :=
  Striped.flat_moves h hnb hsep ms s.endIt _ (.inr ⟨rfl, rfl⟩) hin

/-- Steps forwards from `rend()` never notice the end of a column. -/
theorem Striped.rend_moves {s : Striped} (h : s.Ok) (k : Nat) (it : SIter) (hp : s.cont ≤ it.pos) (hc : it.contMinus1 = s.cont - 1) :
    ∃ it', it.moves (List.replicate k .fwd) = .ok it' ∧ it'.ptr = it.ptr + k := by
  induction k generalizing it with
  | zero => exact ⟨it, rfl, by simp⟩
  | succ k ih =>
    have hne : it.pos ≠ it.contMinus1 := by have := h.cont_pos; omega
    obtain ⟨it', e, hp'⟩ := ih { it with ptr := it.ptr + 1, pos := it.pos + 1 } (by simp only; omega) hc
    refine ⟨it', ?_, ?_⟩
    · simp only [List.replicate_succ, SIter.moves, SIter.move, SIter.incr, if_neg hne, bind_ok']
      exact e
    · rw [hp']; push_cast; ring

/-- C107 is false of the code: steps forwards from `rend()` lead to consecutive addresses, so once they leave the first column of a
window whose columns are not adjacent they lead to places outside of the window instead of the next element. -/
theorem C107_forward_from_rend_is_wrong (s : Striped) (h : s.Ok) (k : Nat) :
    ∃ it, s.rendIt.moves (List.replicate (k + 1) .fwd) = .ok it ∧ it.ptr = s.data + k ∧
      (0 < s.sep → k < s.nb * s.cont → (it.ptr = s.addr k ↔ k < s.cont)) := by
  obtain ⟨it, e, hp⟩ := Striped.rend_moves h (k + 1) s.rendIt (Nat.le_refl _) (wrap_pred h.cont_pos h.cont_lt)
  have hp' : it.ptr = s.data + k := by
    rw [hp]
    simp only [Striped.rendIt, SIter.mk', Striped.rendPtr]
    push_cast; ring
  refine ⟨it, e, hp', fun hs _ => ?_⟩
  rw [hp', Striped.addr]
  have hd := Nat.div_add_mod k s.cont
  constructor
  · intro he
    by_contra hk
    have h1 : 0 < k / s.cont := Nat.div_pos (by omega) h.cont_pos
    have h2 : (k : Int) = ((k / s.cont * (s.cont + s.sep) + k % s.cont : Nat) : Int) := by omega
    have h3 : k = k / s.cont * (s.cont + s.sep) + k % s.cont := by exact_mod_cast h2
    rw [Nat.mul_add, Nat.mul_comm _ s.cont] at h3
    have := Nat.mul_pos h1 hs
    omega
  · intro hk
    rw [Nat.div_eq_of_lt hk, Nat.mod_eq_of_lt hk]; simp

theorem moves_snoc (n : Nat) (it : SIter) :
    it.moves (List.replicate (n + 1) .fwd) = it.moves (List.replicate n .fwd) >>= SIter.incr := by
  induction n generalizing it with
  | zero =>
    show (it.incr >>= fun it' => Except.ok it') = it.incr
    cases it.incr <;> rfl
  | succ n ih =>
    rw [List.replicate_succ, SIter.moves]
    show (it.incr >>= fun it' => SIter.moves (List.replicate (n + 1) .fwd) it') = _
    rw [List.replicate_succ, SIter.moves]
    show _ = (it.incr >>= fun it' => SIter.moves (List.replicate n .fwd) it') >>= SIter.incr
    cases it.incr with
    | error e => rfl
    | ok it' => exact ih it'

/-- The block counter is an `int`: in a window with more than 2147483647 columns, iterating leads through the first 2147483648
columns, and the step from there to the next column overflows the counter (undefined behaviour). -/
theorem C107_too_many_columns (s : Striped) (hc : 0 < s.cont) (hc' : s.cont < 18446744073709551616) (hs : s.sep + 1 < 18446744073709551616)
    (hn : 2147483648 < s.nb) (hn' : s.nb < 18446744073709551616) :
    (∀ t, t < 2147483648 * s.cont → ∃ it, s.begin.moves (List.replicate t .fwd) = .ok it ∧ it.ptr = s.addr t) ∧
    s.begin.moves (List.replicate (2147483648 * s.cont) .fwd) = .error .ub := by
  have hcm : ∀ k p, (s.at k p).contMinus1 = s.cont - 1 := fun k p => wrap_pred hc hc'
  have hsp : ∀ k p, (s.at k p).sepPlus1 = s.sep + 1 := fun k p => Nat.mod_eq_of_lt hs
  have inside : ∀ k p, p + 1 < s.cont → (s.at k p).incr = .ok (s.at k (p + 1)) := by
    intro k p hp
    unfold SIter.incr
    rw [if_neg (show (s.at k p).pos ≠ (s.at k p).contMinus1 by rw [hcm]; show p ≠ _; omega)]
    have hptr : (s.at k p).ptr + 1 = (s.at k (p+1)).ptr := by
      simp only [Striped.at, SIter.mk']
      push_cast; ring
    rw [hptr]; rfl
  have over : ∀ k : Nat, (k : Int) < intMax → k + 1 < s.nb → (s.at k (s.cont - 1)).incr = .ok (s.at (k + 1) 0) := by
    intro k hk hkn
    unfold SIter.incr
    have hb : (s.at k (s.cont - 1)).block = k := rfl
    have hmod : ((k : Int) + 1) % (sizeMod : Int) = k + 1 := by
      have : (sizeMod : Int) = 18446744073709551616 := rfl
      unfold intMax at hk
      apply Int.emod_eq_of_lt <;> omega
    have hnb : (s.at k (s.cont - 1)).nbBlocks = s.nb := rfl
    rw [if_pos (show (s.at k (s.cont - 1)).pos = (s.at k (s.cont - 1)).contMinus1 by rw [hcm]; rfl), hb, if_neg (by omega), hnb]
    simp only [hmod]
    rw [if_neg (by omega)]
    have hptr : (s.at k (s.cont - 1)).ptr + (((s.at k (s.cont - 1)).sepPlus1 : Nat) : Int) = (s.at (k + 1) 0).ptr := by
      rw [hsp]
      simp only [Striped.at, SIter.mk', Nat.add_mul, Nat.one_mul]
      generalize k * (s.cont + s.sep) = w
      push_cast
      omega
    rw [hptr]; rfl
  have top : ∀ k : Nat, (k : Int) = intMax → (s.at k (s.cont - 1)).incr = .error .ub := by
    intro k hk
    unfold SIter.incr
    have hb : (s.at k (s.cont - 1)).block = k := rfl
    rw [hcm, if_pos (show (s.at k (s.cont - 1)).pos = s.cont - 1 from rfl), hb, if_pos hk]
  have walk : ∀ k : Nat, k < 2147483648 → ∀ p, p < s.cont → s.begin.moves (List.replicate (k * s.cont + p) .fwd) = .ok (s.at k p) := by
    intro k
    induction k with
    | zero =>
      intro _ p
      induction p with
      | zero => intro _; simp [SIter.moves, Striped.begin, Striped.at]
      | succ p ih =>
        intro hp
        rw [← Nat.add_assoc, moves_snoc, ih (by omega), bind_ok']
        exact inside 0 p hp
    | succ k ihk =>
      intro hk p
      induction p with
      | zero =>
        intro _
        have e : (k + 1) * s.cont + 0 = (k * s.cont + (s.cont - 1)) + 1 := by rw [Nat.add_mul, Nat.one_mul]; omega
        rw [e, moves_snoc, ihk (by omega) _ (by omega), bind_ok']
        exact over k (by unfold intMax; omega) (by omega)
      | succ p ih =>
        intro hp
        rw [← Nat.add_assoc, moves_snoc, ih (by omega), bind_ok']
        exact inside (k + 1) p hp
  constructor
  · intro t ht
    refine ⟨s.at (t / s.cont) (t % s.cont), ?_, rfl⟩
    have := walk (t / s.cont) (Nat.div_lt_of_lt_mul (by rwa [Nat.mul_comm])) (t % s.cont) (Nat.mod_lt _ hc)
    rwa [Nat.div_add_mod'] at this
  · have e : 2147483648 * s.cont = (2147483647 * s.cont + (s.cont - 1)) + 1 := by omega
    rw [e, moves_snoc, walk _ (by omega) _ (by omega), bind_ok']
    exact top _ rfl

/-- A window of 2147483649 columns with one element each, in a matrix with two rows. -/
example : let s := (View.plain .col 2 2147483649).subStriped 1 2147483649 0 0
    0 < s.cont ∧ s.cont < 18446744073709551616 ∧ s.sep + 1 < 18446744073709551616 ∧ 2147483648 < s.nb ∧ s.nb < 18446744073709551616 := by decide

/-- The hypotheses are met: the 2×2 window at (1,1) of a 4×3 matrix, forth, back and forth over a column border. -/
example : ((View.plain .col 4 3).subStriped 2 2 1 1).Ok ∧ 0 < ((View.plain .col 4 3).subStriped 2 2 1 1).sep ∧
    ((View.plain .col 4 3).subStriped 2 2 1 1).nb * ((View.plain .col 4 3).subStriped 2 2 1 1).cont = 4 ∧
    StaysOnElements 4 0 [.fwd, .fwd, .bwd, .fwd, .fwd, .fwd] := by
  refine ⟨by constructor <;> decide, by decide, by decide, ?_⟩
  intro k hk
  have : k = 0 ∨ k = 1 ∨ k = 2 ∨ k = 3 ∨ k = 4 ∨ k = 5 := by simp at hk; omega
  rcases this with rfl | rfl | rfl | rfl | rfl | rfl <;> decide

/-- What the two failures look like on that window (elements at 5, 6, 9, 10; `end()` at 11). -/
example : (((View.plain .col 4 3).subStriped 2 2 1 1).begin.moves [.fwd, .fwd, .fwd, .fwd, .bwd]).map (·.ptr) = .ok 8 ∧
    (((View.plain .col 4 3).subStriped 2 2 1 1).endIt.moves [.bwd, .fwd]).map (·.ptr) = .ok 13 := by
  constructor <;> rfl

/-- A window of full height has adjacent columns. -/
example : ((View.plain .col 4 3).subStriped 4 2 0 1).Ok ∧ ((View.plain .col 4 3).subStriped 4 2 0 1).sep = 0 := by
  refine ⟨by constructor <;> decide, rfl⟩

end BB
