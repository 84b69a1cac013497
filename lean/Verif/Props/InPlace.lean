import Verif.Model.InPlace
import Verif.Lemmas.Layout
import Mathlib.Tactic.Ring

/-!
# C108: storages that hold their elements in place are values

Specification: a variable stands for N numbers; construction gives zeros or the listed numbers followed by zeros, copying and
assigning give the numbers of the source at that moment, a write changes one number of one variable.
-/

namespace BB.InPlace

variable {R : Type}

/-- The value of the variables: N numbers each (only indices below N matter). -/
abbrev Env (R : Type) := Nat → Option (Nat → R)

/-- The intended meaning of a statement; `none`: outside the rules (unknown variable, name in use, index or list too large). -/
def specStep [Zero R] (N : Nat) (E : Env R) : Op R → Option (Env R)
  | .dflt x => if (E x).isSome then none else some (Function.update E x (some fun _ => 0))
  | .ofList x vs =>
    if (E x).isSome ∨ N < vs.length then none else some (Function.update E x (some fun i => vs.getD i 0))
  | .copy x y =>
    match E y with
    | some f => if (E x).isSome then none else some (Function.update E x (some f))
    | none => none
  | .assign x y =>
    match E x, E y with
    | some _, some f => some (Function.update E x (some f))
    | _, _ => none
  | .write x i v =>
    match E x with
    | some f => if i < N then some (Function.update E x (some fun j => if j = i then v else f j)) else none
    | none => none
  | .dtor x => if (E x).isSome then some (Function.update E x none) else none

/-- The intended meaning of a program. -/
def specRun [Zero R] (N : Nat) : List (Op R) → Env R → Option (Env R)
  | [], E => some E
  | o :: os, E => (specStep N E o).bind (specRun N os)

/-- The objects hold what the specification says: the same variables exist, and reading element `i` yields the number. -/
def Agrees (N : Nat) (w : World R) (E : Env R) : Prop :=
  ∀ x, match E x with
    | none => w x = none
    | some f => ∃ b, w x = some b ∧ b.length = N ∧ ∀ i, i < N → b.read i = .ok (f i)

/-- No variable exists at the start. -/
def start : World R := fun _ => none

theorem zeros_read [Zero R] (N i : Nat) (h : i < N) : (zeros N : Buf R).read i = .ok 0 := by
  rw [Buf.read_ok]; simp [zeros, h]

theorem copyN_ok {N : Nat} {a b : Buf R} {f : Nat → R} (ha : ∀ i, i < N → a.read i = .ok (f i)) (hb : b.length = N) :
    ∃ c, copyN N a b = .ok c ∧ c.length = N ∧ ∀ i, i < N → c.read i = .ok (f i) := by
  have := Sat.loop (n := N) (f := fun i b => do let v ← a.read i; b.write i v) (s := b)
    (I := fun k c => c.length = N ∧ ∀ i, i < k → c.read i = .ok (f i)) ⟨hb, fun i hi => by omega⟩ (by
      intro k c hk hc
      have hw := Buf.write_ok (b := c) (i := k) (v := f k) (by omega)
      refine Sat.of_eq (a := c.set k (some (f k))) (by rw [ha k hk, bind_ok', hw]) ⟨by simp [hc.1], ?_⟩
      intro i hi
      have hr := Buf.read_set (b := c) (i := k) (j := i) (v := f k) (by omega)
      rw [hr]
      by_cases e : i = k
      · simp [e]
      · have e' : ¬ (k = i) := fun h => e h.symm
        simp only [e', if_false]
        exact hc.2 i (by omega))
  obtain ⟨c, e, h1, h2⟩ := this
  exact ⟨c, e, h1, h2⟩

theorem fillList_ok {N : Nat} (vs : List R) (k : Nat) (b : Buf R) (hb : b.length = N) (hk : k + vs.length ≤ N) (f : Nat → R)
    (hf : ∀ i, i < N → b.read i = .ok (f i)) :
    ∃ c, fillList k vs b = .ok c ∧ c.length = N ∧
      ∀ i, i < N → c.read i = .ok (if k ≤ i ∧ i < k + vs.length then vs.getD (i - k) (f i) else f i) := by
  induction vs generalizing k b f with
  | nil =>
    refine ⟨b, rfl, hb, fun i hi => ?_⟩
    rw [if_neg (by simp only [List.length_nil]; omega)]; exact hf i hi
  | cons v vs ih =>
    simp only [List.length_cons] at hk
    have hw := Buf.write_ok (b := b) (i := k) (v := v) (by omega)
    obtain ⟨c, e, h1, h2⟩ := ih (k+1) (b.set k (some v)) (by simp [hb]) (by omega) (fun j => if j = k then v else f j) (by
      intro i hi
      rw [Buf.read_set (by omega)]
      by_cases e : i = k
      · simp [e]
      · have e' : ¬ (k = i) := fun h => e h.symm
        simp only [e, e', if_false]; exact hf i hi)
    refine ⟨c, by rw [fillList, hw, bind_ok', e], h1, fun i hi => ?_⟩
    rw [h2 i hi]
    congr 1
    simp only [List.length_cons]
    by_cases e1 : i = k
    · subst e1
      rw [if_neg (by omega), if_pos rfl, if_pos (by omega)]; simp
    · by_cases e2 : k + 1 ≤ i ∧ i < k + 1 + vs.length
      · rw [if_pos e2, if_neg e1, if_pos (show k ≤ i ∧ i < k + (vs.length + 1) by omega)]
        have : i - k = (i - (k+1)) + 1 := by omega
        rw [this, List.getD_cons_succ]
      · rw [if_neg e2, if_neg e1, if_neg (by omega)]

theorem agrees_update {N : Nat} {w : World R} {E : Env R} (h : Agrees N w E) (x : Nat) {b : Buf R} {f : Nat → R}
    (hb : b.length = N) (hf : ∀ i, i < N → b.read i = .ok (f i)) :
    Agrees N (Function.update w x (some b)) (Function.update E x (some f)) := by
  intro z
  by_cases e : z = x
  · subst e; simp only [Function.update_self]; exact ⟨b, rfl, hb, hf⟩
  · simp only [Function.update_of_ne e]; exact h z

theorem agrees_some {N : Nat} {w : World R} {E : Env R} (h : Agrees N w E) {x : Nat} {f : Nat → R} (e : E x = some f) :
    ∃ b, w x = some b ∧ b.length = N ∧ ∀ i, i < N → b.read i = .ok (f i) := by
  have := h x
  rw [e] at this; exact this

theorem agrees_none {N : Nat} {w : World R} {E : Env R} (h : Agrees N w E) {x : Nat} (e : ¬ (E x).isSome) : w x = none := by
  have := h x
  cases e' : E x with
  | none => rw [e'] at this; exact this
  | some f => simp [e'] at e

/-- Statements other than assignment (any class), and assignment for storages on the stack. -/
def Plain : Op R → Prop
  | .assign x y => x = y
  | _ => True

theorem step_ok [Zero R] (K : Class) (N : Nat) {w : World R} {E E' : Env R} (h : Agrees N w E) (o : Op R)
    (hK : K = .stack ∨ Plain o) (e : specStep N E o = some E') : ∃ w', step K N w o = .ok w' ∧ Agrees N w' E' := by
  cases o with
  | dflt x =>
    simp only [specStep] at e
    split at e
    · cases e
    · rename_i hx
      cases e
      refine ⟨_, by rw [step, put, agrees_none h hx], agrees_update h x (by simp [zeros]) (fun i hi => zeros_read N i hi)⟩
  | ofList x vs =>
    simp only [specStep] at e
    split at e
    · cases e
    · rename_i hx
      cases e
      obtain ⟨hx1, hx2⟩ := not_or.mp hx
      obtain ⟨c, e1, h1, h2⟩ := fillList_ok vs 0 (zeros N) (by simp [zeros]) (by omega) (fun _ => 0) (fun i hi => zeros_read N i hi)
      refine ⟨_, by rw [step, e1, bind_ok', put, agrees_none h hx1], agrees_update h x h1 (fun i hi => ?_)⟩
      rw [h2 i hi]
      congr 1
      by_cases hl : i < vs.length
      · rw [if_pos (by omega)]; rfl
      · rw [if_neg (by omega)]
        simp only [List.getD]
        rw [List.getElem?_eq_none (by omega)]; rfl
  | copy x y =>
    simp only [specStep] at e
    split at e
    · rename_i f hy
      split at e
      · cases e
      · rename_i hx
        cases e
        obtain ⟨b, e1, h1, h2⟩ := agrees_some h hy
        obtain ⟨c, e2, h3, h4⟩ := copyN_ok (b := zeros N) h2 (by simp [zeros])
        refine ⟨_, ?_, agrees_update h x h3 h4⟩
        rw [step, get, e1]
        simp only [bind_ok']
        rw [e2, bind_ok', put, agrees_none h hx]
    · cases e
  | assign x y =>
    simp only [specStep] at e
    split at e
    · rename_i g f hx hy
      cases e
      obtain ⟨a, e0, h0, h0'⟩ := agrees_some h hx
      obtain ⟨b, e1, h1, h2⟩ := agrees_some h hy
      obtain ⟨c, e2, h3, h4⟩ := copyN_ok h2 h0
      have self : x = y → Agrees N w (Function.update E x (some f)) := by
        rintro rfl
        have : Function.update E x (some f) = E := by rw [← hy]; exact Function.update_eq_self x E
        rw [this]; exact h
      simp only [step, get, e0, e1, bind_ok']
      cases K with
      | stack =>
        by_cases hxy : x = y
        · refine ⟨w, ?_, self hxy⟩
          simp [hxy]
        · refine ⟨Function.update w x (some c), ?_, agrees_update h x h3 h4⟩
          simp only [hxy, if_false, e2, bind_ok', pure_ok']
      | sparse =>
        rcases hK with hK | hK
        · cases hK
        · have hxy : x = y := hK
          refine ⟨Function.update w x (some c), ?_, agrees_update h x h3 h4⟩
          simp only [hxy, if_true, e2, bind_ok', pure_ok']
    · cases e
  | write x i v =>
    simp only [specStep] at e
    split at e
    · rename_i f hx
      split at e
      · rename_i hi
        cases e
        obtain ⟨a, e0, h0, h0'⟩ := agrees_some h hx
        have hw := Buf.write_ok (b := a) (i := i) (v := v) (by omega)
        refine ⟨Function.update w x (some (a.set i (some v))), by simp only [step, get, e0, bind_ok', hw, pure_ok'],
          agrees_update h x (by simp [h0]) (fun j hj => ?_)⟩
        rw [Buf.read_set (by omega)]
        by_cases e : j = i
        · simp [e]
        · have e' : ¬ (i = j) := fun h => e h.symm
          simp only [e, e', if_false]; exact h0' j hj
      · cases e
    · cases e
  | dtor x =>
    simp only [specStep] at e
    split at e
    · rename_i hx
      cases e
      obtain ⟨f, hf⟩ := Option.isSome_iff_exists.mp hx
      obtain ⟨a, e0, -⟩ := agrees_some h hf
      refine ⟨Function.update w x none, by simp only [step, get, e0, bind_ok', pure_ok'], ?_⟩
      intro z
      by_cases e : z = x
      · subst e; simp
      · simp only [Function.update_of_ne e]; exact h z
    · cases e

theorem run_ok [Zero R] (K : Class) (N : Nat) (os : List (Op R)) {w : World R} {E E' : Env R} (h : Agrees N w E)
    (hK : K = .stack ∨ ∀ o ∈ os, Plain o) (e : specRun N os E = some E') : ∃ w', run K N os w = .ok w' ∧ Agrees N w' E' := by
  induction os generalizing w E with
  | nil => cases e; exact ⟨w, rfl, h⟩
  | cons o os ih =>
    simp only [specRun, Option.bind_eq_some_iff] at e
    obtain ⟨E1, e1, e2⟩ := e
    obtain ⟨w1, h1, h2⟩ := step_ok K N h o (hK.imp (fun h => h) (fun h => h o (by simp))) e1
    obtain ⟨w2, h3, h4⟩ := ih h2 (hK.imp (fun h => h) (fun h o' ho => h o' (by simp [ho]))) e2
    exact ⟨w2, by rw [run, h1, bind_ok', h3], h4⟩

/-- C108, part that holds: every program over storages on the stack whose lists are no longer than the storage runs without
fault, and afterwards every variable holds the numbers the specification says. -/
theorem C108_stack_programs_partial [Zero R] (N : Nat) (os : List (Op R)) (E : Env R)
    (h : specRun N os (fun _ => none) = some E) : ∃ w, run .stack N os start = .ok w ∧ Agrees N w E :=
  run_ok .stack N os (fun _ => rfl) (.inl rfl) h

/-- C108, part that holds: the same for fixed-size sparse storages, for programs that assign no variable to another. -/
theorem C108_sparse_programs_partial [Zero R] (N : Nat) (os : List (Op R)) (hp : ∀ o ∈ os, Plain o) (E : Env R)
    (h : specRun N os (fun _ => none) = some E) : ∃ w, run .sparse N os start = .ok w ∧ Agrees N w E :=
  run_ok .sparse N os (fun _ => rfl) (.inr hp) h

/-- C108 is false of fixed-size sparse storages: assigning another storage changes nothing, whatever the two hold. -/
theorem C108_sparse_assignment_is_ignored [Zero R] (N : Nat) (w : World R) (x y : Nat) (hxy : x ≠ y) (a b : Buf R)
    (hx : w x = some a) (hy : w y = some b) : step .sparse N w (.assign x y) = .ok w := by
  simp [step, get, hx, hy, hxy]

/-- The program `x; y; y[0] = 1; x = y` for which that is wrong. -/
theorem C108_sparse_assignment_is_wrong :
    ∃ (os : List (Op Nat)) (E : Env Nat) (w : World Nat), specRun 2 os (fun _ => none) = some E ∧
      run .sparse 2 os start = .ok w ∧ ¬ Agrees 2 w E := by
  refine ⟨[.dflt 0, .dflt 1, .write 1 0 1, .assign 0 1], _, _, rfl, rfl, ?_⟩
  intro h
  have := h 0
  obtain ⟨b, hb, -, hr⟩ := this
  have h0 := hr 0 (by decide)
  have : b = [some 0, some 0] := by
    have hb' : (some [some 0, some 0] : Option (Buf Nat)) = some b := hb
    exact (Option.some.inj hb').symm
  subst this
  simp [Buf.read] at h0

theorem fillList_overflow (vs : List R) (k : Nat) (b : Buf R) (h : b.length < k + vs.length) (hk : k ≤ b.length) :
    fillList k vs b = .error .ub := by
  induction vs generalizing k b with
  | nil => simp at h; omega
  | cons v vs ih =>
    simp only [List.length_cons] at h
    by_cases hk' : k < b.length
    · rw [fillList, Buf.write_ok hk', bind_ok']
      exact ih (k+1) _ (by simp; omega) (by simp; omega)
    · rw [fillList, Buf.write, if_neg hk']; rfl

/-- C108 is false of lists that are too long: nothing is reported, the constructor writes beyond the array. -/
theorem C108_long_list_writes_beyond [Zero R] (K : Class) (N : Nat) (w : World R) (x : Nat) (vs : List R) (h : N < vs.length) :
    step K N w (.ofList x vs) = .error .ub := by
  rw [step, fillList_overflow vs 0 (zeros N) (by simp [zeros]; omega) (by omega)]; rfl

/-- C108, `==` is false of the code: two storages compare equal only when they are the same object, so a copy is never equal
to its source. -/
theorem C108_copy_is_not_equal [Zero R] (K : Class) (N : Nat) (w w' : World R) (x y : Nat)
    (h : step K N w (.copy x y) = .ok w') : opEq x y = false := by
  have : x ≠ y := by
    rintro rfl
    simp only [step, get] at h
    cases hw : w x with
    | none => simp [hw] at h
    | some b =>
      simp only [hw, bind_ok'] at h
      cases hc : copyN N b (zeros N) with
      | error f => rw [hc] at h; cases h
      | ok c => rw [hc, bind_ok', put, hw] at h; cases h
  simp [opEq, this]

theorem equalLoop_ok (close : R → R → Bool) (n k : Nat) (a b : Buf R) (f g : Nat → R)
    (ha : ∀ i, i < k + n → a.read i = .ok (f i)) (hb : ∀ i, i < k + n → b.read i = .ok (g i)) :
    ∃ r, equalLoop close n a b k = .ok r ∧ (r = true ↔ ∀ i, k ≤ i → i < k + n → close (f i) (g i) = true) := by
  induction n generalizing k with
  | zero => exact ⟨true, rfl, by simp; intro i h1 h2; omega⟩
  | succ n ih =>
    rw [equalLoop, ha k (by omega), bind_ok', hb k (by omega), bind_ok']
    by_cases hc : close (f k) (g k) = true
    · rw [if_pos hc]
      obtain ⟨r, e, hr⟩ := ih (k+1) (fun i hi => ha i (by omega)) (fun i hi => hb i (by omega))
      refine ⟨r, e, hr.trans ⟨fun h i h1 h2 => ?_, fun h i h1 h2 => h i (by omega) (by omega)⟩⟩
      by_cases e : i = k
      · rw [e]; exact hc
      · exact h i (by omega) (by omega)
    · rw [if_neg hc]
      exact ⟨false, rfl, by simp; exact ⟨k, le_refl _, by omega, by simpa using hc⟩⟩

/-- C108, `equal`: true exactly when the sizes agree and all elements are equal within numerical accuracy. -/
theorem C108_equal (close : R → R → Bool) (N N' : Nat) (a b : Buf R) (f g : Nat → R)
    (ha : ∀ i, i < N → a.read i = .ok (f i)) (hb : ∀ i, i < N' → b.read i = .ok (g i)) :
    ∃ r, equal close N N' a b = .ok r ∧ (r = true ↔ N = N' ∧ ∀ i, i < N → close (f i) (g i) = true) := by
  by_cases h : N = N'
  · subst h
    obtain ⟨r, e, hr⟩ := equalLoop_ok close N 0 a b f g (by simpa using ha) (by simpa using hb)
    refine ⟨r, by rw [equal, if_neg (by simp), e], ?_⟩
    rw [hr]; simp
  · exact ⟨false, by rw [equal, if_pos h], by simp [h]⟩

/-- C108, matrices declared `OnStack` have no room for their elements: every element access of such a matrix is out of
bounds. -/
theorem C108_on_stack_matrix_has_no_room [Zero R] (o : Ori) (r c i j : Nat) (hi : i < r) (hj : j < c) (x : R) :
    (View.plain o r c).set (stackMatrix (r * c)) i j x = .error .ub ∧
    (View.plain o r c).get (stackMatrix (r * c) : Buf R) i j = .error .ub := by
  constructor
  · rw [View.set_eq (by simpa [View.plain] using hi) (by simpa [View.plain] using hj)]
    simp [stackMatrix, zeros, Buf.write]
  · rw [View.get_eq (by simpa [View.plain] using hi) (by simpa [View.plain] using hj)]
    simp [stackMatrix, zeros, Buf.read]

/-- The hypotheses are met by a program with every kind of statement. -/
example : ∃ E, specRun 3 [.ofList 0 [4, 5], .copy 1 0, .write 0 2 (7 : Nat), .dflt 2, .assign 2 0, .assign 2 2, .dtor 0] (fun _ => none)
    = some E ∧ (E 2).map (fun f => [f 0, f 1, f 2]) = some [4, 5, 7] ∧ (E 1).map (fun f => [f 0, f 1, f 2]) = some [4, 5, 0] :=
  ⟨_, rfl, rfl, rfl⟩

end BB.InPlace
