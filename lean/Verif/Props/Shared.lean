import Verif.Model.Shared
import Verif.Lemmas.Blocked
import Verif.Props.Mat

/-! C73: blocked matrices as values; C74: moving blocked matrices. -/

namespace BB.Shared

variable {R : Type}

/-! ### Specification: a machine without pointers -/

/-- `A += B` block by block on values. -/
def valAddAssign [Add R] (A B : Blocked R) : Res (Blocked R) := do
  let d ← loopN A.grid.data.length (fun p (d : Buf (Mat R)) => do
    let a ← d.read p
    let b ← B.grid.data.read p
    let M ← Mat.addAssign a b
    return d.set p (some M)) A.grid.data
  return { A with grid := { A.grid with data := d } }

/-- The statements on variables that hold blocked matrices themselves instead of pointers. -/
def valStep [Zero R] [Add R] [Mul R] [DecidableEq R] (v : Nat → Blocked R) : Op R → Res (Nat → Blocked R)
  | .copy dst a => .ok (Function.update v dst (v a))
  | .fresh dst B => .ok (Function.update v dst B)
  | .mul dst a b => do return Function.update v dst (← Blocked.mul (v a) (v b))
  | .addAssign a b => do return Function.update v a (← valAddAssign (v a) (v b))

def valExec [Zero R] [Add R] [Mul R] [DecidableEq R] (v : Nat → Blocked R) : List (Op R) → Res (Nat → Blocked R)
  | [] => .ok v
  | o :: os => do valExec (← valStep v o) os

/-- The values of all variables. -/
def values (s : State R) (v : Nat) : Blocked R := load s.heap (s.vars v)

/-- The pointers of a handle. -/
def Handle.ids (V : Handle) : List Nat := V.grid.data.filterMap id

/-- Nothing is shared: pointers are valid, each matrix uses each block once, different variables use different
blocks. -/
structure Unshared (s : State R) : Prop where
  valid : ∀ v, ∀ id ∈ (s.vars v).ids, id < s.heap.length
  nodup : ∀ v, (s.vars v).ids.Nodup
  disjoint : ∀ v w, v ≠ w → ∀ id, id ∈ (s.vars v).ids → id ∉ (s.vars w).ids

/-- A program that neither copies blocked matrices nor adds one to itself. -/
def NoSharing : List (Op R) → Prop
  | [] => True
  | .copy _ _ :: _ => False
  | .addAssign a b :: os => a ≠ b ∧ NoSharing os
  | _ :: os => NoSharing os

/-! ### Lemmas -/

theorem load_congr {h h' : Heap R} {V : Handle} (e : ∀ id ∈ V.ids, h'[id]? = h[id]?) : load h' V = load h V := by
  unfold load
  congr 2
  refine List.map_congr_left fun c hc => ?_
  cases c with
  | none => rfl
  | some id => exact e id (List.mem_filterMap.2 ⟨some id, hc, rfl⟩)

theorem number_ids {α : Type} (off : Nat) (l : List (Option α)) :
    (number off l).filterMap id = List.range' off (l.filterMap id).length := by
  induction l generalizing off with
  | nil => rfl
  | cons c t ih =>
    cases c with
    | none => simpa [number] using ih off
    | some x => simpa [number, List.range'_succ] using ih (off + 1)

theorem number_load (pre : Heap R) (l : List (Option (Mat R))) :
    (number pre.length l).map (fun c => c.bind (fun a => (pre ++ l.filterMap id)[a]?)) = l := by
  induction l generalizing pre with
  | nil => rfl
  | cons c t ih =>
    cases c with
    | none => simpa [number] using ih pre
    | some M =>
      have := ih (pre ++ [M])
      simp only [List.length_append, List.length_cons, List.length_nil, Nat.zero_add, List.append_assoc, List.cons_append,
        List.nil_append] at this
      simp only [number, List.filterMap_cons_some (f := id) rfl, List.map_cons, Option.bind_some]
      rw [this]
      simp

theorem load_store (h : Heap R) (B : Blocked R) : load (store h B).1 (store h B).2 = B := by
  unfold load store
  simp only [number_load]

theorem store_ids (h : Heap R) (B : Blocked R) :
    (store h B).2.ids = List.range' h.length (B.grid.data.filterMap id).length := number_ids _ _

theorem unshared_store {s : State R} (hs : Unshared s) (dst : Nat) (B : Blocked R) :
    Unshared (⟨(store s.heap B).1, Function.update s.vars dst (store s.heap B).2⟩ : State R) ∧
    values (⟨(store s.heap B).1, Function.update s.vars dst (store s.heap B).2⟩ : State R) = Function.update (values s) dst B := by
  have hlen : (store s.heap B).1.length = s.heap.length + (B.grid.data.filterMap id).length := by
    simp [store]
  have hnew : ∀ id ∈ (store s.heap B).2.ids, s.heap.length ≤ id ∧ id < (store s.heap B).1.length := by
    intro id hid
    rw [store_ids, List.mem_range'_1] at hid
    rw [hlen]; exact hid
  refine ⟨⟨?_, ?_, ?_⟩, ?_⟩
  · intro v id hid
    by_cases e : v = dst
    · subst e
      simp only [Function.update_self] at hid
      exact (hnew id hid).2
    · simp only [Function.update_of_ne e] at hid
      have := hs.valid v id hid
      show id < (store s.heap B).1.length
      rw [hlen]; omega
  · intro v
    by_cases e : v = dst
    · subst e
      simp only [Function.update_self]
      rw [store_ids]
      exact List.nodup_range'
    · simp only [Function.update_of_ne e]
      exact hs.nodup v
  · intro v w hvw id h1 h2
    by_cases e : v = dst
    · subst e
      simp only [Function.update_self] at h1
      simp only [Function.update_of_ne (Ne.symm hvw)] at h2
      have := hs.valid w id h2
      have := (hnew id h1).1
      omega
    · simp only [Function.update_of_ne e] at h1
      by_cases e' : w = dst
      · subst e'
        simp only [Function.update_self] at h2
        have := hs.valid v id h1
        have := (hnew id h2).1
        omega
      · simp only [Function.update_of_ne e'] at h2
        exact hs.disjoint v w hvw id h1 h2
  · funext v
    by_cases e : v = dst
    · subst e
      simp only [values, Function.update_self, load_store]
    · simp only [values, Function.update_of_ne e]
      refine load_congr fun id hid => ?_
      have := hs.valid v id hid
      simp only [store]
      rw [List.getElem?_append_left this]

theorem loopN_rel {σ τ : Type} {n : Nat} {f : Nat → σ → Res σ} {g : Nat → τ → Res τ} (Q : Nat → σ → τ → Prop)
    (step : ∀ i s t, i < n → Q i s t → (∃ e, f i s = .error e ∧ g i t = .error e) ∨ ∃ s' t', f i s = .ok s' ∧ g i t = .ok t' ∧ Q (i+1) s' t')
    {s : σ} {t : τ} (h0 : Q 0 s t) :
    (∃ e, loopN n f s = .error e ∧ loopN n g t = .error e) ∨ ∃ s' t', loopN n f s = .ok s' ∧ loopN n g t = .ok t' ∧ Q n s' t' := by
  induction n with
  | zero => exact .inr ⟨s, t, rfl, rfl, h0⟩
  | succ n ih =>
    rcases ih (fun i s t hi => step i s t (by omega)) with ⟨e, h1, h2⟩ | ⟨s', t', h1, h2, hQ⟩
    · exact .inl ⟨e, by rw [loopN, h1]; rfl, by rw [loopN, h2]; rfl⟩
    · rw [loopN, h1, loopN, h2]
      exact step n s' t' (by omega) hQ

theorem ids_getElem {V : Handle} {p a : Nat} (h : V.grid.data[p]? = some (some a)) : a ∈ V.ids :=
  List.mem_filterMap.2 ⟨some a, List.mem_of_getElem? h, rfl⟩

/-- Two positions of a matrix without repeated blocks hold different blocks. -/
theorem pos_inj_of_nodup {l : List (Option Nat)} (hn : (l.filterMap id).Nodup) {p q a : Nat}
    (h1 : l[p]? = some (some a)) (h2 : l[q]? = some (some a)) : p = q := by
  induction l generalizing p q with
  | nil => simp at h1
  | cons c t ih =>
    have key : ∀ k, t[k]? = some (some a) → a ∈ t.filterMap id := fun k hk => List.mem_filterMap.2 ⟨some a, List.mem_of_getElem? hk, rfl⟩
    have ht : (t.filterMap id).Nodup := by
      cases c with
      | none => simpa using hn
      | some x => simp at hn; exact hn.2
    cases p with
    | zero =>
      simp at h1
      subst h1
      cases q with
      | zero => rfl
      | succ q =>
        simp at h2
        rw [List.filterMap_cons_some (f := id) rfl, List.nodup_cons] at hn
        exact absurd (key q h2) hn.1
    | succ p =>
      simp at h1
      cases q with
      | zero =>
        simp at h2
        subst h2
        rw [List.filterMap_cons_some (f := id) rfl, List.nodup_cons] at hn
        exact absurd (key p h1) hn.1
      | succ q =>
        simp at h2
        rw [ih ht h1 h2]

/-- `A += B` with distinct blocks acts like the value operation. -/
theorem addAssign_rel [Add R] {h : Heap R} {A B : Handle} (hv : ∀ id ∈ A.ids, id < h.length) (hn : A.ids.Nodup)
    (hd : ∀ id, id ∈ A.ids → id ∉ B.ids) :
    (∃ e, addAssign h A B = .error e ∧ valAddAssign (load h A) (load h B) = .error e) ∨
    ∃ h' C, addAssign h A B = .ok h' ∧ valAddAssign (load h A) (load h B) = .ok C ∧ load h' A = C ∧
      h'.length = h.length ∧ ∀ id, id ∉ A.ids → h'[id]? = h[id]? := by
  have hlen : (load h A).grid.data.length = A.grid.data.length := by simp [load]
  have key := loopN_rel (n := A.grid.data.length) (f := addAssignStep A B)
    (g := fun p (d : Buf (Mat R)) => do
      let a ← d.read p
      let b ← (load h B).grid.data.read p
      let M ← Mat.addAssign a b
      return d.set p (some M))
    (fun i (s : Nat × Heap R) (d : Buf (Mat R)) => s.1 = i ∧ d = (load s.2 A).grid.data ∧ s.2.length = h.length ∧
      ∀ id, id ∉ A.ids → s.2[id]? = h[id]?) ?_ (s := (0, h)) (t := (load h A).grid.data) ⟨rfl, rfl, rfl, fun _ _ => rfl⟩
  · unfold addAssign valAddAssign
    rw [hlen, rawLoop]
    rcases key with ⟨e, h1, h2⟩ | ⟨⟨q, h'⟩, d, h1, h2, -, hd', hl', ho'⟩
    · refine .inl ⟨e, ?_, ?_⟩
      · rw [h1]; rfl
      · rw [h2]; rfl
    · refine .inr ⟨h', _, ?_, ?_, rfl, hl', ho'⟩
      · rw [h1]; rfl
      · rw [h2, hd']; rfl
  · rintro i ⟨q, k⟩ d hi ⟨rfl, rfl, hl, ho⟩
    simp only at hi hl ho ⊢
    have ha := List.getElem?_eq_getElem hi
    have hload : (load k A).grid.data[q]? = some ((A.grid.data[q]).bind (fun id => k[id]?)) := by
      simp [load, ha]
    have hBsame : load k B = load h B := load_congr (V := B) fun id hid => ho id (fun hA => hd id hA hid)
    have hloadB : (load h B).grid.data[q]? = (B.grid.data[q]?).map (fun c => c.bind (fun id => h[id]?)) := by
      simp [load]
    cases hca : A.grid.data[q] with
    | none =>
      left
      refine ⟨.ub, ?_, ?_⟩
      · simp only [addAssignStep, Buf.read, ha, hca]; rfl
      · rw [hca] at hload
        simp only [Buf.read, hload]; rfl
    | some a =>
      rw [hca] at ha hload
      have haid : a ∈ A.ids := ids_getElem ha
      have hak : a < k.length := by rw [hl]; exact hv a haid
      have hka := List.getElem?_eq_getElem hak
      simp only [Option.bind_some, hka] at hload
      cases hcb : B.grid.data[q]? with
      | none =>
        left
        rw [hcb] at hloadB
        simp only [Option.map_none] at hloadB
        refine ⟨.ub, ?_, ?_⟩
        · simp only [addAssignStep, Buf.read, ha, hcb]; rfl
        · simp only [Buf.read, hload, hloadB]; rfl
      | some cb =>
        rw [hcb] at hloadB
        simp only [Option.map_some] at hloadB
        cases cb with
        | none =>
          left
          simp only [Option.bind_none] at hloadB
          refine ⟨.ub, ?_, ?_⟩
          · simp only [addAssignStep, Buf.read, ha, hcb]; rfl
          · simp only [Buf.read, hload, hloadB]; rfl
        | some b =>
          have hbid : b ∈ B.ids := ids_getElem hcb
          have hab : a ≠ b := fun e => hd a haid (e ▸ hbid)
          have hkb : k[b]? = h[b]? := ho b (fun hA => hd b hA hbid)
          simp only [Option.bind_some] at hloadB
          cases hhb : h[b]? with
          | none =>
            left
            rw [hhb] at hloadB hkb
            refine ⟨.ub, ?_, ?_⟩
            · simp only [addAssignStep, Buf.read, ha, hcb, bind_ok', addAssignPtr, hka, hkb]; rfl
            · simp only [Buf.read, hload, hloadB]; rfl
          | some Mb =>
            rw [hhb] at hloadB hkb
            cases hM : Mat.addAssign k[a] Mb with
            | error e =>
              left
              refine ⟨e, ?_, ?_⟩
              · simp only [addAssignStep, Buf.read, ha, hcb, bind_ok', addAssignPtr, hka, hkb, if_neg hab, hM]; rfl
              · simp only [Buf.read, hload, hloadB, bind_ok', hM]; rfl
            | ok M =>
              right
              refine ⟨(q + 1, k.set a M), _, ?_, ?_, rfl, rfl, ?_, ?_⟩
              · simp only [addAssignStep, Buf.read, ha, hcb, bind_ok', addAssignPtr, hka, hkb, if_neg hab, hM]; rfl
              · simp only [Buf.read, hload, hloadB, bind_ok', hM, pure_ok', Except.ok.injEq]
                apply List.ext_getElem?
                intro p
                rw [List.getElem?_set]
                by_cases e : q = p
                · subst e
                  rw [if_pos rfl, if_pos (by simp only [load, List.length_map]; exact hi)]
                  simp [load, ha, hak]
                · rw [if_neg e]
                  simp only [load, List.getElem?_map]
                  cases hp : A.grid.data[p]? with
                  | none => rfl
                  | some c =>
                    cases c with
                    | none => rfl
                    | some x =>
                      have : a ≠ x := by
                        intro ex
                        subst ex
                        exact e (pos_inj_of_nodup hn ha hp)
                      simp only [Option.map_some, Option.bind_some]
                      rw [List.getElem?_set_ne this]
              · simp only [List.length_set]; exact hl
              · intro id hid
                have : a ≠ id := fun e => hid (e ▸ haid)
                simp only
                rw [List.getElem?_set_ne this]
                exact ho id hid

/-- One statement of a program that does not copy, in a state without sharing. -/
theorem step_rel [Zero R] [Add R] [Mul R] [DecidableEq R] {s : State R} (hs : Unshared s) (o : Op R) (ho : NoSharing [o]) :
    (∃ e, step s o = .error e ∧ valStep (values s) o = .error e) ∨
    ∃ s', step s o = .ok s' ∧ valStep (values s) o = .ok (values s') ∧ Unshared s' := by
  cases o with
  | copy dst a => exact ho.elim
  | fresh dst B =>
    obtain ⟨h1, h2⟩ := unshared_store hs dst B
    exact .inr ⟨_, rfl, by rw [h2]; rfl, h1⟩
  | mul dst a b =>
    cases e : Blocked.mul (load s.heap (s.vars a)) (load s.heap (s.vars b)) with
    | error x => exact .inl ⟨x, by simp only [step, e]; rfl, by simp only [valStep, values, e]; rfl⟩
    | ok C =>
      obtain ⟨h1, h2⟩ := unshared_store hs dst C
      exact .inr ⟨_, by simp only [step, e]; rfl, by rw [h2]; simp only [valStep, values, e]; rfl, h1⟩
  | addAssign a b =>
    have hab : a ≠ b := ho.1
    rcases addAssign_rel (hs.valid a) (hs.nodup a) (hs.disjoint a b hab) with ⟨e, h1, h2⟩ | ⟨h', C, h1, h2, h3, h4, h5⟩
    · exact .inl ⟨e, by simp only [step, h1]; rfl, by simp only [valStep, values, h2]; rfl⟩
    · refine .inr ⟨⟨h', s.vars⟩, by simp only [step, h1]; rfl, ?_, ⟨?_, hs.nodup, hs.disjoint⟩⟩
      · simp only [valStep, values, h2, bind_ok', pure_ok', Except.ok.injEq]
        funext v
        by_cases e : v = a
        · subst e; rw [Function.update_self]; exact h3.symm
        · rw [Function.update_of_ne e]
          refine (load_congr fun id hid => h5 id fun hA => ?_).symm
          exact hs.disjoint v a e id hid hA
      · intro v id hid
        show id < h'.length
        rw [h4]; exact hs.valid v id hid

/-- C73: a program that makes its blocked matrices with the generator, by multiplication and in-place addition,
but never copies a blocked matrix (nor adds one to itself), behaves exactly as if the variables held the matrices
themselves, whatever its length: same faults, same final values of all variables. -/
theorem C73_history_partial [Zero R] [Add R] [Mul R] [DecidableEq R] (os : List (Op R)) (hos : NoSharing os) (s : State R)
    (hs : Unshared s) : (exec s os).map values = valExec (values s) os := by
  induction os generalizing s with
  | nil => rfl
  | cons o os ih =>
    have h1 : NoSharing [o] := by
      cases o with
      | copy => exact hos.elim
      | addAssign a b => exact ⟨hos.1, trivial⟩
      | _ => trivial
    have h2 : NoSharing os := by
      cases o with
      | copy => exact hos.elim
      | addAssign a b => exact hos.2
      | fresh => exact hos
      | mul => exact hos
    rcases step_rel hs o h1 with ⟨e, a, b⟩ | ⟨s', a, b, hs'⟩
    · simp only [exec, valExec, a, b]; rfl
    · simp only [exec, valExec, a, b, bind_ok']
      exact ih h2 s' hs'

/-- The state at the start of a program: nothing allocated, all variables empty. -/
def init : State R := ⟨[], fun _ => ⟨⟨.col, Dim.mk' 0 0, []⟩, 0, 0⟩⟩

theorem init_unshared : Unshared (init : State R) :=
  ⟨fun _ _ h => (nomatch h), fun _ => List.nodup_nil, fun _ _ _ _ h => (nomatch h)⟩

/-- C73 is false for programs that copy: `b = a` makes `b` refer to the blocks of `a`, so after `a += c` the
matrix `b` has changed exactly like `a`. -/
theorem C73_copy_is_shared [Zero R] [Add R] [Mul R] [DecidableEq R] (s s' : State R) (a b c : Nat) (hab : b ≠ c)
    (h : exec s [.copy b a, .addAssign a c] = .ok s') : values s' b = values s' a := by
  simp only [exec, step, bind_ok'] at h
  cases e : addAssign s.heap (Function.update s.vars b (s.vars a) a) (Function.update s.vars b (s.vars a) c) with
  | error x => rw [e] at h; cases h
  | ok h' =>
    rw [e] at h
    simp only [bind_ok', pure_ok', Except.ok.injEq] at h
    subst h
    simp only [values, Function.update_self]
    by_cases hba : a = b
    · subst hba; rw [Function.update_self]
    · rw [Function.update_of_ne hba]

/-- One block `(x)`. -/
def oneBlock (x : Int) : Blocked Int :=
  ⟨⟨.col, Dim.mk' 1 1, [some (.one (.dense ⟨.col, Dim.mk' 1 1, [some x]⟩))]⟩, 1, 1⟩

/-- C73, a concrete instance: `a = (1); c = (10); b = a; a += c;` leaves `b = (11)` while values would leave `(1)`. -/
theorem C73_copy_counterexample : ∃ s' v',
    exec init [.fresh 0 (oneBlock 1), .fresh 2 (oneBlock 10), .copy 1 0, .addAssign 0 2] = .ok s' ∧
    valExec (values init) [.fresh 0 (oneBlock 1), .fresh 2 (oneBlock 10), .copy 1 0, .addAssign 0 2] = .ok v' ∧
    values s' 1 = oneBlock 11 ∧ v' 1 = oneBlock 1 := ⟨_, _, rfl, rfl, rfl, rfl⟩

/-- C73, cells that share a block (as the matrices `{{D,Z},{Z,D}}` built from a list do): with one block `D = (1)`
in both cells, `A += B` with `B = (10 20)` adds both numbers to both cells. -/
theorem C73_shared_cells_is_wrong :
    ∃ (h h' : Heap Int) (A B : Handle),
      load h A = ⟨⟨.col, Dim.mk' 1 2, [some (.one (.dense ⟨.col, Dim.mk' 1 1, [some 1]⟩)), some (.one (.dense ⟨.col, Dim.mk' 1 1, [some 1]⟩))]⟩, 1, 2⟩ ∧
      load h B = ⟨⟨.col, Dim.mk' 1 2, [some (.one (.dense ⟨.col, Dim.mk' 1 1, [some 10]⟩)), some (.one (.dense ⟨.col, Dim.mk' 1 1, [some 20]⟩))]⟩, 1, 2⟩ ∧
      addAssign h A B = .ok h' ∧
      load h' A = ⟨⟨.col, Dim.mk' 1 2, [some (.one (.dense ⟨.col, Dim.mk' 1 1, [some 31]⟩)), some (.one (.dense ⟨.col, Dim.mk' 1 1, [some 31]⟩))]⟩, 1, 2⟩ := by
  refine ⟨[.one (.dense ⟨.col, Dim.mk' 1 1, [some 1]⟩), .one (.dense ⟨.col, Dim.mk' 1 1, [some 10]⟩), .one (.dense ⟨.col, Dim.mk' 1 1, [some 20]⟩)], _,
    ⟨⟨.col, Dim.mk' 1 2, [some 0, some 0]⟩, 1, 2⟩, ⟨⟨.col, Dim.mk' 1 2, [some 1, some 2]⟩, 1, 2⟩, rfl, rfl, rfl, rfl⟩

/-- Non-vacuity: a program without copies over real blocks that runs to its end. -/
example : NoSharing [.fresh 0 (oneBlock 2), .fresh 1 (oneBlock 3), .mul 2 0 1, .addAssign 2 0] ∧
    ∃ s', exec (init : State Int) [.fresh 0 (oneBlock 2), .fresh 1 (oneBlock 3), .mul 2 0 1, .addAssign 2 0] = .ok s' ∧
      (∃ M, (values s' 2).grid.data = [some M] ∧ M = .one (.dense ⟨.col, Dim.mk' 1 1, [some 8]⟩)) :=
  ⟨⟨by decide, trivial⟩, _, rfl, _, rfl, rfl⟩

/-- C73, negative: two blocked matrices that share a two-part block X+Y with dense parts, one added to the other: the block becomes
(2X + (Y+2X)) + 2(Y+2X), which is 8X+3Y, not 2X+2Y. -/
theorem C73_shared_two_part_is_wrong [Add R] (h : Heap R) (a : Nat) (X Y : Dense R) (r c : Nat) (f g : Nat → Nat → R) (ha : h[a]? = some (.two (.dense X) (.dense Y)))
    (hX : X.Is r c f) (hY : Y.Is r c g) (ho : X.ori = Y.ori) :
    ∃ D E, addAssignPtr h a a = .ok (h.set a (.two (.dense D) (.dense E))) ∧ D.Is r c (fun i j => (f i j + f i j) + (g i j + (f i j + f i j))) ∧
      E.Is r c (fun i j => (g i j + (f i j + f i j)) + (g i j + (f i j + f i j))) := by
  obtain ⟨D1, e1, o1, d1⟩ := Dense.binassign_sat (· + ·) hX hX rfl
  obtain ⟨E1, e2, o2, d2⟩ := Dense.binassign_sat (· + ·) hY d1 (by rw [o1, ho])
  obtain ⟨D2, e3, o3, d3⟩ := Dense.binassign_sat (· + ·) d1 d2 (by rw [o1, o2, ho])
  obtain ⟨E2, e4, o4, d4⟩ := Dense.binassign_sat (· + ·) d2 d2 rfl
  refine ⟨D2, E2, ?_, d3, d4⟩
  simp only [addAssignPtr, ha, if_true, addAssignSelf, SMat.binassign, e1, e2, e3, e4, bind_ok', pure_ok']

end BB.Shared
