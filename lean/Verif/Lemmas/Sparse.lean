import Verif.Lemmas.DenseFill
import Verif.SpecStored
import Mathlib.Data.Finset.Card

/-! Auxiliary lemmas about sparse matrices: loops over runs, the emission invariant. -/

namespace BB

variable {R : Type}

theorem flatten_getElem? {α : Type} (L : List (List α)) (q t : Nat) (run : List α) (e : α)
    (hq : L[q]? = some run) (ht : run[t]? = some e) : L.flatten[(L.take q).flatten.length + t]? = some e := by
  induction L generalizing q with
  | nil => simp at hq
  | cons l L ih =>
    cases q with
    | zero =>
      simp only [List.getElem?_cons_zero, Option.some.injEq] at hq
      subst hq
      have := (List.getElem?_eq_some_iff.mp ht).1
      simp only [List.take_zero, List.flatten_nil, List.length_nil, Nat.zero_add, List.flatten_cons]
      rw [List.getElem?_append_left this, ht]
    | succ q =>
      simp only [List.getElem?_cons_succ] at hq
      have := ih q hq
      simp only [List.take_succ_cons, List.flatten_cons, List.length_append]
      rw [List.getElem?_append_right (by omega)]
      rw [show l.length + (List.take q L).flatten.length + t - l.length = (List.take q L).flatten.length + t by omega, this]

/-- Position in a flattened list → run and index in the run. -/
theorem flatten_locate {α : Type} (L : List (List α)) (p : Nat) (e : α) (h : L.flatten[p]? = some e) :
    ∃ q run t, L[q]? = some run ∧ run[t]? = some e ∧ p = (L.take q).flatten.length + t := by
  induction L generalizing p with
  | nil => simp at h
  | cons l L ih =>
    by_cases hp : p < l.length
    · refine ⟨0, l, p, by simp, ?_, by simp⟩
      rw [List.flatten_cons, List.getElem?_append_left hp] at h
      exact h
    · rw [List.flatten_cons, List.getElem?_append_right (by omega)] at h
      obtain ⟨q, run, t, h1, h2, h3⟩ := ih _ h
      refine ⟨q + 1, run, t, by simpa using h1, h2, ?_⟩
      simp only [List.take_succ_cons, List.flatten_cons, List.length_append]
      omega

theorem take_succ_flatten_length {α : Type} (L : List (List α)) (q : Nat) (run : List α) (hq : L[q]? = some run) :
    (L.take (q+1)).flatten.length = (L.take q).flatten.length + run.length := by
  rw [List.take_add_one, hq]
  simp

theorem Sat.forRuns {σ : Type} {S : Sparse R} {r c : Nat} {L : List (List (Nat × R))} (h : S.Valid r c L)
    {body : Nat → σ → Res σ} {s : σ} (I : Nat → σ → Prop) (h0 : I 0 s)
    (hs : ∀ q run s, L[q]? = some run → I q s → Sat (body q s) (I (q+1))) :
    Sat (S.forRuns body s) (I L.length) := by
  unfold Sparse.forRuns
  rw [if_neg (by rw [h.offsLen]; omega), h.offsLen, Nat.add_sub_cancel]
  refine Sat.raw I h0 ?_
  intro q s hq hI
  exact hs q _ s (List.getElem?_eq_getElem hq) hI

theorem Sparse.Valid.readOff {S : Sparse R} {r c : Nat} {L : List (List (Nat × R))} (h : S.Valid r c L)
    {q : Nat} (hq : q ≤ L.length) : S.offset.read q = .ok (L.take q).flatten.length :=
  Buf.read_ok.mpr (h.offs q hq)

theorem Sparse.Valid.readKey {S : Sparse R} {r c : Nat} {L : List (List (Nat × R))} (h : S.Valid r c L)
    {q t : Nat} {run : List (Nat × R)} {e : Nat × R} (hq : L[q]? = some run) (ht : run[t]? = some e) :
    S.key.read ((L.take q).flatten.length + t) = .ok e.1 ∧ S.value.read ((L.take q).flatten.length + t) = .ok e.2 := by
  have := h.cells _ _ (flatten_getElem? L q t run e hq ht)
  exact ⟨Buf.read_ok.mpr this.1, Buf.read_ok.mpr this.2⟩

/-- Loop over consecutive positions that hold the elements of a list. -/
theorem Sat.listLoop {σ α : Type} {b : Nat} {l : List α} {f : Nat → σ → Res σ} {s : σ}
    (I : List α → σ → Prop) (h0 : I [] s)
    (hs : ∀ pre e suf s, l = pre ++ e :: suf → I pre s → Sat (f (b + pre.length) s) (I (pre ++ [e]))) :
    Sat (ptrLoop b (b + l.length) 1 f s) (I l) := by
  rw [ptrLoop_eq f l.length b _ 1 s (by omega) (by omega)]
  have := Sat.loop (n := l.length) (f := fun i => f (b + i * 1)) (s := s) (fun k s => I (l.take k) s) (by simpa using h0) ?_
  · simpa using this
  · intro i s hi hI
    have e : l = l.take i ++ l[i] :: l.drop (i+1) := by
      rw [← List.drop_eq_getElem_cons hi, List.take_append_drop]
    have := hs _ _ _ s e hI
    rw [List.length_take, Nat.min_eq_left (by omega)] at this
    rw [Nat.mul_one]
    have e2 : l.take (i+1) = l.take i ++ [l[i]] := by rw [List.take_add_one, List.getElem?_eq_getElem hi]; rfl
    rw [e2]
    exact this

theorem Sat.forRun {σ : Type} {S : Sparse R} {r c : Nat} {L : List (List (Nat × R))} (h : S.Valid r c L)
    {q : Nat} {run : List (Nat × R)} (hq : L[q]? = some run)
    {body : Nat → R → σ → Res σ} {s : σ} (I : List (Nat × R) → σ → Prop) (h0 : I [] s)
    (hs : ∀ pre e suf s, run = pre ++ e :: suf → I pre s → Sat (body e.1 e.2 s) (I (pre ++ [e]))) :
    Sat (S.forRun q body s) (I run) := by
  have hlt := (List.getElem?_eq_some_iff.mp hq).1
  unfold Sparse.forRun
  refine Sat.read (h.readOff (by omega)) (Sat.read (h.readOff (by omega)) ?_)
  rw [take_succ_flatten_length L q run hq]
  refine Sat.bind (Sat.listLoop (fun pre t => t.1 = (L.take q).flatten.length + pre.length ∧ I pre t.2)
    ⟨by simp, h0⟩ ?_) ?_
  · rintro pre e suf ⟨pv, s⟩ hrun ⟨h1, h2⟩
    simp only at h1 h2
    subst h1
    have ht : run[pre.length]? = some e := by rw [hrun]; simp
    obtain ⟨k1, k2⟩ := h.readKey hq ht
    refine Sat.read k1 (Sat.read k2 ?_)
    refine Sat.bind (hs pre e suf s hrun h2) ?_
    intro s' hs'
    exact Sat.pure ⟨by simp; omega, hs'⟩
  · rintro ⟨pv, s⟩ ⟨-, h2⟩
    exact Sat.pure h2

/-! ### entryAt -/

theorem entryAt_nil [Zero R] (k : Nat) : entryAt ([] : List (Nat × R)) k = 0 := rfl

theorem entryAt_cons [Zero R] (e : Nat × R) (l : List (Nat × R)) (k : Nat) :
    entryAt (e :: l) k = if e.1 = k then e.2 else entryAt l k := by
  unfold entryAt
  by_cases h : e.1 = k
  · simp [h]
  · simp [h]

/-- In a run with increasing keys, appending an entry changes exactly its key. -/
theorem entryAt_append [Zero R] (pre : List (Nat × R)) (e : Nat × R) (k : Nat)
    (h : ∀ a ∈ pre, a.1 < e.1) :
    entryAt (pre ++ [e]) k = if k = e.1 then e.2 else entryAt pre k := by
  induction pre with
  | nil => simp [entryAt_cons, entryAt_nil, eq_comm]
  | cons a pre ih =>
    rw [List.cons_append, entryAt_cons, entryAt_cons, ih (fun b hb => h b (by simp [hb]))]
    have := h a (by simp)
    by_cases h1 : a.1 = k
    · rw [if_pos h1, if_pos h1, if_neg (by omega)]
    · rw [if_neg h1, if_neg h1]

theorem entryAt_not_mem [Zero R] (l : List (Nat × R)) (k : Nat) (h : ∀ a ∈ l, a.1 ≠ k) : entryAt l k = 0 := by
  induction l with
  | nil => rfl
  | cons a l ih =>
    rw [entryAt_cons, if_neg (h a (by simp)), ih (fun b hb => h b (by simp [hb]))]

theorem storedAt_nil (k : Nat) : storedAt ([] : List (Nat × R)) k = none := rfl

theorem storedAt_cons (e : Nat × R) (l : List (Nat × R)) (k : Nat) :
    storedAt (e :: l) k = if e.1 = k then some e.2 else storedAt l k := by
  unfold storedAt
  by_cases h : e.1 = k <;> simp [h]

theorem storedAt_not_mem (l : List (Nat × R)) (k : Nat) (h : ∀ a ∈ l, a.1 ≠ k) : storedAt l k = none := by
  induction l with
  | nil => rfl
  | cons a l ih =>
    rw [storedAt_cons, if_neg (h a (by simp)), ih (fun b hb => h b (by simp [hb]))]

theorem storedAt_append (pre : List (Nat × R)) (e : Nat × R) (k : Nat) (h : ∀ a ∈ pre, a.1 < e.1) :
    storedAt (pre ++ [e]) k = if k = e.1 then some e.2 else storedAt pre k := by
  induction pre with
  | nil => simp [storedAt_cons, storedAt_nil, eq_comm]
  | cons a pre ih =>
    rw [List.cons_append, storedAt_cons, storedAt_cons, ih (fun b hb => h b (by simp [hb]))]
    have := h a (by simp)
    by_cases h1 : a.1 = k
    · have : k ≠ e.1 := by omega
      simp [h1, this]
    · simp [h1]

theorem storedAt_of_mem {run : List (Nat × R)} (hs : run.Pairwise (fun a b => a.1 < b.1)) {e : Nat × R} (he : e ∈ run) :
    storedAt run e.1 = some e.2 := by
  induction run with
  | nil => simp at he
  | cons a run ih =>
    rw [storedAt_cons]
    rcases List.mem_cons.1 he with rfl | he
    · simp
    · have := (List.pairwise_cons.1 hs).1 e he
      rw [if_neg (by omega), ih (List.pairwise_cons.1 hs).2 he]

theorem entryAt_eq [Zero R] (run : List (Nat × R)) (k : Nat) : entryAt run k = (storedAt run k).getD 0 := by
  unfold entryAt storedAt
  cases run.find? (fun e => e.1 == k) <;> rfl

theorem entryAt_of_mem [Zero R] {run : List (Nat × R)} (hs : run.Pairwise (fun a b => a.1 < b.1)) {e : Nat × R} (he : e ∈ run) :
    entryAt run e.1 = e.2 := by
  induction run with
  | nil => simp at he
  | cons a run ih =>
    rw [entryAt_cons]
    rcases List.mem_cons.1 he with rfl | h
    · simp
    · have := (List.pairwise_cons.mp hs).1 e h
      rw [if_neg (by omega)]
      exact ih (List.pairwise_cons.mp hs).2 h

theorem sorted_prefix_lt {pre suf : List (Nat × R)} {e : Nat × R}
    (h : (pre ++ e :: suf).Pairwise (fun a b => a.1 < b.1)) : ∀ a ∈ pre, a.1 < e.1 := by
  intro a ha
  rw [List.pairwise_append] at h
  exact h.2.2 a ha e (by simp)

/-! ### Emission -/

/-- Emission has completed the runs `L`, has emitted `cur` of the next run, and has written `m` offsets. -/
structure EmitInv (cap no : Nat) (L : List (List (Nat × R))) (cur : List (Nat × R)) (m : Nat) (E : Emit R) : Prop where
  io : E.io = m
  vlen : E.value.length = cap
  klen : E.key.length = cap
  olen : E.offset.length = no
  iv : E.iv = (L.flatten ++ cur).length
  ik : E.ik = (L.flatten ++ cur).length
  off : E.off = (L.flatten ++ cur).length
  offs : ∀ q, q < m → E.offset[q]? = some (some (L.take q).flatten.length)
  cells : ∀ (p : Nat) (e : Nat × R), (L.flatten ++ cur)[p]? = some e → E.key[p]? = some (some e.1) ∧ E.value[p]? = some (some e.2)

theorem EmitInv.push {cap no m : Nat} {L : List (List (Nat × R))} {cur : List (Nat × R)} {E : Emit R}
    (h : EmitInv cap no L cur m E) (k : Nat) (x : R) (hcap : (L.flatten ++ cur).length < cap) :
    Sat (E.push k x) (EmitInv cap no L (cur ++ [(k, x)]) m) := by
  unfold Emit.push
  have h1 : E.iv < E.value.length := by rw [h.iv, h.vlen]; exact hcap
  have h2 : E.ik < E.key.length := by rw [h.ik, h.klen]; exact hcap
  rw [Buf.write_ok h1, Buf.write_ok h2]
  refine Sat.pure ⟨h.io, by simp [h.vlen], by simp [h.klen], h.olen, ?_, ?_, ?_, h.offs, ?_⟩
  · simp only [h.iv, List.length_append, List.length_singleton]; omega
  · simp only [h.ik, List.length_append, List.length_singleton]; omega
  · simp only [h.off, List.length_append, List.length_singleton]; omega
  · intro p e hp
    rw [← List.append_assoc] at hp
    simp only
    rw [List.getElem?_set, List.getElem?_set, h.iv, h.ik]
    by_cases hpl : (L.flatten ++ cur).length = p
    · subst hpl
      rw [List.getElem?_append_right (Nat.le_refl _)] at hp
      simp only [Nat.sub_self, List.getElem?_cons_zero, Option.some.injEq] at hp
      subst hp
      rw [h.klen, h.vlen, if_pos rfl, if_pos rfl, if_pos hcap, if_pos hcap]
      exact ⟨rfl, rfl⟩
    · rw [if_neg hpl, if_neg hpl]
      have : p < (L.flatten ++ cur).length := by
        have := (List.getElem?_eq_some_iff.mp hp).1
        rw [List.length_append, List.length_singleton] at this
        omega
      rw [List.getElem?_append_left this] at hp
      exact h.cells p e hp

theorem EmitInv.mark {cap no : Nat} {L : List (List (Nat × R))} {E : Emit R}
    (h : EmitInv cap no L [] L.length E) (hno : L.length < no) :
    Sat E.mark (EmitInv cap no L [] (L.length + 1)) := by
  unfold Emit.mark
  have h1 : E.io < E.offset.length := by rw [h.io, h.olen]; exact hno
  rw [Buf.write_ok h1]
  refine Sat.pure ⟨by simp [h.io], h.vlen, h.klen, by simp [h.olen], h.iv, h.ik, h.off, ?_, h.cells⟩
  intro q hq
  simp only
  rw [List.getElem?_set, h.io, h.off]
  by_cases hq' : L.length = q
  · subst hq'; simp [h.olen, hno]
  · rw [if_neg hq']; exact h.offs q (by omega)

theorem EmitInv.close {cap no m : Nat} {L : List (List (Nat × R))} {cur : List (Nat × R)} {E : Emit R}
    (h : EmitInv cap no L cur m E) (hm : m ≤ L.length + 1) : EmitInv cap no (L ++ [cur]) [] m E := by
  have e : (L ++ [cur]).flatten ++ [] = L.flatten ++ cur := by simp
  refine ⟨h.io, h.vlen, h.klen, h.olen, by rw [e]; exact h.iv, by rw [e]; exact h.ik, by rw [e]; exact h.off, ?_, by rw [e]; exact h.cells⟩
  intro q hq
  rw [List.take_append_of_le_length (by omega)]
  exact h.offs q hq

theorem EmitInv.start (o : Ori) (dm : Dim) (v : Buf R) (k of : Buf Nat) (hk : k.length = v.length) :
    EmitInv v.length of.length [] [] 0 (Sparse.emit ⟨o, dm, v, k, of⟩) := by
  refine ⟨rfl, rfl, hk, rfl, rfl, rfl, rfl, ?_, ?_⟩
  · intro q hq; omega
  · intro p e hp; simp at hp

theorem EmitInv.valid {cap no : Nat} {L : List (List (Nat × R))} {E : Emit R} {S : Sparse R} {r c : Nat}
    (h : EmitInv cap no L [] (L.length + 1) E) (hno : no = L.length + 1) (hd : S.dim = Dim.mk' r c)
    (hruns : L.length = S.ori.minorIx r c)
    (hb : ∀ run ∈ L, ∀ e ∈ run, e.1 < S.ori.majorIx r c)
    (hs : ∀ run ∈ L, run.Pairwise (fun a b => a.1 < b.1)) : (S.filled E).Valid r c L := by
  refine ⟨by simp [Sparse.filled, hd, Dim.mk'], by simp [Sparse.filled, hd, Dim.mk'], by simp [Sparse.filled, hd, Dim.mk'],
    hruns, by simp [Sparse.filled, h.olen, hno], ?_, by simp [Sparse.filled, h.klen, h.vlen], ?_, hb, hs⟩
  · intro q hq
    exact h.offs q (by omega)
  · intro p e hp
    exact h.cells p e (by simpa using hp)

/-- A list with strictly increasing keys below `n` has at most `n` elements. -/
theorem sorted_length_le {l : List (Nat × R)} {n : Nat} (hs : l.Pairwise (fun a b => a.1 < b.1))
    (hb : ∀ e ∈ l, e.1 < n) : l.length ≤ n := by
  have : l.length = (l.map Prod.fst).toFinset.card := by
    rw [List.toFinset_card_of_nodup]
    · simp
    · exact (List.pairwise_map.mpr hs).imp (fun h => Nat.ne_of_lt h)
  rw [this]
  calc _ ≤ (Finset.range n).card := by
        apply Finset.card_le_card
        intro k hk
        simp only [List.mem_toFinset, List.mem_map] at hk
        obtain ⟨e, he, rfl⟩ := hk
        exact Finset.mem_range.mpr (hb e he)
    _ = n := Finset.card_range n

theorem flatten_length_le {α : Type} {L : List (List α)} {n : Nat} (h : ∀ run ∈ L, run.length ≤ n) :
    L.flatten.length ≤ L.length * n := by
  induction L with
  | nil => simp
  | cons l L ih =>
    have h1 := h l (by simp)
    have h2 := ih (fun r hr => h r (by simp [hr]))
    rw [List.flatten_cons, List.length_append, List.length_cons]
    have : (L.length + 1) * n = L.length * n + n := by ring
    omega

end BB
