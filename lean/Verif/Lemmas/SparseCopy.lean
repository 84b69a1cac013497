import Verif.Lemmas.SparseMul

/-! # Sparse → sparse conversion -/

namespace BB
variable {R : Type}

theorem convertBuf_eq {S : Type} (cvt : R → S) {b : Buf R} (h : ∀ x ∈ b, x ≠ none) :
    Dense.convertBuf cvt b = .ok (b.map (Option.map cvt)) := by
  by_cases hb : b = []
  · subst hb; rfl
  · have : Nonempty R := by
      cases b with
      | nil => exact absurd rfl hb
      | cons x b =>
        cases x with
        | none => exact absurd rfl (h none (by simp))
        | some x => exact ⟨x⟩
    obtain ⟨d, e, h1, h2⟩ := Dense.convertBuf_sat cvt (b := b) (G := fun t => ((b[t]?).join).getD (Classical.choice this)) (by
      intro t ht
      rw [Buf.read_ok]
      have hx : b[t]? = some b[t] := List.getElem?_eq_getElem ht
      have := h b[t] (List.getElem_mem ht)
      rw [hx]
      cases hbt : b[t] with
      | none => exact absurd hbt this
      | some v => rfl)
    rw [e]
    congr 1
    apply List.ext_getElem?
    intro t
    by_cases ht : t < b.length
    · rw [h2 t ht, List.getElem?_map]
      have hx : b[t]? = some b[t] := List.getElem?_eq_getElem ht
      have := h b[t] (List.getElem_mem ht)
      rw [hx]
      cases hbt : b[t] with
      | none => exact absurd hbt this
      | some v => rfl
    · have h3 : d.length ≤ t := by omega
      have h4 : b.length ≤ t := by omega
      rw [List.getElem?_eq_none h3, List.getElem?_eq_none (by simpa using h4)]

namespace Sparse

theorem Valid.init {S : Sparse R} {r c : Nat} {L : List (List (Nat × R))} (h : S.Valid r c L)
    (ht : S.value.length = L.flatten.length) :
    (∀ x ∈ S.value, x ≠ none) ∧ (∀ x ∈ S.key, x ≠ none) ∧ (∀ x ∈ S.offset, x ≠ none) := by
  have hc : ∀ p, p < S.value.length → ∃ e, S.key[p]? = some (some e.1) ∧ S.value[p]? = some (some (e : Nat × R).2) := by
    intro p hp
    rw [ht] at hp
    exact ⟨_, h.cells p _ (List.getElem?_eq_getElem hp)⟩
  refine ⟨?_, ?_, ?_⟩
  · intro x hx e
    obtain ⟨p, hp, rfl⟩ := List.getElem_of_mem hx
    obtain ⟨a, -, h2⟩ := hc p hp
    rw [List.getElem?_eq_getElem hp, e] at h2; simp at h2
  · intro x hx e
    obtain ⟨p, hp, rfl⟩ := List.getElem_of_mem hx
    obtain ⟨a, h2, -⟩ := hc p (by rw [← h.keyLen]; exact hp)
    rw [List.getElem?_eq_getElem hp, e] at h2; simp at h2
  · intro x hx e
    obtain ⟨p, hp, rfl⟩ := List.getElem_of_mem hx
    have := h.offs p (by have := h.offsLen; omega)
    rw [List.getElem?_eq_getElem hp, e] at this; simp at this

theorem flatten_map_map {α β : Type} (f : α → β) (L : List (List α)) :
    (L.map (List.map f)).flatten = L.flatten.map f := by
  induction L with
  | nil => rfl
  | cons a L ih => rw [List.map_cons, List.flatten_cons, ih, List.flatten_cons, List.map_append]

theorem entryAt_map {T : Type} [Zero R] [Zero T] (cvt : R → T) (h0 : cvt 0 = 0) (run : List (Nat × R)) (k : Nat) :
    entryAt (run.map (fun e => (e.1, cvt e.2))) k = cvt (entryAt run k) := by
  induction run with
  | nil => simp [entryAt_nil, h0]
  | cons x run ih =>
    rw [List.map_cons, entryAt_cons, entryAt_cons, ih]
    split <;> rfl

theorem valid_convert {T : Type} (cvt : R → T) {S : Sparse R} {r c r' c' : Nat} {o : Ori} {L : List (List (Nat × R))}
    (h : S.Valid r' c' L) (hL : L.length = o.minorIx r c) (hb : ∀ run ∈ L, ∀ e ∈ run, e.1 < o.majorIx r c) :
    (⟨o, Dim.mk' r c, S.value.map (Option.map cvt), S.key.map (Option.map id), S.offset.map (Option.map id)⟩ : Sparse T).Valid
      r c (L.map (List.map (fun e => (e.1, cvt e.2)))) where
  rows := rfl
  cols := rfl
  size := rfl
  runs := by simpa using hL
  offsLen := by simpa using h.offsLen
  offs := by
    intro q hq
    rw [← List.map_take, flatten_map_map]
    simp only [List.getElem?_map, List.length_map] at hq ⊢
    rw [h.offs q hq]; rfl
  keyLen := by simpa using h.keyLen
  cells := by
    intro p e he
    rw [flatten_map_map, List.getElem?_map] at he
    cases hp : L.flatten[p]? with
    | none => rw [hp] at he; cases he
    | some a =>
      rw [hp] at he
      cases he
      obtain ⟨h1, h2⟩ := h.cells p a hp
      simp [List.getElem?_map, h1, h2]
  bound := by
    intro run hrun e he
    obtain ⟨run', h1, rfl⟩ := List.mem_map.1 hrun
    obtain ⟨e', h2, rfl⟩ := List.mem_map.1 he
    exact hb run' h1 e' h2
  sorted := by
    intro run hrun
    obtain ⟨run', h1, rfl⟩ := List.mem_map.1 hrun
    rw [List.pairwise_map]
    exact h.sorted run' h1

theorem convert_sat {T : Type} [Zero R] [Zero T] (cvt : R → T) (hc0 : cvt 0 = 0) (o : Ori) {S : Sparse R} {r c : Nat}
    {L : List (List (Nat × R))} (h : S.Valid r c L) (ht : S.nnz = L.flatten.length)
    (ho : S.ori = o ∨ (S.ori = .col ∧ 0 < r ∧ S.nnz ≠ 0)) :
    Sat (S.convert cvt o) (fun U => U.ori = o ∧ U.nnz = S.nnz ∧ ∃ L', U.Valid r c L' ∧ U.nnz = L'.flatten.length ∧ ∀ i j, i < r → j < c →
      entryAt (L'.getD (o.minorIx i j) []) (o.majorIx i j) =
        cvt (entryAt (L.getD (S.ori.minorIx i j) []) (S.ori.majorIx i j))) := by
  have getD_map : ∀ (L : List (List (Nat × R))) q, (L.map (List.map (fun e => (e.1, cvt e.2)))).getD q []
      = (L.getD q []).map (fun e => (e.1, cvt e.2)) := by
    intro L q
    simp only [List.getD, List.getElem?_map]
    cases L[q]? <;> rfl
  unfold convert
  by_cases hso : S.ori = o
  · rw [if_pos hso]
    obtain ⟨i1, i2, i3⟩ := h.init ht
    simp only [pure, Except.pure, bind_ok']
    rw [convertBuf_eq cvt i1, bind_ok', convertBuf_eq id i2, bind_ok', convertBuf_eq id i3, bind_ok']
    refine ⟨_, rfl, rfl, by simp [nnz], L.map (List.map (fun e => (e.1, cvt e.2))), ?_, ?_, ?_⟩
    · rw [h.rows, h.cols]
      exact valid_convert cvt h (by rw [h.runs, hso]) (by intro run hr e he; rw [← hso]; exact h.bound run hr e he)
    · rw [flatten_map_map, List.length_map, ← ht]; simp only [nnz, List.length_map]
    · intro i j _ _
      rw [getD_map, entryAt_map cvt hc0, hso]
  · rw [if_neg hso]
    rcases ho with ho | ⟨ho, hr, hn⟩
    · exact absurd ho hso
    have ho' : o = .row := by cases o <;> simp_all
    subst ho'
    refine Sat.bind (transpose_sat h (by rw [ho]; rfl) hr) ?_
    rintro U ⟨h1, h2, h3⟩
    rw [if_neg hn, ht] at h2
    have hlen : (Sparse.trans L r).flatten.length = L.flatten.length := by
      have := trans_take L (K := r) (k := r) (Nat.le_refl _)
      rw [List.take_of_length_le (by simp [Sparse.trans])] at this
      rw [this, trOff, trq_total (L := L) (K := r) (by intro run hr e he; have := h.bound run hr e he; rwa [ho] at this) _ (Nat.le_refl _),
        List.take_length]
    obtain ⟨i1, i2, i3⟩ := h3.init (by rw [h2, hlen])
    beta_reduce
    rw [convertBuf_eq cvt i1, bind_ok', convertBuf_eq id i2, bind_ok', convertBuf_eq id i3, bind_ok']
    have hLl : L.length = c := by rw [h.runs, ho]; rfl
    refine ⟨_, rfl, rfl, by simp only [nnz, List.length_map] at ht ⊢; omega, (Sparse.trans L r).map (List.map (fun e => (e.1, cvt e.2))), ?_, ?_, ?_⟩
    · rw [h.rows, h.cols]
      refine valid_convert cvt h3 (by simp [Sparse.trans, Ori.minorIx]) ?_
      intro run hrun e he
      have := h3.bound run hrun e he
      rw [h1, ho] at this
      exact this
    · rw [flatten_map_map]; simp only [nnz, List.length_map]; omega
    · intro i j hi hj
      rw [getD_map, entryAt_map cvt hc0, ho]
      have e1 : (Sparse.trans L r).getD i [] = trq L L.length i := by simp [Sparse.trans, List.getD, hi]
      show cvt (entryAt ((Sparse.trans L r).getD i []) j) = cvt (entryAt (L.getD j []) i)
      rw [e1, entryAt_trq, if_pos (by omega)]

end Sparse
end BB
