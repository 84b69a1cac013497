import Verif.Lemmas.Sparse

/-! Auxiliary lemmas: conversion between dense and sparse matrices. -/

namespace BB

variable {R : Type}

/-- The storage of a dense matrix of orientation `o`, seen with (run, key) coordinates of orientation `so`. -/
def gridView (so o : Ori) (r c : Nat) : View :=
  if so = o then View.plain .row (so.minorIx r c) (so.majorIx r c)
  else View.plain .col (so.minorIx r c) (so.majorIx r c)

theorem gridView_rows (so o : Ori) (r c : Nat) : (gridView so o r c).rows = so.minorIx r c := by
  unfold gridView; split <;> rfl

theorem gridView_cols (so o : Ori) (r c : Nat) : (gridView so o r c).cols = so.majorIx r c := by
  unfold gridView; split <;> rfl

theorem gridView_fits (so o : Ori) (r c : Nat) : (gridView so o r c).Fits (r * c) := by
  have e : so.minorIx r c * so.majorIx r c = r * c := by cases so <;> simp [Ori.minorIx, Ori.majorIx, Nat.mul_comm]
  unfold gridView
  split <;> (rw [← e]; exact View.plain_fits _ _ _)

theorem gridView_cells (so o : Ori) (r c : Nat) {d : Buf R} {G : Nat → Nat → Option R} :
    (gridView so o r c).Cells d G ↔
      (View.plain o r c).Cells d (fun i j => G (so.minorIx i j) (so.majorIx i j)) := by
  cases so <;> cases o <;>
    simp only [gridView, View.Cells, View.plain, View.pos, Ori.minorIx, Ori.majorIx, if_true, if_false,
      Nat.zero_add, reduceCtorEq]
  · constructor
    · intro h i j hi hj; rw [Nat.add_comm]; exact h j i hj hi
    · intro h j i hj hi; rw [Nat.add_comm]; exact h i j hi hj
  · constructor
    · intro h i j hi hj; rw [Nat.add_comm]; exact h j i hj hi
    · intro h j i hj hi; rw [Nat.add_comm]; exact h i j hi hj

theorem minorIx_lt {so : Ori} {r c i j : Nat} (hi : i < r) (hj : j < c) : so.minorIx i j < so.minorIx r c := by
  cases so <;> assumption

theorem majorIx_lt {so : Ori} {r c i j : Nat} (hi : i < r) (hj : j < c) : so.majorIx i j < so.majorIx r c := by
  cases so <;> assumption

namespace Sparse

theorem toDense_valid {T : Type} [Zero R] [Zero T] (cvt : R → T) (hc0 : cvt 0 = 0) (o : Ori) {S : Sparse R} {r c : Nat}
    {L : List (List (Nat × R))} (h : S.Valid r c L) :
    Sat (S.toDense cvt o) (fun D => D.ori = o ∧ D.Is r c
      (fun i j => cvt (entryAt (L.getD (S.ori.minorIx i j) []) (S.ori.majorIx i j)))) := by
  unfold toDense
  rw [Dense.fillBuf_ok]
  refine Sat.bind (Sat.ok (P := fun d0 => d0 = List.replicate (r * c) (some (0 : T))) (by simp [h.size])) ?_
  rintro d0 rfl
  have fit := gridView_fits S.ori o r c
  have hrow := gridView_rows S.ori o r c
  have hcol := gridView_cols S.ori o r c
  have hstep : (Dim.mk' S.dim.rows S.dim.cols).major o = if S.ori = o then S.ori.majorIx r c else S.ori.minorIx r c := by
    rw [h.rows, h.cols]
    cases S.ori <;> cases o <;> simp [Dim.major, Dim.mk', Ori.majorIx, Ori.minorIx]
  refine Sat.bind (Sat.forRuns h (fun q s => s.1 = (if S.ori = o then q * S.ori.majorIx r c else q) ∧ s.2.length = r * c ∧
    (gridView S.ori o r c).Cells s.2 (fun q' k => some (cvt (if q' < q then entryAt (L.getD q' []) k else 0)))) ?_ ?_) ?_
  · refine ⟨by simp, by simp, ?_⟩
    rw [gridView_cells]
    simpa [hc0] using Dense.replicate_cells o r c (0 : T)
  · rintro q run ⟨it, d⟩ hq ⟨h1, hl, hcell⟩
    simp only at h1 hl hcell
    have hmem : run ∈ L := List.mem_of_getElem? hq
    have hql : q < S.ori.minorIx r c := by
      have := (List.getElem?_eq_some_iff.mp hq).1
      rw [← h.runs]; exact this
    have hgd : L.getD q [] = run := by simp [List.getD, hq]
    refine Sat.bind (Sat.forRun h hq (fun pre d => d.length = r * c ∧
      (gridView S.ori o r c).Cells d (fun q' k => some (cvt (if q' < q then entryAt (L.getD q' []) k else
        if q' = q then entryAt pre k else 0)))) ⟨hl, hcell.congr ?_⟩ ?_) ?_
    · intro a b _ _; simp [entryAt_nil]
    · intro pre e suf d hrun ⟨hl, hcell⟩
      have hk : e.1 < S.ori.majorIx r c := h.bound run hmem e (by rw [hrun]; simp)
      have hlt : ∀ a ∈ pre, a.1 < e.1 := sorted_prefix_lt (by rw [← hrun]; exact h.sorted run hmem)
      have key : ∀ p, p = (gridView S.ori o r c).base + (gridView S.ori o r c).pos q e.1 →
          Sat (d.write p (cvt e.2)) (fun d => d.length = r * c ∧
            (gridView S.ori o r c).Cells d (fun q' k => some (cvt (if q' < q then entryAt (L.getD q' []) k else
              if q' = q then entryAt (pre ++ [e]) k else 0)))) := by
        intro p hp
        obtain ⟨b', hw, hl', hc', -⟩ := hcell.write (by rw [hl]; exact fit) (cvt e.2) (i := q) (j := e.1)
          (by rw [hrow]; exact hql) (by rw [hcol]; exact hk)
        rw [← hp] at hw
        refine ⟨b', hw, by omega, hc'.congr ?_⟩
        intro a b _ _
        rw [entryAt_append pre e b hlt]
        by_cases ha : a = q
        · subst ha
          by_cases hb : b = e.1
          · simp [hb]
          · simp [hb]
        · simp [ha]
      split
      · rename_i ho
        refine key _ ?_
        rw [h1, if_pos ho]
        simp [gridView, ho, View.plain, View.pos]
      · rename_i ho
        refine key _ ?_
        rw [h1, if_neg ho, hstep, if_neg ho]
        simp [gridView, ho, View.plain, View.pos]
    · rintro d ⟨hl, hcell⟩
      refine Sat.pure ⟨?_, hl, hcell.congr ?_⟩
      · simp only [hstep, h1]
        split
        · ring
        · rfl
      · intro a b _ _
        by_cases h1 : a < q
        · simp [h1, Nat.lt_succ_of_lt h1]
        · by_cases h2 : a = q
          · subst h2
            simp only [Nat.lt_irrefl, if_false, if_true, Nat.lt_succ_self, hgd]
          · have : ¬ a < q + 1 := by omega
            simp [h1, h2, this]
  · rintro ⟨it, d⟩ ⟨-, hl, hcell⟩
    refine Sat.pure ⟨rfl, ?_⟩
    rw [h.rows, h.cols]
    refine Dense.is_mk hl ?_
    refine ((gridView_cells S.ori o r c).mp hcell).congr ?_
    intro i j hi hj
    have : S.ori.minorIx i j < L.length := by rw [h.runs]; exact minorIx_lt hi hj
    simp [this]

theorem toDense_sat {T : Type} [Zero R] [Zero T] (cvt : R → T) (hc0 : cvt 0 = 0) (o : Ori) {S : Sparse R} {r c : Nat}
    {f : Nat → Nat → R} (h : S.Is r c f) :
    Sat (S.toDense cvt o) (fun D => D.ori = o ∧ D.Is r c (fun i j => cvt (f i j))) := by
  obtain ⟨L, hL, hf⟩ := h
  refine (toDense_valid cvt hc0 o hL).mono ?_
  rintro D ⟨h1, h2⟩
  exact ⟨h1, h2.congr (fun i j hi hj => by rw [hf i j hi hj])⟩

/-- The entries of run `q` that dense → sparse emits. -/
def pick {T : Type} (chk : R → Bool) (cvt : R → T) (g : Nat → Nat → R) (M q : Nat) : List (Nat × T) :=
  (List.range M).filterMap (fun k => if chk (g q k) then some (k, cvt (g q k)) else none)

theorem pick_succ {T : Type} (chk : R → Bool) (cvt : R → T) (g : Nat → Nat → R) (M q : Nat) :
    pick chk cvt g (M+1) q = pick chk cvt g M q ++ (if chk (g q M) then [(M, cvt (g q M))] else []) := by
  unfold pick
  rw [List.range_succ, List.filterMap_append]
  congr 1
  by_cases h : chk (g q M) <;> simp [h]

theorem pick_bound {T : Type} (chk : R → Bool) (cvt : R → T) (g : Nat → Nat → R) (M q : Nat) :
    ∀ e ∈ pick chk cvt g M q, e.1 < M := by
  intro e he
  simp only [pick, List.mem_filterMap, List.mem_range] at he
  obtain ⟨k, hk, h⟩ := he
  split at h
  · cases h; exact hk
  · cases h

theorem pick_sorted {T : Type} (chk : R → Bool) (cvt : R → T) (g : Nat → Nat → R) (M q : Nat) :
    (pick chk cvt g M q).Pairwise (fun a b => a.1 < b.1) := by
  induction M with
  | zero => simp [pick]
  | succ M ih =>
    rw [pick_succ, List.pairwise_append]
    refine ⟨ih, ?_, ?_⟩
    · split <;> simp
    · intro a ha b hb
      have := pick_bound chk cvt g M q a ha
      split at hb
      · simp only [List.mem_singleton] at hb; subst hb; exact this
      · simp at hb

theorem entryAt_pick {T : Type} [Zero T] (chk : R → Bool) (cvt : R → T) (g : Nat → Nat → R) (M q k : Nat) :
    entryAt (pick chk cvt g M q) k = if k < M ∧ chk (g q k) then cvt (g q k) else 0 := by
  induction M with
  | zero => simp [pick, entryAt_nil]
  | succ M ih =>
    rw [pick_succ]
    by_cases h : chk (g q M)
    · simp only [h, if_true]
      rw [entryAt_append _ _ _ (fun a ha => pick_bound chk cvt g M q a ha), ih]
      by_cases hk : k = M
      · subst hk; simp [h]
      · simp only [hk, if_false]
        have : (k < M + 1) = (k < M) := by apply propext; omega
        simp only [this]
    · simp only [h, Bool.false_eq_true, if_false, List.append_nil]
      rw [ih]
      by_cases hk : k = M
      · subst hk; simp [h]
      · have : (k < M + 1) = (k < M) := by apply propext; omega
        simp only [this]

/-- All runs emitted by dense → sparse. -/
def picks {T : Type} (chk : R → Bool) (cvt : R → T) (g : Nat → Nat → R) (M N : Nat) : List (List (Nat × T)) :=
  (List.range N).map (pick chk cvt g M)

theorem picks_succ {T : Type} (chk : R → Bool) (cvt : R → T) (g : Nat → Nat → R) (M N : Nat) :
    picks chk cvt g M (N+1) = picks chk cvt g M N ++ [pick chk cvt g M N] := by
  simp [picks, List.range_succ]

theorem picks_length {T : Type} (chk : R → Bool) (cvt : R → T) (g : Nat → Nat → R) (M N : Nat) :
    (picks chk cvt g M N).length = N := by simp [picks]

theorem picks_le {T : Type} (chk : R → Bool) (cvt : R → T) (g : Nat → Nat → R) (M : Nat) {q N k : Nat} (hq : q < N)
    (hk : k ≤ M) :
    (picks chk cvt g M q).flatten.length + (pick chk cvt g k q).length ≤ (picks chk cvt g M N).flatten.length := by
  have h1 : (pick chk cvt g k q).length ≤ (pick chk cvt g M q).length := by
    have : ∀ d, (pick chk cvt g k q).length ≤ (pick chk cvt g (k+d) q).length := by
      intro d
      induction d with
      | zero => exact Nat.le_refl _
      | succ d ih => rw [← Nat.add_assoc, pick_succ]; simp; omega
    have := this (M - k)
    rwa [show k + (M - k) = M by omega] at this
  have h2 : ∀ d, (picks chk cvt g M (q+1)).flatten.length ≤ (picks chk cvt g M (q+1+d)).flatten.length := by
    intro d
    induction d with
    | zero => exact Nat.le_refl _
    | succ d ih =>
      rw [← Nat.add_assoc, picks_succ chk cvt g M (q+1+d), List.flatten_append, List.length_append]
      omega
  have h3 := h2 (N - (q+1))
  rw [show q + 1 + (N - (q+1)) = N by omega, picks_succ chk cvt g M q, List.flatten_append, List.length_append] at h3
  simp only [List.flatten_cons, List.flatten_nil, List.append_nil] at h3
  omega

/-- Generic compression loop: if the inner cursor visits g q 0, …, g q (M-1) for each q < N. -/
theorem ofView_le {T : Type} (chk : R → Bool) (cvt : R → T) (o : Ori) {v : View} {b : Buf R} {f : Nat → Nat → R}
    (hf : v.Fits b.length) (hr : v.Reads b f) (ho : v.ori = .col) {cnt : Nat}
    (hcnt : (picks chk cvt (o.elem f)
        (o.majorIx v.rows v.cols) (o.minorIx v.rows v.cols)).flatten.length ≤ cnt) :
    Sat (ofView chk cvt o v b cnt) (fun S => S.ori = o ∧ S.value.length = cnt ∧
      S.Valid v.rows v.cols (picks chk cvt (o.elem f)
        (o.majorIx v.rows v.cols) (o.minorIx v.rows v.cols))) := by
  generalize hg : o.elem f = g at *
  generalize hM : o.majorIx v.rows v.cols = M at *
  generalize hN : o.minorIx v.rows v.cols = N at *
  have hminor : (Dim.mk' v.rows v.cols).minor o = N := by
    rw [← hN]; cases o <;> rfl
  unfold ofView
  simp only [hminor]
  refine Sat.bind (Sat.raw (fun q E => EmitInv cnt (N+1) (picks chk cvt g M q) [] q E) ?_ ?_) ?_
  · have := EmitInv.start o (Dim.mk' v.rows v.cols) (Buf.alloc cnt : Buf T) (Buf.alloc cnt) (Buf.alloc (N+1)) (by simp)
    simpa [picks] using this
  · intro q E hq hE
    have hlen := picks_length chk cvt g M q
    have hE' : EmitInv cnt (N+1) (picks chk cvt g M q) [] (picks chk cvt g M q).length E := by rw [hlen]; exact hE
    refine Sat.bind (hE'.mark (by omega)) ?_
    intro E hE
    rw [hlen] at hE
    -- the inner loop
    have inner : ∀ (k : Nat) (p : Nat) (t : Nat × Emit T), k < M → b.read p = .ok (g q k) →
        (t.1 = k ∧ EmitInv cnt (N+1) (picks chk cvt g M q) (pick chk cvt g k q) (q+1) t.2) →
        Sat (do
          let x ← b.read p
          let E ← if chk x then t.2.push t.1 (cvt x) else pure t.2
          return (t.1 + 1, E))
          (fun t => t.1 = k + 1 ∧ EmitInv cnt (N+1) (picks chk cvt g M q) (pick chk cvt g (k+1) q) (q+1) t.2) := by
      rintro k p ⟨k', E⟩ hk hread ⟨h1, h2⟩
      simp only at h1 h2
      subst h1
      refine Sat.read hread ?_
      rw [pick_succ]
      by_cases hchk : chk (g q k')
      · simp only [hchk, if_true]
        refine Sat.bind (h2.push k' (cvt (g q k')) ?_) ?_
        · have := picks_le chk cvt g M (q := q) (N := N) (k := k'+1) hq (by omega)
          rw [pick_succ] at this
          simp only [hchk, if_true, List.length_append, List.length_singleton] at this
          rw [List.length_append]
          omega
        · intro E hE
          exact Sat.pure ⟨rfl, hE⟩
      · simp only [hchk, Bool.false_eq_true, if_false, List.append_nil]
        exact Sat.pure ⟨rfl, h2⟩
    have fin : ∀ x : Res (Nat × Emit T), Sat x (fun t => t.1 = M ∧ EmitInv cnt (N+1) (picks chk cvt g M q) (pick chk cvt g M q) (q+1) t.2) →
        Sat (do let t ← x; pure t.2) (fun E => EmitInv cnt (N+1) (picks chk cvt g M (q+1)) [] (q+1) E) := by
      intro x hx
      refine Sat.bind hx ?_
      rintro ⟨k, E⟩ ⟨-, hE⟩
      refine Sat.pure ?_
      rw [picks_succ]
      exact hE.close (by omega)
    have init : EmitInv cnt (N+1) (picks chk cvt g M q) (pick chk cvt g 0 q) (q+1) E := by simpa [pick] using hE
    cases o with
    | col =>
      rw [if_pos ho]
      refine fin _ ?_
      simp only [Ori.minorIx, Ori.majorIx] at hM hN
      subst hM hN
      refine Sat.colLoop hf hq (fun k (t : Nat × Emit T) => t.1 = k ∧ EmitInv cnt (v.cols+1) (picks chk cvt g v.rows q) (pick chk cvt g k q) (q+1) t.2)
        ⟨rfl, init⟩ ?_
      intro k t hk hI
      refine inner k _ t hk ?_ hI
      have := hr k q hk hq
      rw [View.get_eq hk hq] at this
      rw [this, ← hg]; rfl
    | row =>
      rw [if_neg (by rw [ho]; decide)]
      refine fin _ ?_
      simp only [Ori.minorIx, Ori.majorIx] at hM hN
      subst hM hN
      refine Sat.rowLoop hf hq (fun k (t : Nat × Emit T) => t.1 = k ∧ EmitInv cnt (v.rows+1) (picks chk cvt g v.cols q) (pick chk cvt g k q) (q+1) t.2)
        ⟨rfl, init⟩ ?_
      intro k t hk hI
      refine inner k _ t hk ?_ hI
      have := hr q k hq hk
      rw [View.get_eq hq hk] at this
      rw [this, ← hg]; rfl
  · intro E hE
    have hlen := picks_length chk cvt g M N
    have hE' : EmitInv cnt (N+1) (picks chk cvt g M N) [] (picks chk cvt g M N).length E := by rw [hlen]; exact hE
    refine Sat.bind (hE'.mark (by omega)) ?_
    intro E hE
    refine Sat.pure ⟨rfl, hE.vlen, hE.valid (by omega) rfl (by rw [hlen, ← hN]) ?_ ?_⟩
    · intro run hrun e he
      simp only [picks, List.mem_map, List.mem_range] at hrun
      obtain ⟨q, _, rfl⟩ := hrun
      have := pick_bound chk cvt g M q e he
      show e.1 < o.majorIx v.rows v.cols
      rw [hM]; exact this
    · intro run hrun
      simp only [picks, List.mem_map, List.mem_range] at hrun
      obtain ⟨q, _, rfl⟩ := hrun
      exact pick_sorted chk cvt g M q

theorem ofView_sat {T : Type} (chk : R → Bool) (cvt : R → T) (o : Ori) {v : View} {b : Buf R} {f : Nat → Nat → R}
    (hf : v.Fits b.length) (hr : v.Reads b f) (ho : v.ori = .col) {cnt : Nat}
    (hcnt : cnt = (picks chk cvt (o.elem f)
        (o.majorIx v.rows v.cols) (o.minorIx v.rows v.cols)).flatten.length) :
    Sat (ofView chk cvt o v b cnt) (fun S => S.ori = o ∧ S.value.length = cnt ∧
      S.Valid v.rows v.cols (picks chk cvt (o.elem f)
        (o.majorIx v.rows v.cols) (o.minorIx v.rows v.cols))) := ofView_le chk cvt o hf hr ho hcnt.ge

end Sparse
end BB
