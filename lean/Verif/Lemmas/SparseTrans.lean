import Verif.Lemmas.SparseConv
import Mathlib.Algebra.Order.BigOperators.Group.Finset

/-! Auxiliary lemmas: counting significant elements, sparse transposition. -/

namespace BB

variable {R : Type}

/-- Number of accepted elements of an r×c matrix. -/
def countAcc (chk : R → Bool) (r c : Nat) (f : Nat → Nat → R) : Nat :=
  ∑ i ∈ Finset.range r, ∑ j ∈ Finset.range c, if chk (f i j) then 1 else 0

theorem sum_range_mul (F : Nat → Nat) (N M : Nat) :
    ∑ t ∈ Finset.range (N * M), F t = ∑ q ∈ Finset.range N, ∑ k ∈ Finset.range M, F (q * M + k) := by
  induction N with
  | zero => simp
  | succ N ih =>
    rw [show (N+1) * M = N * M + M by ring, Finset.sum_range_add, ih, Finset.sum_range_succ]

theorem flatten_map_range_length {α : Type} (F : Nat → List α) (K : Nat) :
    ((List.range K).map F).flatten.length = ∑ k ∈ Finset.range K, (F k).length := by
  induction K with
  | zero => simp
  | succ K ih =>
    rw [List.range_succ, List.map_append, List.flatten_append, List.length_append, ih, Finset.sum_range_succ]
    simp

namespace Sparse

theorem pick_length {T : Type} (chk : R → Bool) (cvt : R → T) (g : Nat → Nat → R) (M q : Nat) :
    (pick chk cvt g M q).length = ∑ k ∈ Finset.range M, if chk (g q k) then 1 else 0 := by
  induction M with
  | zero => simp [pick]
  | succ M ih =>
    rw [pick_succ, List.length_append, ih, Finset.sum_range_succ]
    split <;> simp

theorem picks_count {T : Type} (chk : R → Bool) (cvt : R → T) (o : Ori) (f : Nat → Nat → R) (r c : Nat) :
    (picks chk cvt (o.elem f) (o.majorIx r c) (o.minorIx r c)).flatten.length = countAcc chk r c f := by
  unfold picks
  rw [flatten_map_range_length]
  simp only [pick_length]
  cases o with
  | col => simp only [Ori.elem, Ori.minorIx, Ori.majorIx]; rw [Finset.sum_comm]; rfl
  | row => rfl

theorem countBuf_sat (chk : R → Bool) {b : Buf R} {G : Nat → R} (h : ∀ t, t < b.length → b.read t = .ok (G t)) :
    countBuf chk b = .ok (∑ t ∈ Finset.range b.length, if chk (G t) then 1 else 0) := by
  unfold countBuf
  obtain ⟨n, e, hn⟩ := Sat.raw (n := b.length) (f := fun p n => do
    let x ← b.read p
    return if chk x then n + 1 else n) (s := 0)
    (fun k n => n = ∑ t ∈ Finset.range k, if chk (G t) then 1 else 0) (by simp) (by
      rintro i n hi rfl
      refine Sat.read (h i hi) (Sat.pure ?_)
      rw [Finset.sum_range_succ]
      split <;> simp)
  rw [e, hn]

theorem count_dense (chk : R → Bool) {A : Dense R} {r c : Nat} {f} (h : A.Is r c f) :
    countBuf chk A.data = .ok (countAcc chk r c f) := by
  rw [countBuf_sat chk (G := fun t => f (Dense.unpos A.ori r c t).1 (Dense.unpos A.ori r c t).2)
    (fun t ht => h.raw (by rw [← h.alloc]; exact ht)), h.alloc]
  congr 1
  cases ho : A.ori with
  | row =>
    rw [sum_range_mul]
    apply Finset.sum_congr rfl
    intro q hq
    apply Finset.sum_congr rfl
    intro k hk
    have hk := Finset.mem_range.mp hk
    have hc : 0 < c := by omega
    have e : Dense.unpos .row r c (q * c + k) = (q, k) := by
      simp only [Dense.unpos, Prod.mk.injEq]
      exact ⟨by rw [Nat.mul_comm, Nat.mul_add_div hc, Nat.div_eq_of_lt hk]; rfl,
        by rw [Nat.mul_comm, Nat.mul_add_mod, Nat.mod_eq_of_lt hk]⟩
    rw [e]
  | col =>
    rw [Nat.mul_comm, sum_range_mul, countAcc, Finset.sum_comm]
    apply Finset.sum_congr rfl
    intro k hk
    apply Finset.sum_congr rfl
    intro q hq
    have hk := Finset.mem_range.mp hk
    have hc : 0 < r := by omega
    have e : Dense.unpos .col r c (q * r + k) = (k, q) := by
      simp only [Dense.unpos, Prod.mk.injEq]
      exact ⟨by rw [Nat.mul_comm, Nat.mul_add_mod, Nat.mod_eq_of_lt hk],
        by rw [Nat.mul_comm, Nat.mul_add_div hc, Nat.div_eq_of_lt hk]; rfl⟩
    rw [e]

theorem ofDense_sat {T : Type} (chk : R → Bool) (cvt : R → T) (o : Ori) {A : Dense R} {r c : Nat} {f}
    (h : A.Is r c f) (ho : A.ori = .col) :
    Sat (ofDense chk cvt o A) (fun S => S.ori = o ∧ S.value.length = countAcc chk r c f ∧
      S.Valid r c (picks chk cvt (o.elem f) (o.majorIx r c) (o.minorIx r c))) := by
  unfold ofDense
  rw [count_dense chk h]
  have e := h.view_rows
  have := ofView_sat chk cvt o (v := A.view) (b := A.data) (f := f) h.fits (by
    intro i j hi hj
    rw [e] at hi hj
    exact h.elems i j hi hj) (by rw [e]; exact ho) rfl
  rw [e] at this
  simp only [View.plain] at this
  rw [picks_count] at this
  rw [e]
  exact this

/-- Entries of run `k` of the transposed matrix that come from the first `n` runs. -/
def trq (L : List (List (Nat × R))) (n k : Nat) : List (Nat × R) :=
  (List.range n).flatMap (fun q => ((L.getD q []).filter (fun e => e.1 == k)).map (fun e => (q, e.2)))

theorem trq_succ (L : List (List (Nat × R))) (n k : Nat) :
    trq L (n+1) k = trq L n k ++ ((L.getD n []).filter (fun e => e.1 == k)).map (fun e => (n, e.2)) := by
  simp [trq, List.range_succ]

theorem trq_bound (L : List (List (Nat × R))) (n k : Nat) : ∀ e ∈ trq L n k, e.1 < n := by
  intro e he
  simp only [trq, List.mem_flatMap, List.mem_range, List.mem_map] at he
  obtain ⟨q, hq, a, _, rfl⟩ := he
  exact hq

theorem trq_mono (L : List (List (Nat × R))) {n m k : Nat} (h : n ≤ m) : (trq L n k).length ≤ (trq L m k).length := by
  induction m with
  | zero => simp_all
  | succ m ih =>
    by_cases hm : n = m + 1
    · rw [hm]
    · have := ih (by omega)
      rw [trq_succ, List.length_append]; omega

theorem trq_prefix (L : List (List (Nat × R))) {n m k : Nat} (h : n ≤ m) : trq L n k <+: trq L m k := by
  induction m with
  | zero => simp_all
  | succ m ih =>
    by_cases hm : n = m + 1
    · rw [hm]
    · exact (ih (by omega)).trans (by rw [trq_succ]; exact List.prefix_append _ _)

theorem filter_key_pairwise {run : List (Nat × R)} (k q : Nat) (h : run.Pairwise (fun a b => a.1 < b.1)) :
    ((run.filter (fun e => e.1 == k)).map (fun e => (q, e.2))).Pairwise (fun a b => a.1 < b.1) := by
  rw [List.pairwise_map]
  have h2 : (run.filter (fun e => e.1 == k)).Pairwise (fun a b => a.1 < b.1) := h.filter _
  refine h2.imp_of_mem ?_
  intro a b ha hb hab
  simp only [List.mem_filter, beq_iff_eq] at ha hb
  omega

theorem trq_sorted {L : List (List (Nat × R))} (h : ∀ run ∈ L, run.Pairwise (fun a b => a.1 < b.1)) (n k : Nat) :
    (trq L n k).Pairwise (fun a b => a.1 < b.1) := by
  induction n with
  | zero => simp [trq]
  | succ n ih =>
    rw [trq_succ, List.pairwise_append]
    refine ⟨ih, ?_, ?_⟩
    · apply filter_key_pairwise
      by_cases hn : n < L.length
      · simp only [List.getD, List.getElem?_eq_getElem hn, Option.getD_some]
        exact h _ (List.getElem_mem hn)
      · simp [List.getD, List.getElem?_eq_none (by omega : L.length ≤ n)]
    · intro a ha b hb
      have := trq_bound L n k a ha
      simp only [List.mem_map] at hb
      obtain ⟨e, _, rfl⟩ := hb
      exact this

theorem entryAt_append_left [Zero R] (a b : List (Nat × R)) (q : Nat) (h : ∀ e ∈ b, e.1 ≠ q) :
    entryAt (a ++ b) q = entryAt a q := by
  induction a with
  | nil => simp [entryAt_nil, entryAt_not_mem b q h]
  | cons x a ih => rw [List.cons_append, entryAt_cons, entryAt_cons, ih]

theorem entryAt_append_right [Zero R] (a b : List (Nat × R)) (q : Nat) (h : ∀ e ∈ a, e.1 ≠ q) :
    entryAt (a ++ b) q = entryAt b q := by
  induction a with
  | nil => rfl
  | cons x a ih => rw [List.cons_append, entryAt_cons, if_neg (h x (by simp)), ih (fun e he => h e (by simp [he]))]

theorem entryAt_filter_map [Zero R] (run : List (Nat × R)) (k q : Nat) :
    entryAt ((run.filter (fun e => e.1 == k)).map (fun e => (q, e.2))) q = entryAt run k := by
  induction run with
  | nil => rfl
  | cons x run ih =>
    rw [entryAt_cons]
    by_cases h : x.1 = k
    · rw [if_pos h, List.filter_cons, if_pos (by simpa using h), List.map_cons, entryAt_cons, if_pos rfl]
    · rw [if_neg h, List.filter_cons, if_neg (by simpa using h), ih]

theorem entryAt_trq [Zero R] (L : List (List (Nat × R))) (n k q : Nat) :
    entryAt (trq L n k) q = if q < n then entryAt (L.getD q []) k else 0 := by
  induction n with
  | zero => simp [trq, entryAt_nil]
  | succ n ih =>
    rw [trq_succ]
    by_cases hq : q = n
    · subst hq
      rw [entryAt_append_right _ _ _ (fun e he => by have := trq_bound L q k e he; omega), entryAt_filter_map]
      simp
    · rw [entryAt_append_left _ _ _ (by
        intro e he
        simp only [List.mem_map] at he
        obtain ⟨a, _, rfl⟩ := he
        exact fun h => hq h.symm), ih]
      have : (q < n + 1) = (q < n) := by apply propext; omega
      simp only [this]

theorem filter_key_sum (run : List (Nat × R)) (K : Nat) (h : ∀ e ∈ run, e.1 < K) :
    ∑ k ∈ Finset.range K, (run.filter (fun e => e.1 == k)).length = run.length := by
  induction run with
  | nil => simp
  | cons x run ih =>
    have : ∀ k, ((x :: run).filter (fun e => e.1 == k)).length =
        (if x.1 = k then 1 else 0) + (run.filter (fun e => e.1 == k)).length := by
      intro k
      rw [List.filter_cons]
      by_cases hk : x.1 = k
      · simp [hk, Nat.add_comm]
      · simp [hk]
    simp only [this]
    rw [Finset.sum_add_distrib, ih (fun e he => h e (by simp [he])), Finset.sum_ite_eq, if_pos (Finset.mem_range.mpr (h x (by simp)))]
    rw [List.length_cons]; omega

theorem trq_total {L : List (List (Nat × R))} {K : Nat} (h : ∀ run ∈ L, ∀ e ∈ run, e.1 < K) (n : Nat) (hn : n ≤ L.length) :
    ∑ k ∈ Finset.range K, (trq L n k).length = (L.take n).flatten.length := by
  induction n with
  | zero => simp [trq]
  | succ n ih =>
    have hq : L[n]? = some L[n] := List.getElem?_eq_getElem (by omega)
    rw [take_succ_flatten_length L n _ hq, ← ih (by omega)]
    simp only [trq_succ, List.length_append, List.length_map]
    rw [Finset.sum_add_distrib]
    congr 1
    have e : L.getD n [] = L[n] := by simp [List.getD, hq]
    rw [e]
    exact filter_key_sum _ K (h _ (List.getElem_mem _))

/-- Runs of the transposed matrix. -/
def trans (L : List (List (Nat × R))) (K : Nat) : List (List (Nat × R)) := (List.range K).map (trq L L.length)

/-- Offset of run `k` of the transposed matrix. -/
def trOff (L : List (List (Nat × R))) (k : Nat) : Nat := ∑ k' ∈ Finset.range k, (trq L L.length k').length

theorem trans_take (L : List (List (Nat × R))) {K k : Nat} (hk : k ≤ K) :
    ((trans L K).take k).flatten.length = trOff L k := by
  unfold trans trOff
  rw [← List.map_take, List.take_range, Nat.min_eq_left hk, flatten_map_range_length]

theorem trOff_le (L : List (List (Nat × R))) {k k' : Nat} (h : k < k') :
    trOff L k + (trq L L.length k).length ≤ trOff L k' := by
  unfold trOff
  rw [← Finset.sum_range_succ]
  exact Finset.sum_le_sum_of_subset (by
    intro x hx
    rw [Finset.mem_range] at hx ⊢
    omega)

theorem flatten_le_value {S : Sparse R} {r c : Nat} {L : List (List (Nat × R))} (h : S.Valid r c L) :
    L.flatten.length ≤ S.value.length := by
  by_cases hz : L.flatten.length = 0
  · omega
  · have hlt : L.flatten.length - 1 < L.flatten.length := by omega
    have := (h.cells _ _ (List.getElem?_eq_getElem hlt)).2
    have := (List.getElem?_eq_some_iff.mp this).1
    omega

/-- What the counting sort delivers for keys below `r`, whatever the orientation: `r` runs, those of the transposed matrix. -/
structure Transposed (S T : Sparse R) (r c : Nat) (L : List (List (Nat × R))) : Prop where
  ori : T.ori = S.ori
  valueLen : T.value.length = (if S.nnz = 0 then c * r else S.nnz)
  dim : T.dim = Dim.mk' c r
  offsLen : T.offset.length = (trans L r).length + 1
  offs : ∀ q, q ≤ (trans L r).length → T.offset[q]? = some (some ((trans L r).take q).flatten.length)
  keyLen : T.key.length = T.value.length
  cells : ∀ (p : Nat) (e : Nat × R), (trans L r).flatten[p]? = some e → T.key[p]? = some (some e.1) ∧ T.value[p]? = some (some e.2)

theorem transpose_core {S : Sparse R} {r c : Nat} {L : List (List (Nat × R))} (h : S.Valid r c L)
    (hbound : ∀ run ∈ L, ∀ e ∈ run, e.1 < r) (hr : 0 < r) :
    Sat S.transpose (fun T => Transposed S T r c L) := by
  unfold transpose
  simp only [Dense.fillBuf_ok, new, Buf.length_alloc, bind_ok', h.rows, h.cols]
  -- counting
  refine Sat.bind (Sat.forRuns h (fun q (off : Buf Nat) => off.length = r + 1 ∧ off[0]? = some (some 0) ∧
    ∀ k, k < r → off[k+1]? = some (some (trq L q k).length)) ⟨by simp, by simp, ?_⟩ ?_) ?_
  · intro k hk
    rw [List.getElem?_replicate, if_pos (by omega)]; simp [trq]
  · rintro q run off hq ⟨h1, h2, h3⟩
    have hmem : run ∈ L := List.mem_of_getElem? hq
    have hql := (List.getElem?_eq_some_iff.mp hq).1
    have hgd : L.getD q [] = run := by simp [List.getD, hq]
    refine Sat.read (h.readOff (by omega)) (Sat.read (h.readOff (by omega)) ?_)
    rw [take_succ_flatten_length L q run hq]
    refine Sat.mono (Sat.listLoop (l := run) (fun pre (off : Buf Nat) => off.length = r + 1 ∧ off[0]? = some (some 0) ∧
      ∀ k, k < r → off[k+1]? = some (some ((trq L q k).length + (pre.filter (fun e => e.1 == k)).length)))
      ⟨h1, h2, by simpa using h3⟩ ?_) ?_
    · rintro pre e suf off hrun ⟨h1, h2, h3⟩
      have ht : run[pre.length]? = some e := by rw [hrun]; simp
      have hke : e.1 < r := hbound run hmem e (by rw [hrun]; simp)
      obtain ⟨k1, -⟩ := h.readKey hq ht
      refine Sat.read k1 (Sat.read (Buf.read_ok.mpr (h3 e.1 hke)) ?_)
      refine Sat.of_eq (Buf.write_ok (by omega)) ⟨by simp [h1], ?_, ?_⟩
      · rw [List.getElem?_set, if_neg (by omega)]; exact h2
      · intro k hk
        rw [List.getElem?_set]
        by_cases hkk : k = e.1
        · subst hkk
          rw [if_pos rfl, if_pos (by omega), List.filter_append, List.length_append]
          simp; omega
        · rw [if_neg (by omega), h3 k hk, List.filter_append, List.length_append]
          have : ¬ e.1 = k := fun h => hkk h.symm
          simp [this]
    · rintro off ⟨h1, h2, h3⟩
      refine ⟨h1, h2, ?_⟩
      intro k hk
      rw [h3 k hk, trq_succ, hgd]; simp
  -- accumulation
  rintro off ⟨h1, h2, h3⟩
  rw [h1]
  have acc : Sat (ptrLoop 2 (r + 1) 1 (fun p (off : Buf Nat) => do
      let a ← off.read p
      let b ← off.read (p - 1)
      off.write p (a + b)) off) (fun off => off.length = r + 1 ∧ ∀ k, k ≤ r → off[k]? = some (some (trOff L k))) := by
    rw [ptrLoop_eq _ (r - 1) 2 (r + 1) 1 _ (by omega) (by omega)]
    refine Sat.mono (Sat.loop (fun i (off : Buf Nat) => off.length = r + 1 ∧
      (∀ k, k < i + 2 → off[k]? = some (some (trOff L k))) ∧
      ∀ k, i + 1 ≤ k → k < r → off[k+1]? = some (some (trq L L.length k).length)) ⟨h1, ?_, fun k hk hkr => h3 k hkr⟩ ?_) ?_
    · intro k hk
      match k, hk with
      | 0, _ => simpa [trOff] using h2
      | 1, _ => rw [h3 0 hr]; simp [trOff]
    · rintro i off hi ⟨h1, h2, h3⟩
      have r1 := Buf.read_ok.mpr (h3 (i+1) (by omega) (by omega))
      have r2 := Buf.read_ok.mpr (h2 (i+1) (by omega))
      have e1 : 2 + i * 1 = i + 1 + 1 := by omega
      have e2 : 2 + i * 1 - 1 = i + 1 := by omega
      rw [e2, e1]
      refine Sat.read r1 (Sat.read r2 ?_)
      refine Sat.of_eq (Buf.write_ok (by omega)) ⟨by simp [h1], ?_, ?_⟩
      · intro k hk
        rw [List.getElem?_set]
        by_cases hkk : i + 1 + 1 = k
        · subst hkk
          rw [if_pos rfl, if_pos (by omega)]
          simp only [trOff]
          rw [Finset.sum_range_succ _ (i+1)]; rw [Nat.add_comm]
        · rw [if_neg hkk]; exact h2 k (by omega)
      · intro k hk hkr
        rw [List.getElem?_set, if_neg (by omega)]
        exact h3 k (by omega) hkr
    · rintro off ⟨h1, h2, -⟩
      exact ⟨h1, fun k hk => h2 k (by omega)⟩
  refine Sat.bind acc ?_
  rintro off ⟨h1, hoff⟩
  rw [h1, Nat.add_sub_cancel]
  have htot : trOff L r = L.flatten.length := by
    have := trq_total hbound L.length (Nat.le_refl _)
    rw [List.take_length] at this
    exact this
  generalize hcap : (if S.nnz = 0 then c * r else S.nnz) = cap
  have hcapge : trOff L r ≤ cap := by
    have := flatten_le_value h
    have hn : S.nnz = S.value.length := rfl
    rw [htot, ← hcap]
    split <;> omega
  -- insertion
  refine Sat.bind (Sat.forRuns h (fun q (s : Nat × Buf Nat × Buf R × Buf Nat) => s.1 = q ∧ s.2.1.length = r ∧
    s.2.2.1.length = cap ∧ s.2.2.2.length = cap ∧
    (∀ k, k < r → s.2.1[k]? = some (some (trq L q k).length)) ∧
    ∀ k, k < r → ∀ (t : Nat) (e : Nat × R), (trq L q k)[t]? = some e →
      s.2.2.2[trOff L k + t]? = some (some e.1) ∧ s.2.2.1[trOff L k + t]? = some (some e.2)) ?_ ?_) ?_
  · refine ⟨rfl, by simp, by simp, by simp, ?_, ?_⟩
    · intro k hk; rw [List.getElem?_replicate, if_pos hk]; simp [trq]
    · intro k hk t e ht; simp [trq] at ht
  · rintro q run ⟨key, s⟩ hq ⟨h1, h2⟩
    simp only at h1 h2
    subst h1
    have hmem : run ∈ L := List.mem_of_getElem? hq
    have hql := (List.getElem?_eq_some_iff.mp hq).1
    have hgd : L.getD key [] = run := by simp [List.getD, hq]
    refine Sat.bind (Sat.forRun h hq (fun pre (s : Buf Nat × Buf R × Buf Nat) => s.1.length = r ∧
      s.2.1.length = cap ∧ s.2.2.length = cap ∧
      (∀ k, k < r → s.1[k]? = some (some (trq L key k ++ (pre.filter (fun e => e.1 == k)).map (fun e => (key, e.2))).length)) ∧
      ∀ k, k < r → ∀ (t : Nat) (e : Nat × R), (trq L key k ++ (pre.filter (fun e => e.1 == k)).map (fun e => (key, e.2)))[t]? = some e →
        s.2.2[trOff L k + t]? = some (some e.1) ∧ s.2.1[trOff L k + t]? = some (some e.2))
      (by simpa using h2) ?_) ?_
    · rintro pre e suf ⟨cur, vs, ks⟩ hrun ⟨g1, g2, g3, g4, g5⟩
      simp only at g1 g2 g3 g4 g5
      have hke : e.1 < r := hbound run hmem e (by rw [hrun]; simp)
      -- what has been emitted is a prefix of the final run
      have hpre : ∀ k (pre' suf' : List (Nat × R)), run = pre' ++ suf' →
          (trq L key k ++ (pre'.filter (fun e => e.1 == k)).map (fun e => (key, e.2))).length ≤ (trq L L.length k).length := by
        intro k pre' suf' hrun'
        have h1 := trq_mono L (n := key+1) (m := L.length) (k := k) (by omega)
        rw [trq_succ, hgd, hrun', List.filter_append, List.map_append] at h1
        simp only [List.length_append] at h1 ⊢
        omega
      have hslot : (trq L key e.1 ++ (pre.filter (fun a => a.1 == e.1)).map (fun a => (key, a.2))).length < (trq L L.length e.1).length := by
        have := hpre e.1 (pre ++ [e]) suf (by rw [hrun]; simp)
        rw [List.filter_append, List.map_append, ← List.append_assoc, List.length_append (bs := List.map _ _)] at this
        simp only [List.filter_cons, beq_self_eq_true, if_true, List.filter_nil, List.map_cons, List.map_nil, List.length_singleton] at this
        omega
      have hmax : trOff L e.1 + (trq L L.length e.1).length ≤ trOff L r := trOff_le L hke
      refine Sat.read (Buf.read_ok.mpr (hoff e.1 (by omega))) (Sat.read (Buf.read_ok.mpr (g4 e.1 hke)) ?_)
      generalize hP : (fun k => trq L key k ++ (pre.filter (fun e => e.1 == k)).map (fun e => (key, e.2))) = P at *
      have hP' : ∀ k, trq L key k ++ (pre.filter (fun e => e.1 == k)).map (fun e => (key, e.2)) = P k := fun k => congrFun hP k
      have hPn : ∀ k, trq L key k ++ ((pre ++ [e]).filter (fun e => e.1 == k)).map (fun e => (key, e.2)) = P k ++ (if e.1 = k then [(key, e.2)] else []) := by
        intro k
        rw [List.filter_append, List.map_append, ← List.append_assoc, hP']
        by_cases hk : e.1 = k
        · simp [hk]
        · simp [hk]
      simp only [hP'] at g4 g5 hslot ⊢
      rw [Buf.write_ok (by omega)]
      simp only [bind_ok']
      rw [Buf.write_ok (by omega)]
      simp only [bind_ok']
      rw [Buf.write_ok (by omega)]
      refine Sat.pure ⟨by simp [g1], by simp [g2], by simp [g3], ?_, ?_⟩
      · intro k hk
        simp only
        rw [List.getElem?_set, hPn]
        by_cases hkk : e.1 = k
        · subst hkk
          rw [if_pos rfl, if_pos (by omega)]; simp
        · rw [if_neg hkk, g4 k hk]; simp [hkk]
      · intro k hk t a ha
        simp only
        rw [hPn] at ha
        rw [List.getElem?_set, List.getElem?_set, g2, g3]
        by_cases hkk : e.1 = k
        · subst hkk
          rw [if_pos rfl] at ha
          by_cases ht : (P e.1).length = t
          · subst ht
            rw [List.getElem?_append_right (Nat.le_refl _)] at ha
            simp only [Nat.sub_self, List.getElem?_cons_zero, Option.some.injEq] at ha
            subst ha
            rw [if_pos rfl, if_pos rfl, if_pos (by omega), if_pos (by omega)]
            exact ⟨rfl, rfl⟩
          · rw [if_neg (by omega), if_neg (by omega)]
            have : t < (P e.1).length := by
              have := (List.getElem?_eq_some_iff.mp ha).1
              rw [List.length_append, List.length_singleton] at this
              omega
            rw [List.getElem?_append_left this] at ha
            exact g5 e.1 hk t a ha
        · rw [if_neg hkk, List.append_nil] at ha
          have htl := (List.getElem?_eq_some_iff.mp ha).1
          have hle : (P k).length ≤ (trq L L.length k).length := by
            rw [← hP']; exact hpre k pre (e :: suf) hrun
          have hne : trOff L e.1 + (P e.1).length ≠ trOff L k + t := by
            rcases Nat.lt_or_gt_of_ne hkk with hlt | hlt
            · have := trOff_le L hlt; omega
            · have := trOff_le L hlt; omega
          rw [if_neg hne, if_neg hne]
          exact g5 k hk t a ha
    · rintro ⟨cur, vs, ks⟩ g
      refine Sat.pure ⟨rfl, ?_⟩
      simp only [trq_succ, hgd]
      exact g
  · rintro ⟨key, cur, vs, ks⟩ ⟨-, -, g2, g3, -, g5⟩
    simp only at g2 g3 g5
    have hlen : (trans L r).length = r := by simp [trans]
    refine Sat.pure ⟨rfl, g2.trans hcap.symm, rfl, by simp only [hlen, h1], ?_, by simp only [g2, g3], ?_⟩
    · intro q hq
      rw [hlen] at hq
      rw [trans_take L hq]
      exact hoff q hq
    · intro p e hp
      obtain ⟨k, run, t, hk, ht, rfl⟩ := flatten_locate _ _ _ hp
      have hkl := (List.getElem?_eq_some_iff.mp hk).1
      rw [hlen] at hkl
      rw [trans_take L (by omega)]
      have : run = trq L L.length k := by
        simp only [trans, List.getElem?_map, List.getElem?_range hkl, Option.map_some, Option.some.injEq] at hk
        exact hk.symm
      rw [this] at ht
      exact g5 k hkl t e ht

theorem trans_length (L : List (List (Nat × R))) (r : Nat) : (trans L r).length = r := by simp [trans]

theorem trans_bound {S : Sparse R} {r c : Nat} {L : List (List (Nat × R))} (h : S.Valid r c L) (K : Nat) :
    ∀ run ∈ trans L K, ∀ e ∈ run, e.1 < S.ori.majorIx c r := by
  intro run hrun e he
  simp only [trans, List.mem_map, List.mem_range] at hrun
  obtain ⟨k, hk, rfl⟩ := hrun
  have := trq_bound L L.length k e he
  rw [h.runs] at this
  revert this; cases S.ori <;> exact id

theorem trans_sorted {S : Sparse R} {r c : Nat} {L : List (List (Nat × R))} (h : S.Valid r c L) (K : Nat) :
    ∀ run ∈ trans L K, run.Pairwise (fun a b => a.1 < b.1) := by
  intro run hrun
  simp only [trans, List.mem_map, List.mem_range] at hrun
  obtain ⟨k, hk, rfl⟩ := hrun
  exact trq_sorted h.sorted L.length k

theorem transpose_sat {S : Sparse R} {r c : Nat} {L : List (List (Nat × R))} (h : S.Valid r c L)
    (hK : S.ori.majorIx r c = r) (hr : 0 < r) :
    Sat S.transpose (fun T => T.ori = S.ori ∧ T.value.length = (if S.nnz = 0 then c * r else S.nnz) ∧
      T.Valid c r (trans L r)) := by
  refine Sat.mono (transpose_core h (by intro run hrun e he; rw [← hK]; exact h.bound run hrun e he) hr) ?_
  intro T t
  refine ⟨t.ori, t.valueLen, by rw [t.dim]; rfl, by rw [t.dim]; rfl, by rw [t.dim]; rfl, ?_, t.offsLen, t.offs, t.keyLen, t.cells, ?_,
    trans_sorted h r⟩
  · rw [trans_length, t.ori]
    revert hK; cases S.ori <;> simp [Ori.majorIx, Ori.minorIx]
    intro h; exact h.symm
  · rw [t.ori]; exact trans_bound h r

end Sparse
end BB
