import Verif.Props.TransRow
import Verif.Props.BlockSize
import Verif.Props.Checker
import Verif.Props.Compare
import Verif.Props.DimHist
import Verif.Props.Dyn

/-!
# Negative results for every input

Defects that elsewhere are shown by a witness, stated for all inputs that trigger them.
-/

namespace BB

variable {R : Type}

/-! ### C33: a count that does not fit -/

theorem OrUb.rowLoop {σ : Type} {v : View} {n i : Nat} {f : Nat → σ → Res σ} {s : σ} (hf : v.Fits n) (hi : i < v.rows)
    (I : Nat → σ → Prop) (h0 : I 0 s) (hs : ∀ j s, j < v.cols → I j s → OrUb (f (v.base + v.pos i j) s) (I (j+1))) :
    OrUb (ptrLoop (v.rowBegin i) (v.rowEnd i) v.rowStride f s) (I v.cols) := by
  rw [View.rowLoop hf hi]
  exact OrUb.loop I h0 hs

theorem OrUb.colLoop {σ : Type} {v : View} {n j : Nat} {f : Nat → σ → Res σ} {s : σ} (hf : v.Fits n) (hj : j < v.cols)
    (I : Nat → σ → Prop) (h0 : I 0 s) (hs : ∀ i s, i < v.rows → I i s → OrUb (f (v.base + v.pos i j) s) (I (i+1))) :
    OrUb (ptrLoop (v.colBegin j) (v.colEnd j) v.colStride f s) (I v.rows) := by
  rw [View.colLoop hf hj]
  exact OrUb.loop I h0 hs

/-- `n` elements have been written to value storage of `cap` cells. -/
def Emit.Wrote (cap n : Nat) (E : Emit R) : Prop := E.iv = n ∧ n ≤ cap ∧ E.value.length = cap

theorem Emit.Wrote.push {cap n : Nat} {E : Emit R} (h : E.Wrote cap n) (k : Nat) (x : R) : OrUb (E.push k x) (Emit.Wrote cap (n + 1)) := by
  obtain ⟨h1, h2, h3⟩ := h
  unfold Emit.push
  refine (Buf.orUb_write _ _ _).bind fun v hv => (Buf.orUb_write _ _ _).bind fun ks _ => .inl ⟨_, rfl, ?_, ?_, ?_⟩
  · show E.iv + 1 = n + 1
    rw [h1]
  · omega
  · exact hv.2.trans h3

theorem Emit.Wrote.mark {cap n : Nat} {E : Emit R} (h : E.Wrote cap n) : OrUb E.mark (Emit.Wrote cap n) := by
  unfold Emit.mark
  exact (Buf.orUb_write _ _ _).bind fun o _ => .inl ⟨_, rfl, h⟩

/-- C33, exactly: the construction of a sparse matrix from a column-major view that relies on the number `cnt` of significant elements
succeeds if and only if that number is at least the true one; if it is too small, the construction writes beyond its arrays; if it is
too large, the result is right, with unused cells at the end. -/
theorem C33_count_exact {T : Type} [Zero T] (chk : R → Bool) (cvt : R → T) (o : Ori) (v : View) (b : Buf R) (f : Nat → Nat → R) (cnt : Nat)
    (hf : v.Fits b.length) (hr : v.Reads b f) (ho : v.ori = .col) :
    let total := ∑ i ∈ Finset.range v.rows, ∑ j ∈ Finset.range v.cols, if chk (f i j) then 1 else 0
    (total ≤ cnt → ∃ S, Sparse.ofView chk cvt o v b cnt = .ok S ∧ S.ori = o ∧ S.nnz = cnt ∧
      S.Is v.rows v.cols (fun i j => if chk (f i j) then cvt (f i j) else 0)) ∧
    (cnt < total → Sparse.ofView chk cvt o v b cnt = .error .ub) := by
  intro total
  have htot : (Sparse.picks chk cvt (o.elem f) (o.majorIx v.rows v.cols) (o.minorIx v.rows v.cols)).flatten.length = total :=
    Sparse.picks_count chk cvt o f _ _
  constructor
  · intro h
    obtain ⟨S, e, h1, h2, h3⟩ := Sparse.ofView_le chk cvt o hf hr ho (cnt := cnt) (htot.le.trans h)
    refine ⟨S, e, h1, h2, _, h3, ?_⟩
    intro i j hi hj
    rw [h1]
    exact (Sparse.entry_picks chk cvt o f hi hj).symm
  · intro h
    apply OrUb.false
    generalize hg : o.elem f = g at *
    generalize hM : o.majorIx v.rows v.cols = M at *
    generalize hN : o.minorIx v.rows v.cols = N at *
    have hminor : (Dim.mk' v.rows v.cols).minor o = N := by rw [← hN]; cases o <;> rfl
    unfold Sparse.ofView
    simp only [hminor]
    refine OrUb.bind (P := fun _ => False) ?_ fun _ h => h.elim
    rw [ptrLoop_eq _ N 0 N 1 _ (by omega) (by omega)]
    refine (OrUb.loop (fun q (E : Emit T) => E.Wrote cnt (Sparse.picks chk cvt g M q).flatten.length) ⟨by simp [Sparse.picks, Sparse.emit], by simp [Sparse.picks],
      by simp [Sparse.emit]⟩ ?_).mono ?_
    · intro q E hq hE
      simp only [Nat.zero_add, Nat.mul_one]
      refine hE.mark.bind fun E hE => ?_
      have inner : ∀ (k p : Nat) (t : Nat × Emit T), b.read p = .ok (g q k) →
          t.2.Wrote cnt ((Sparse.picks chk cvt g M q).flatten.length + (Sparse.pick chk cvt g k q).length) →
          OrUb (do
            let x ← b.read p
            let E ← if chk x then t.2.push t.1 (cvt x) else pure t.2
            return (t.1 + 1, E))
            (fun t => t.2.Wrote cnt ((Sparse.picks chk cvt g M q).flatten.length + (Sparse.pick chk cvt g (k + 1) q).length)) := by
        rintro k p ⟨k', E⟩ hread h2
        rw [hread, bind_ok', Sparse.pick_succ]
        by_cases hchk : chk (g q k)
        · simp only [hchk, if_true, List.length_append, List.length_singleton]
          exact (Emit.Wrote.push h2 _ _).bind fun E hE => .inl ⟨_, rfl, by simpa only [Nat.add_assoc] using hE⟩
        · simp only [hchk, Bool.false_eq_true, if_false, List.append_nil]
          exact .inl ⟨_, rfl, h2⟩
      have fin : ∀ x : Res (Nat × Emit T), OrUb x (fun t => t.2.Wrote cnt ((Sparse.picks chk cvt g M q).flatten.length + (Sparse.pick chk cvt g M q).length)) →
          OrUb (do let t ← x; pure t.2) (fun E => E.Wrote cnt (Sparse.picks chk cvt g M (q + 1)).flatten.length) := by
        intro x hx
        refine hx.bind fun t ht => .inl ⟨_, rfl, ?_⟩
        rw [Sparse.picks_succ]
        simpa using ht
      cases o with
      | col =>
        rw [if_pos ho]
        refine fin _ ?_
        simp only [Ori.minorIx, Ori.majorIx] at hM hN
        subst hM hN
        refine OrUb.colLoop hf hq (fun k (t : Nat × Emit T) => t.2.Wrote cnt ((Sparse.picks chk cvt g v.rows q).flatten.length + (Sparse.pick chk cvt g k q).length))
          (by simpa [Sparse.pick] using hE) ?_
        intro k t hk hI
        refine inner k _ t ?_ hI
        have := hr k q hk hq
        rw [View.get_eq hk hq] at this
        rw [this, ← hg]; rfl
      | row =>
        rw [if_neg (by rw [ho]; decide)]
        refine fin _ ?_
        simp only [Ori.minorIx, Ori.majorIx] at hM hN
        subst hM hN
        refine OrUb.rowLoop hf hq (fun k (t : Nat × Emit T) => t.2.Wrote cnt ((Sparse.picks chk cvt g v.cols q).flatten.length + (Sparse.pick chk cvt g k q).length))
          (by simpa [Sparse.pick] using hE) ?_
        intro k t hk hI
        refine inner k _ t ?_ hI
        have := hr q k hq hk
        rw [View.get_eq hq hk] at this
        rw [this, ← hg]; rfl
    · rintro E ⟨-, h2, -⟩
      omega

/-! ### C64: counting reads every cell -/

theorem Sparse.countBuf_init (chk : R → Bool) (b : Buf R) : OrUb (Sparse.countBuf chk b) (fun _ => ∀ x ∈ b, x ≠ none) := by
  unfold Sparse.countBuf
  rw [ptrLoop_eq _ b.length 0 _ 1 _ (by omega) (by omega)]
  refine (OrUb.loop (fun p _ => ∀ q, q < p → b[q]? ≠ some none) (fun q h => by omega) ?_).mono ?_
  · intro p n hp hI
    simp only [Nat.zero_add, Nat.mul_one]
    by_cases h : b[p]? = some none
    · right
      have : b.read p = .error .ub := by unfold Buf.read; rw [h]
      rw [this]; rfl
    · refine (Buf.orUb_read _ _).next fun x => .inl ⟨_, rfl, fun q hq => ?_⟩
      by_cases hqp : q = p
      · rw [hqp]; exact h
      · exact hI q (by omega)
  · intro n h x hx
    obtain ⟨q, hq, rfl⟩ := List.mem_iff_getElem.mp hx
    intro e
    exact h q hq (by rw [List.getElem?_eq_getElem hq, e])

/-- C64, exactly: the number of significant elements of a sparse matrix can be asked for if and only if every cell of its value array,
used or not, has been written. -/
theorem C64_count_iff [LT R] [DecidableLT R] [LE R] [DecidableLE R] [HasAbs R] (k : Checker R) (S : Sparse R) :
    ((∃ n, S.countSig k = .ok n) ↔ ∀ x ∈ S.value, x ≠ none) ∧
    ((∃ x ∈ S.value, x = none) → S.countSig k = .error .ub) := by
  have key := Sparse.countBuf_init k.accepts S.value
  refine ⟨⟨?_, ?_⟩, ?_⟩
  · rintro ⟨n, e⟩
    rcases key with ⟨_, -, h⟩ | h
    · exact h
    · exact absurd (e.symm.trans h) (by simp)
  · intro h
    have : Sat (Sparse.countBuf k.accepts S.value) (fun _ => True) := by
      unfold Sparse.countBuf
      refine Sat.raw (fun _ _ => True) trivial fun p n hp _ => ?_
      cases hx : S.value[p] with
      | none => exact absurd hx (h _ (List.getElem_mem hp))
      | some x => exact Sat.read (Buf.read_ok.mpr (by rw [List.getElem?_eq_getElem hp, hx])) (Sat.pure trivial)
    obtain ⟨n, e, -⟩ := this
    exact ⟨n, e⟩
  · rintro ⟨x, hx, rfl⟩
    rcases key with ⟨_, -, h⟩ | h
    · exact absurd rfl (h none hx)
    · exact h

/-! ### C45, C62: error statistics -/

/-- C62: error statistics of matrices of the same shape but any orientations compare the first with the reread second one. -/
theorem C62_error_statistics_exact (A B : Dense ℝ) (r c : Nat) (f g : Nat → Nat → ℝ) (hA : A.Is r c f) (hB : B.Is r c g) :
    (∃ m, A.maxDeviation B = .ok m ∧ (∀ i j, i < r → j < c → |f i j - reread B.ori A.ori r c g i j| ≤ m) ∧
      ((r * c = 0 ∧ m = 0) ∨ ∃ i j, i < r ∧ j < c ∧ |f i j - reread B.ori A.ori r c g i j| = m)) ∧
    (0 < r * c → ∃ x, A.rmsDeviation B = .ok (some x) ∧ 0 ≤ x ∧
      x ^ 2 = (∑ i ∈ Finset.range r, ∑ j ∈ Finset.range c, (f i j - reread B.ori A.ori r c g i j) ^ 2) / ((r * c : Nat) : ℝ)) := by
  constructor
  · obtain ⟨m, e, h1, h2, -⟩ := C45_max A { B with ori := A.ori } r c f _ hA (hB.reread A.ori) rfl
    exact ⟨m, e, h1, h2⟩
  · intro h
    obtain ⟨x, e, h1, h2, -⟩ := C45_rms A { B with ori := A.ori } r c f _ hA (hB.reread A.ori) rfl h
    exact ⟨x, e, h1, h2⟩

theorem foldBuf2_short {V : Type} (step : V → R → R → V) (a b : Buf R) (s : V) (h : b.length < a.length) : foldBuf2 step a b s = .error .ub := by
  apply OrUb.false
  unfold foldBuf2
  rw [ptrLoop_eq _ a.length 0 _ 1 _ (by omega) (by omega)]
  refine (OrUb.loop (fun p _ => p ≤ b.length) (Nat.zero_le _) ?_).mono fun _ h => by omega
  intro p s hp hI
  simp only [Nat.zero_add, Nat.mul_one]
  refine (Buf.orUb_read _ _).next fun x => ?_
  by_cases hpb : p < b.length
  · exact (Buf.orUb_read _ _).next fun y => .inl ⟨_, rfl, hpb⟩
  · right
    have : b.read p = .error .ub := by unfold Buf.read; rw [List.getElem?_eq_none (by omega)]
    rw [this]; rfl

/-- C45, for all sizes: the sizes are not compared; a second matrix with fewer elements is read beyond its end. -/
theorem C45_smaller_second_is_ub (A B : Dense ℝ) (r c r' c' : Nat) (f g : Nat → Nat → ℝ) (hA : A.Is r c f) (hB : B.Is r' c' g) (h : r' * c' < r * c) :
    A.maxDeviation B = .error .ub ∧ A.rmsDeviation B = .error .ub := by
  have hl : B.data.length < A.data.length := by rw [hA.alloc, hB.alloc]; exact h
  constructor
  · exact foldBuf2_short _ _ _ _ hl
  · unfold Dense.rmsDeviation
    rw [foldBuf2_short _ _ _ _ hl]; rfl

/-! ### C41: differences of column-major matrices -/

/-- C41, for every matrix of any orientation: the detection arrays are those of the array read row by row. -/
theorem C41_detection_exact [AddCommGroup R] [Lattice R] (ex : R → R) (A : Dense R) (r c : Nat) (f : Nat → Nat → R)
    (hA : A.Is r c f) (hr : 0 < r) (hc : 0 < c) :
    let g := reread A.ori .row r c f
    detectionArrays ex A = .ok ((List.range (r - 1)).map (fun i => ∑ j ∈ Finset.range c, |ex (g i j) - ex (g (i + 1) j)|),
      (List.range (c - 1)).map (fun j => ∑ i ∈ Finset.range r, |ex (g i j) - ex (g i (j + 1))|)) :=
  C41_row_major_partial ex { A with ori := .row } r c _ (hA.reread .row) rfl hr hc

/-! ### C47: conversion of a swapped sparse matrix -/

theorem Sparse.orUb_forRunL {σ : Type} {S : Sparse R} {r c q : Nat} {L : List (List (Nat × R))} {run : List (Nat × R)} (h : S.Valid r c L)
    (hq : L[q]? = some run) (body : Nat → R → σ → Res σ) (I : Nat → σ → Prop) (s : σ) (h0 : I 0 s)
    (hs : ∀ t e x s, run[t]? = some e → I t s → OrUb (body e.1 x s) (I (t + 1))) : OrUb (S.forRun q body s) (I run.length) := by
  have hql := (List.getElem?_eq_some_iff.mp hq).1
  unfold forRun
  rw [h.readOff (by omega), bind_ok', h.readOff (by omega), bind_ok', take_succ_flatten_length L q run hq,
    ptrLoop_eq _ run.length _ _ 1 _ (by omega) (by omega)]
  refine OrUb.bind (OrUb.loop (fun t (s : Nat × σ) => I t s.2) h0 ?_) fun s hs => .inl ⟨_, rfl, hs⟩
  intro t s ht hI
  have hte : run[t]? = some run[t] := List.getElem?_eq_getElem ht
  generalize run[t] = e at hte
  simp only [Nat.mul_one]
  rw [(h.readKey hq hte).1, bind_ok']
  exact (Buf.orUb_read _ _).next fun x => (hs t e x s.2 hte hI).bind fun s' hs' => .inl ⟨_, rfl, hs'⟩

theorem Sparse.toDense_small {T : Type} [Zero T] (cvt : R → T) (o : Ori) {S : Sparse R} {r c n : Nat} {L : List (List (Nat × R))}
    (h : S.Valid r c L) (hbad : ∃ q run e, L[q]? = some run ∧ e ∈ run ∧
      n ≤ (if S.ori = o then q * o.majorIx r c + e.1 else q + e.1 * o.majorIx r c)) :
    ({ S with dim := { S.dim with fullSize := n } } : Sparse R).toDense cvt o = .error .ub := by
  apply OrUb.false
  have hmaj : (Dim.mk' S.dim.rows S.dim.cols).major o = o.majorIx r c := by
    rw [h.rows, h.cols]; cases o <;> rfl
  have eq : ({ S with dim := { S.dim with fullSize := n } } : Sparse R).toDense cvt o =
      (S.forRuns (fun q (s : Nat × Buf T) => do
        let d ← S.forRun q (fun k x d =>
          if S.ori = o then d.write (s.1 + k) (cvt x)
          else d.write (s.1 + k * (Dim.mk' S.dim.rows S.dim.cols).major o) (cvt x)) s.2
        return (if S.ori = o then s.1 + (Dim.mk' S.dim.rows S.dim.cols).major o else s.1 + 1, d)) (0, List.replicate n (some (0 : T))) >>=
        fun s => pure ⟨o, Dim.mk' S.dim.rows S.dim.cols, s.2⟩) := by
    unfold toDense
    rw [Dense.fillBuf_ok, bind_ok', Buf.length_alloc]
    rfl
  rw [eq, hmaj]
  generalize hP : (fun (q : Nat) (e : Nat × R) => if S.ori = o then q * o.majorIx r c + e.1 else q + e.1 * o.majorIx r c) = P
  have hP' : ∀ q e, (if S.ori = o then q * o.majorIx r c + e.1 else q + e.1 * o.majorIx r c) = P q e := fun q e => by rw [← hP]
  simp only [hP'] at hbad
  refine OrUb.bind (P := fun _ => False) ?_ fun _ h => h.elim
  refine (Sparse.orUb_forRuns S h.offsLen _ _ (fun q (s : Nat × Buf T) => s.2.length = n ∧
    s.1 = (if S.ori = o then q * o.majorIx r c else q) ∧ ∀ q' run, q' < q → L[q']? = some run → ∀ e ∈ run, P q' e < n)
    ⟨by simp, by simp, fun q' run h => by omega⟩ ?_).mono ?_
  · rintro q ⟨pos, d⟩ hq ⟨h1, h2, h3⟩
    simp only at h1 h2
    have hqr : L[q]? = some L[q] := List.getElem?_eq_getElem hq
    generalize L[q] = run at hqr
    refine OrUb.bind (Sparse.orUb_forRunL h hqr _ (fun t (d : Buf T) => d.length = n ∧ ∀ u e, u < t → run[u]? = some e → P q e < n) d
      ⟨h1, fun u e h => by omega⟩ ?_) ?_
    · rintro t e x d hte ⟨g1, g2⟩
      have fin : ∀ p, p = P q e → OrUb (d.write p (cvt x)) (fun d : Buf T => d.length = n ∧ ∀ u e, u < t + 1 → run[u]? = some e → P q e < n) := by
        intro p hp
        refine (Buf.orUb_write _ _ _).mono fun d' hd => ⟨hd.2.trans g1, fun u e' hu he' => ?_⟩
        by_cases hut : u = t
        · subst hut
          rw [hte] at he'
          cases he'
          rw [← hp, ← g1]; exact hd.1
        · exact g2 u e' (by omega) he'
      split
      · rename_i hso
        exact fin _ (by rw [← hP', h2, if_pos hso, if_pos hso])
      · rename_i hso
        exact fin _ (by rw [← hP', h2, if_neg hso, if_neg hso])
    · rintro d' ⟨g1, g2⟩
      refine .inl ⟨_, rfl, g1, ?_, ?_⟩
      · simp only [h2]
        split
        · rw [Nat.succ_mul]
        · rfl
      · intro q' run' hq' hr' e he
        by_cases hqq : q' = q
        · subst hqq
          rw [hqr] at hr'
          cases hr'
          obtain ⟨u, hu, rfl⟩ := List.mem_iff_getElem.mp he
          exact g2 u _ hu (List.getElem?_eq_getElem hu)
        · exact h3 q' run' (by omega) hr' e he
  · rintro s ⟨-, -, h3⟩
    obtain ⟨q, run, e, hq, he, hn⟩ := hbad
    have := h3 q run ((List.getElem?_eq_some_iff.mp hq).1) hq e he
    omega

/-- C47, for all operands: after `swap` the first matrix has the elements and dimensions of the second and the size of the first; if
something is stored at a position of the array that this size does not cover, the conversion to a dense matrix writes beyond it. -/
theorem C47_swapped_conversion_is_ub [LinearOrder R] [AddGroup R] {T V : Type} [Zero T] (nrm : Sparse R → Res V) (cvt : R → T) (o : Ori) (A B : Sparse R)
    (r c r' c' : Nat) (LA LB : List (List (Nat × R))) (hA : A.Valid r c LA) (hB : B.Valid r' c' LB)
    (hbad : ∃ q run e, LB[q]? = some run ∧ e ∈ run ∧ r * c ≤ (if B.ori = o then q * o.majorIx r' c' + e.1 else q + e.1 * o.majorIx r' c')) :
    ((Cache.sparseOps nrm).swapped A B).1.toDense cvt o = .error .ub := by
  show ({ B with dim := { B.dim with fullSize := A.dim.fullSize } } : Sparse R).toDense cvt o = .error .ub
  rw [hA.size]
  exact Sparse.toDense_small cvt o hB hbad

/-! ### C66: a rejected pair of parts is kept -/

/-- C66, for all parts: when failures are exceptions, `reset` with parts of different dimensions throws and keeps both parts, whatever
the object held before. -/
theorem C66_reset_keeps_any_mismatch (m : Multi R) (X1 X2 : SMat R) (h : ¬ (X1.rows = X2.rows ∧ X1.cols = X2.cols)) :
    Multi.step .exception m (.reset (some X1) (some X2)) = (⟨some X1, some X2⟩, some (.throw "wrong dimension")) := by
  simp only [Multi.step, Multi.check, Multi.failure]
  by_cases h1 : X1.rows = X2.rows
  · have h2 : X1.cols ≠ X2.cols := fun h2 => h ⟨h1, h2⟩
    simp [h1, h2]
  · simp [h1]

end BB

namespace BB.Dyn

variable {R : Type} [Zero R] [Add R] [Mul R] [Sub R] [Neg R] [DecidableEq R]

/-- C110, for all operands: Zero − M is M for every dense or sparse M. -/
theorem C110_zero_minus_is_wrong (s : State R) (x y z : Nat) (d : Dim) (M : SMat R) (hy : s.at y = some (.one (.zero d))) (hz : s.at z = some (.one M))
    (hM : M.isZero = false) : ∃ s', step s (.sub x y z) = .ok s' ∧ s'.at x = some (.one M) := by
  have key : ∀ v (N : Mat R), s.at v = some N → ∃ l, s.deref v = .ok (l, N) := by
    intro v N h
    unfold State.at at h
    unfold State.deref
    cases hv : s.vars v with
    | none => rw [hv] at h; cases h
    | some l =>
      rw [hv] at h
      have h' : s.heap[l]? = some N := h
      exact ⟨l, by simp only [h']⟩
  obtain ⟨l1, e1⟩ := key y _ hy
  obtain ⟨l2, e2⟩ := key z _ hz
  have e3 : Mat.sub (.one (.zero d)) (.one M) = .ok M := by
    cases M with
    | zero => cases hM
    | dense A => rfl
    | sparse S => rfl
  refine ⟨s.new x (.one M), ?_, ?_⟩
  · simp only [step, e1, e2, bind_ok', e3]
    rfl
  · simp [State.at, State.new]

/-- Non-vacuity: 0 − (5). -/
example : ∃ s : State Int, s.at 0 = some (.one (.zero (Dim.mk' 1 1))) ∧ s.at 1 = some (num 5) ∧ (SMat.dense ⟨.col, Dim.mk' 1 1, [some (5 : Int)]⟩).isZero = false :=
  ⟨⟨[.one (.zero (Dim.mk' 1 1)), num 5], fun v => if v = 0 then some 0 else if v = 1 then some 1 else none, fun _ => none⟩, rfl, rfl, rfl⟩

end BB.Dyn

namespace BB

/-- Non-vacuity of `C33_count_exact`: a 2×2 matrix with three accepted elements; two cells are too few, four are more than enough. -/
example : Sparse.ofView (fun x => decide (x ≠ 0)) id .col (View.plain .col 2 2) ([some 1, some 0, some 3, some 4] : Buf Int) 2 = .error .ub ∧
    ∃ S, Sparse.ofView (fun x => decide (x ≠ 0)) id .col (View.plain .col 2 2) ([some 1, some 0, some 3, some 4] : Buf Int) 4 = .ok S ∧
      S.nnz = 4 ∧ S.value = [some 1, some 3, some 4, none] := ⟨rfl, _, rfl, rfl, rfl⟩

/-- Non-vacuity of `C64_count_iff`: such a matrix cannot be counted. -/
example : (⟨.col, Dim.mk' 2 2, [some 1, some 3, some 4, none], [some 0, some 0, some 1, none], [some 0, some 1, some 3]⟩ : Sparse Int).countSig (.above 0) =
    .error .ub := rfl

/-- Non-vacuity of `C45_smaller_second_is_ub` and `C62_error_statistics_exact`. -/
example (f : Nat → Nat → ℝ) : (Dense.ofFn .col 2 3 f).Is 2 3 f ∧ (Dense.ofFn .row 2 2 f).Is 2 2 f ∧ 2 * 2 < 2 * 3 :=
  ⟨Dense.ofFn_is .., Dense.ofFn_is .., by omega⟩

end BB
