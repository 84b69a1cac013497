import Verif.Props.Exact
import Verif.Props.Orient
import Verif.Props.Sparse

/-!
# C62, exactly, for sparse matrices of any orientation
-/

namespace BB

variable {R : Type}

theorem Buf.orUb_read {T : Type} (b : Buf T) (p : Nat) : OrUb (b.read p) (fun _ => True) := by
  unfold Buf.read
  split
  · exact .inl ⟨_, rfl, trivial⟩
  · exact .inr rfl

theorem Buf.orUb_write {T : Type} (b : Buf T) (p : Nat) (x : T) : OrUb (b.write p x) (fun b' => p < b.length ∧ b'.length = b.length) := by
  unfold Buf.write
  split
  · rename_i h
    exact .inl ⟨_, rfl, h, by simp⟩
  · exact .inr rfl

theorem Emit.orUb_push (E : Emit R) (k : Nat) (x : R) : OrUb (E.push k x) (fun E' => E'.offset = E.offset ∧ E'.io = E.io) := by
  unfold Emit.push
  exact (Buf.orUb_write _ _ _).bind fun v _ => (Buf.orUb_write _ _ _).bind fun ks _ => .inl ⟨_, rfl, rfl, rfl⟩

theorem Emit.orUb_mark (E : Emit R) : OrUb E.mark (fun E' => E.io < E.offset.length ∧ E'.offset.length = E.offset.length ∧ E'.io = E.io + 1) := by
  unfold Emit.mark
  exact (Buf.orUb_write _ _ _).bind fun o ho => .inl ⟨_, rfl, ho.1, ho.2, rfl⟩

theorem OrUb.false {α : Type} {x : Res α} (h : OrUb x (fun _ => False)) : x = .error .ub := by
  rcases h with ⟨_, _, h⟩ | h
  · exact h.elim
  · exact h

theorem OrUb.next {α β : Type} {x : Res α} {f : α → Res β} {P : α → Prop} {Q : β → Prop} (h : OrUb x P) (hf : ∀ a, OrUb (f a) Q) : OrUb (x >>= f) Q :=
  h.bind fun a _ => hf a

namespace Sparse

/-- Row-major sources: the compression loop copies the leading square of the transposed matrix. -/
theorem ofView_cross_sat {T : Type} (chk : R → Bool) (cvt : R → T) (o : Ori) {v : View} {b : Buf R} {f : Nat → Nat → R}
    (hf : v.Fits b.length) (hr : v.Reads b f) (ho : v.ori = .row) {cnt : Nat} (hN : o.minorIx v.rows v.cols ≤ o.majorIx v.rows v.cols)
    (hcnt : (picks chk cvt (o.elem fun i j => f j i) (o.minorIx v.rows v.cols) (o.minorIx v.rows v.cols)).flatten.length ≤ cnt) :
    Sat (ofView chk cvt o v b cnt) (fun S => S.ori = o ∧ S.value.length = cnt ∧
      S.Valid v.rows v.cols (picks chk cvt (o.elem fun i j => f j i) (o.minorIx v.rows v.cols) (o.minorIx v.rows v.cols))) := by
  generalize hg : o.elem (fun i j => f j i) = g at *
  generalize hM : o.majorIx v.rows v.cols = M at *
  generalize hNN : o.minorIx v.rows v.cols = N at *
  have hminor : (Dim.mk' v.rows v.cols).minor o = N := by
    rw [← hNN]; cases o <;> rfl
  unfold ofView
  simp only [hminor]
  refine Sat.bind (Sat.raw (fun q E => EmitInv cnt (N+1) (picks chk cvt g N q) [] q E) ?_ ?_) ?_
  · have := EmitInv.start o (Dim.mk' v.rows v.cols) (Buf.alloc cnt : Buf T) (Buf.alloc cnt) (Buf.alloc (N+1)) (by simp)
    simpa [picks] using this
  · intro q E hq hE
    have hlen := picks_length chk cvt g N q
    have hE' : EmitInv cnt (N+1) (picks chk cvt g N q) [] (picks chk cvt g N q).length E := by rw [hlen]; exact hE
    refine Sat.bind (hE'.mark (by omega)) ?_
    intro E hE
    rw [hlen] at hE
    have inner : ∀ (k : Nat) (p : Nat) (t : Nat × Emit T), k < N → b.read p = .ok (g q k) →
        (t.1 = k ∧ EmitInv cnt (N+1) (picks chk cvt g N q) (pick chk cvt g k q) (q+1) t.2) →
        Sat (do
          let x ← b.read p
          let E ← if chk x then t.2.push t.1 (cvt x) else pure t.2
          return (t.1 + 1, E))
          (fun t => t.1 = k + 1 ∧ EmitInv cnt (N+1) (picks chk cvt g N q) (pick chk cvt g (k+1) q) (q+1) t.2) := by
      rintro k p ⟨k', E⟩ hk hread ⟨h1, h2⟩
      simp only at h1 h2
      subst h1
      refine Sat.read hread ?_
      rw [pick_succ]
      by_cases hchk : chk (g q k')
      · simp only [hchk, if_true]
        refine Sat.bind (h2.push k' (cvt (g q k')) ?_) ?_
        · have := picks_le chk cvt g N (q := q) (N := N) (k := k'+1) hq (by omega)
          rw [pick_succ] at this
          simp only [hchk, if_true, List.length_append, List.length_singleton] at this
          rw [List.length_append]
          omega
        · intro E hE
          exact Sat.pure ⟨rfl, hE⟩
      · simp only [hchk, Bool.false_eq_true, if_false, List.append_nil]
        exact Sat.pure ⟨rfl, h2⟩
    have fin : ∀ x : Res (Nat × Emit T), Sat x (fun t => t.1 = N ∧ EmitInv cnt (N+1) (picks chk cvt g N q) (pick chk cvt g N q) (q+1) t.2) →
        Sat (do let t ← x; pure t.2) (fun E => EmitInv cnt (N+1) (picks chk cvt g N (q+1)) [] (q+1) E) := by
      intro x hx
      refine Sat.bind hx ?_
      rintro ⟨k, E⟩ ⟨-, hE⟩
      refine Sat.pure ?_
      rw [picks_succ]
      exact hE.close (by omega)
    have init : EmitInv cnt (N+1) (picks chk cvt g N q) (pick chk cvt g 0 q) (q+1) E := by simpa [pick] using hE
    cases o with
    | row =>
      rw [if_pos ho]
      refine fin _ ?_
      simp only [Ori.minorIx, Ori.majorIx] at hM hNN
      subst hM hNN
      refine Sat.colLoop hf (by omega) (fun k (t : Nat × Emit T) => t.1 = k ∧ EmitInv cnt (v.rows+1) (picks chk cvt g v.rows q) (pick chk cvt g k q) (q+1) t.2)
        ⟨rfl, init⟩ ?_
      intro k t hk hI
      refine inner k _ t hk ?_ hI
      have := hr k q hk (by omega)
      rw [View.get_eq hk (by omega)] at this
      rw [this, ← hg]; rfl
    | col =>
      rw [if_neg (by rw [ho]; decide)]
      refine fin _ ?_
      simp only [Ori.minorIx, Ori.majorIx] at hM hNN
      subst hM hNN
      refine Sat.rowLoop hf (by omega) (fun k (t : Nat × Emit T) => t.1 = k ∧ EmitInv cnt (v.cols+1) (picks chk cvt g v.cols q) (pick chk cvt g k q) (q+1) t.2)
        ⟨rfl, init⟩ ?_
      intro k t hk hI
      refine inner k _ t hk ?_ hI
      have := hr q k (by omega) hk
      rw [View.get_eq (by omega) hk] at this
      rw [this, ← hg]; rfl
  · intro E hE
    have hlen := picks_length chk cvt g N N
    have hE' : EmitInv cnt (N+1) (picks chk cvt g N N) [] (picks chk cvt g N N).length E := by rw [hlen]; exact hE
    refine Sat.bind (hE'.mark (by omega)) ?_
    intro E hE
    refine Sat.pure ⟨rfl, hE.vlen, hE.valid (by omega) rfl (by rw [hlen, ← hNN]) ?_ ?_⟩
    · intro run hrun e he
      simp only [picks, List.mem_map, List.mem_range] at hrun
      obtain ⟨q, _, rfl⟩ := hrun
      have := pick_bound chk cvt g N q e he
      show e.1 < o.majorIx v.rows v.cols
      rw [hM]; omega
    · intro run hrun
      simp only [picks, List.mem_map, List.mem_range] at hrun
      obtain ⟨q, _, rfl⟩ := hrun
      exact pick_sorted chk cvt g N q

/-- Row-major sources, more runs than the cursor has: reads beyond the array. -/
theorem ofView_cross_ub {T : Type} (chk : R → Bool) (cvt : R → T) (o : Ori) (r c : Nat) {b : Buf R} (hb : b.length = r * c) (cnt : Nat)
    (hN : o.majorIx r c < o.minorIx r c) (hc : 0 < c) : ofView chk cvt o (View.plain .row r c) b cnt = .error .ub := by
  apply OrUb.false
  have body : ∀ p (t : Nat × Emit T), OrUb (do
      let x ← b.read p
      let E ← if chk x then t.2.push t.1 (cvt x) else pure t.2
      return (t.1 + 1, E)) (fun _ => p < b.length) := by
    intro p t
    by_cases hp : p < b.length
    · refine (Buf.orUb_read b p).next fun x => ?_
      dsimp only
      split
      · exact (Emit.orUb_push _ _ _).next fun E => .inl ⟨_, rfl, hp⟩
      · exact .inl ⟨_, rfl, hp⟩
    · right
      have : b.read p = .error .ub := by
        unfold Buf.read
        rw [List.getElem?_eq_none (by omega)]
      rw [this]; rfl
  have hminor : (Dim.mk' r c).minor o = o.minorIx r c := by cases o <;> rfl
  unfold ofView
  simp only [View.plain, hminor]
  refine OrUb.bind (P := fun _ => False) ?_ fun _ h => h.elim
  rw [ptrLoop_eq _ (o.minorIx r c) 0 _ 1 _ (by omega) (by omega)]
  refine (OrUb.loop (fun q _ => q ≤ o.majorIx r c) (Nat.zero_le _) ?_).mono fun _ h => by omega
  intro q E hq hI
  simp only [Nat.zero_add, Nat.mul_one]
  refine (Emit.orUb_mark E).next fun E => ?_
  cases o with
  | row =>
    simp only [Ori.minorIx, Ori.majorIx] at hN hq hI
    rw [if_pos rfl, ptrLoop_eq _ r _ _ _ _ (by intro _; show 0 < (View.plain .row r c).colStride; simpa [View.colStride, View.plain] using hc) (by simp [View.colEnd, View.colBegin, View.colStride])]
    refine OrUb.bind (P := fun _ => q < c) ?_ fun t ht => .inl ⟨_, rfl, ht⟩
    obtain ⟨m, rfl⟩ : ∃ m, r = m + 1 := ⟨r - 1, by omega⟩
    rw [loopN]
    refine OrUb.bind (OrUb.loop (fun _ _ => True) trivial fun i s _ _ => (body _ _).mono fun _ _ => trivial) fun t _ => (body _ _).mono fun _ h => ?_
    simp only [View.colBegin, View.colStride, hb, Nat.succ_mul] at h
    omega
  | col =>
    simp only [Ori.minorIx, Ori.majorIx] at hN hq hI
    rw [if_neg (by decide), ptrLoop_eq _ c _ _ _ _ (fun _ => by simp [View.rowStride]) (by simp [View.rowEnd, View.rowBegin, View.rowStride])]
    refine OrUb.bind (P := fun _ => q < r) ?_ fun t ht => .inl ⟨_, rfl, ht⟩
    obtain ⟨m, rfl⟩ : ∃ m, c = m + 1 := ⟨c - 1, by omega⟩
    rw [loopN]
    refine OrUb.bind (OrUb.loop (fun _ _ => True) trivial fun i s _ _ => (body _ _).mono fun _ _ => trivial) fun t _ => (body _ _).mono fun _ h => ?_
    simp only [View.rowBegin, View.rowStride, hb] at h
    by_contra hn
    have : r * (m + 1) ≤ q * (m + 1) := Nat.mul_le_mul_right _ (by omega)
    omega

end Sparse

/-- C62, dense → sparse from a row-major source, exactly: if the target has at most as many runs as their length (rows ≤ columns
for a row-major target, columns ≤ rows for a column-major one), the result is the r×c matrix whose leading square is that of
the *transposed* source, all other elements are zero; otherwise, unless the source is empty, the conversion is undefined. -/
theorem C62_dense_to_sparse_exact {T : Type} [Zero T] (chk : R → Bool) (cvt : R → T) (o : Ori) (A : Dense R) (r c : Nat) (f : Nat → Nat → R)
    (hA : A.Is r c f) (ho : A.ori = .row) :
    (o.minorIx r c ≤ o.majorIx r c → ∃ S, Sparse.ofDense chk cvt o A = .ok S ∧ S.ori = o ∧
      S.Is r c (fun i j => if o.majorIx i j < o.minorIx r c ∧ chk (f j i) then cvt (f j i) else 0)) ∧
    (o.majorIx r c < o.minorIx r c → 0 < c → Sparse.ofDense chk cvt o A = .error .ub) := by
  have e := hA.view_rows
  constructor
  · intro hN
    have := Sparse.ofView_cross_sat chk cvt o (v := A.view) (b := A.data) (f := f) (cnt := countAcc chk r c f) hA.fits (by
      intro i j hi hj
      rw [e] at hi hj
      exact hA.elems i j hi hj) (by rw [e]; exact ho) (by rw [e]; exact hN) (by
        rw [e]
        simp only [View.plain]
        have h1 := Sparse.picks_count chk cvt o (fun i j => f j i) (o.minorIx r c) (o.minorIx r c)
        have h2 : o.majorIx (o.minorIx r c) (o.minorIx r c) = o.minorIx r c ∧ o.minorIx (o.minorIx r c) (o.minorIx r c) = o.minorIx r c := by
          cases o <;> exact ⟨rfl, rfl⟩
        rw [h2.1, h2.2] at h1
        rw [h1]
        unfold countAcc
        rw [Finset.sum_comm]
        have hr : o.minorIx r c ≤ r := by cases o <;> simp only [Ori.minorIx, Ori.majorIx] at hN ⊢ <;> omega
        have hc : o.minorIx r c ≤ c := by cases o <;> simp only [Ori.minorIx, Ori.majorIx] at hN ⊢ <;> omega
        refine (Finset.sum_le_sum fun i _ => Finset.sum_le_sum_of_subset (Finset.range_mono hc)).trans ?_
        exact Finset.sum_le_sum_of_subset (Finset.range_mono hr))
    rw [e] at this
    simp only [View.plain] at this
    obtain ⟨S, eS, h1, -, h3⟩ := this
    refine ⟨S, ?_, h1, _, h3, ?_⟩
    · unfold Sparse.ofDense
      rw [Sparse.count_dense chk hA, bind_ok', e]
      exact eS
    · intro i j hi hj
      rw [h1]
      have hq : o.minorIx i j < o.minorIx r c := by cases o <;> simp only [Ori.minorIx] <;> omega
      have : (Sparse.picks chk cvt (o.elem fun i j => f j i) (o.minorIx r c) (o.minorIx r c)).getD (o.minorIx i j) [] =
          Sparse.pick chk cvt (o.elem fun i j => f j i) (o.minorIx r c) (o.minorIx i j) := by
        simp [Sparse.picks, List.getD, hq]
      rw [this, Sparse.entryAt_pick]
      cases o <;> rfl
  · intro hN hc
    unfold Sparse.ofDense
    rw [Sparse.count_dense chk hA, bind_ok', e, ho]
    exact Sparse.ofView_cross_ub chk cvt o r c hA.alloc _ hN hc

/-- Non-vacuity: a 2×3 row-major source, both cases: a row-major target receives the leading square of the transposed matrix,
a column-major target cannot be built. -/
example : (∃ S D, Sparse.ofDense (fun _ => true) id .row (Dense.ofFn .row 2 3 (fun i j => (10 * i + j + 1 : Int))) = .ok S ∧
      S.toDense id .row = .ok D ∧ D.data = [some 1, some 11, some 0, some 2, some 12, some 0]) ∧
    Sparse.ofDense (fun _ => true) id .col (Dense.ofFn .row 2 3 (fun i j => (10 * i + j + 1 : Int))) = .error .ub :=
  ⟨⟨_, _, rfl, rfl, rfl⟩, rfl⟩

end BB
