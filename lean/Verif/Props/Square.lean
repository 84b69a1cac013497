import Verif.SpecOrient
import Verif.Props.OrientSparse
import Verif.Props.Sparse

/-!
# C62 for square matrices, every operation with a sparse operand

The sparse algorithms never look at the orientation: they see the column-major matrix with the arrays at hand.  For a square row-major
matrix that is the transposed one.
-/

namespace BB

variable {R : Type}

theorem turn_turn (o : Ori) (f : Nat → Nat → R) : turn o (turn o f) = f := by cases o <;> rfl

theorem Sparse.Is.turn [Zero R] {S : Sparse R} {n : Nat} {f : Nat → Nat → R} (h : S.Is n n f) (o : Ori) :
    ({ S with ori := o } : Sparse R).Is n n (turn o (turn S.ori f)) := by
  obtain ⟨L, v, e⟩ := h
  have m1 : ∀ o : Ori, o.minorIx n n = n := by intro o; cases o <;> rfl
  have m2 : ∀ o : Ori, o.majorIx n n = n := by intro o; cases o <;> rfl
  refine ⟨L, ⟨v.rows, v.cols, v.size, by rw [v.runs, m1, m1], v.offsLen, v.offs, v.keyLen, v.cells, ?_, v.sorted⟩, ?_⟩
  · intro run hr x hx
    have := v.bound run hr x hx
    rw [m2] at this ⊢
    exact this
  · intro i j hi hj
    have e1 := e i j hi hj
    have e2 := e j i hj hi
    revert e1 e2
    show _ → _ → BB.turn o (BB.turn S.ori f) i j = entryAt (L.getD (o.minorIx i j) []) (o.majorIx i j)
    cases S.ori <;> cases o <;> intro e1 e2
    · exact e1
    · exact e2
    · exact e2
    · exact e1

theorem Dense.Is.turn {A : Dense R} {n : Nat} {f : Nat → Nat → R} (h : A.Is n n f) (o : Ori) :
    ({ A with ori := o } : Dense R).Is n n (turn o (turn A.ori f)) := by
  refine (h.reread o).congr ?_
  intro i j hi hj
  unfold BB.reread
  have d1 : ∀ a b, a < n → (a + b * n) / n = b := fun a b ha => by
    rw [Nat.add_mul_div_right _ _ (by omega), Nat.div_eq_of_lt ha, Nat.zero_add]
  have d2 : ∀ a b, a < n → (a + b * n) % n = a := fun a b ha => by
    rw [Nat.add_mul_mod_self_right, Nat.mod_eq_of_lt ha]
  cases hA : A.ori <;> cases o
  · rfl
  · simp only [reduceCtorEq, if_false, BB.turn]
    rw [Nat.add_comm (i * n), d1 j i hj, d2 j i hj]
  · simp only [reduceCtorEq, if_false, BB.turn]
    rw [d1 i j hi, d2 i j hi]
  · rfl

theorem Sparse.resize_ori (C : Sparse R) (o : Ori) (r c : Nat) : ({ C with ori := o } : Sparse R).resize r c = { C.resize r c with ori := o } := rfl

theorem map_step {α β γ : Type} {x : Res α} {k : α → Res β} {k' : α → Res γ} {g : β → γ} (h : ∀ a, k' a = (k a).map g) :
    (x >>= k') = (x >>= k).map g := by
  cases x with
  | error => rfl
  | ok a => exact h a

theorem Sparse.binop_ori (op : R → R → R) (un : R → R) (A B C : Sparse R) :
    Sparse.binop op un A B C = (Sparse.binop op un { A with ori := .col } { B with ori := .col } { C with ori := .col }).map
      (fun D => { D with ori := C.ori }) := by
  unfold Sparse.binop
  refine map_step fun _ => map_step fun _ => ?_
  exact map_step (x := (C.resize A.dim.rows A.dim.cols).emit.mark) fun E => map_step fun E => rfl

theorem Sparse.mulSS_ori [Zero R] [Add R] [Mul R] [DecidableEq R] (A B C : Sparse R) :
    Sparse.mulSS A B C = (Sparse.mulSS { A with ori := .col } { B with ori := .col } { C with ori := .col }).map
      (fun D => { D with ori := C.ori }) := by
  unfold Sparse.mulSS
  refine map_step fun _ => ?_
  exact map_step fun E => map_step fun E => rfl

theorem Sparse.binopDS_ori (op : R → R → R) (A : Dense R) (B : Sparse R) :
    Sparse.binopDS op A B = (Sparse.binopDS op { A with ori := .col } { B with ori := .col }).map (fun D => { D with ori := A.ori }) := by
  unfold Sparse.binopDS
  exact map_step fun _ => map_step fun _ => map_step fun E => rfl

theorem Sparse.mulSD_ori [Zero R] [Add R] [Mul R] (A : Sparse R) (B C : Dense R) :
    Sparse.mulSD A B C = (Sparse.mulSD { A with ori := .col } { B with ori := .col } { C with ori := .col }).map
      (fun D => { D with ori := C.ori }) := by
  unfold Sparse.mulSD
  refine map_step fun _ => ?_
  simp only [Dense.resizeFill, Dense.fillAll, Dense.fillBuf_ok, bind_ok', pure_ok']
  exact map_step fun E => rfl

/-- C62, sums of square sparse matrices of any orientations, exactly: read by columns the result is `A ± B` read by columns.  So the
sum is correct if the three orientations agree, and mixes one matrix with the transposed other one if they do not. -/
theorem C62_square_sparse_sum_exact [Zero R] (op : R → R → R) (un : R → R) (h0 : ∀ x, op x 0 = x) (h1 : ∀ y, op 0 y = un y)
    (A B C : Sparse R) (n : Nat) (f g : Nat → Nat → R) (hA : A.Is n n f) (hB : B.Is n n g) :
    ∃ D, Sparse.binop op un A B C = .ok D ∧ D.ori = C.ori ∧
      D.Is n n (turn C.ori (fun i j => op (turn A.ori f i j) (turn B.ori g i j))) := by
  obtain ⟨D, e, ho, -, h⟩ := C17_sparse_sum op un h0 h1 { A with ori := .col } { B with ori := .col } { C with ori := .col } n n _ _
    (hA.turn .col) (hB.turn .col) rfl rfl (.inl rfl)
  refine ⟨{ D with ori := C.ori }, by rw [Sparse.binop_ori, e]; rfl, rfl, ?_⟩
  have := h.turn C.ori
  rwa [ho] at this

/-- C62, products of square sparse matrices of any orientations, exactly: if all three are row-major the result is `B·A`. -/
theorem C62_square_sparse_product_exact [NonUnitalNonAssocSemiring R] [DecidableEq R] (A B C : Sparse R) (n : Nat)
    (f g : Nat → Nat → R) (hA : A.Is n n f) (hB : B.Is n n g) :
    ∃ D, Sparse.mulSS A B C = .ok D ∧ D.ori = C.ori ∧
      D.Is n n (turn C.ori (fun i j => ∑ l ∈ Finset.range n, turn A.ori f i l * turn B.ori g l j)) := by
  obtain ⟨D, L, e, ho, -, -, -, -, h⟩ := C23_sparse_product { A with ori := .col } { B with ori := .col } { C with ori := .col } n n n _ _
    (hA.turn .col) (hB.turn .col) rfl rfl rfl
  refine ⟨{ D with ori := C.ori }, by rw [Sparse.mulSS_ori, e]; rfl, rfl, ?_⟩
  have := h.turn C.ori
  rwa [ho] at this

/-- C62: the product of square row-major sparse matrices is the product in the wrong order. -/
theorem C62_row_major_sparse_product_is_swapped [NonUnitalNonAssocCommSemiring R] [DecidableEq R] (A B C : Sparse R) (n : Nat)
    (f g : Nat → Nat → R) (hA : A.Is n n f) (hB : B.Is n n g) (oA : A.ori = .row) (oB : B.ori = .row) (oC : C.ori = .row) :
    ∃ D, Sparse.mulSS A B C = .ok D ∧ D.Is n n (fun i j => ∑ l ∈ Finset.range n, g i l * f l j) := by
  obtain ⟨D, e, -, h⟩ := C62_square_sparse_product_exact A B C n f g hA hB
  refine ⟨D, e, ?_⟩
  rw [oA, oB, oC] at h
  simp only [turn] at h
  have e2 : (fun i j => ∑ l ∈ Finset.range n, g i l * f l j) = (fun i j => ∑ l ∈ Finset.range n, f l j * g i l) := by
    funext i j
    exact Finset.sum_congr rfl fun l _ => mul_comm (g i l) (f l j)
  rw [e2]
  exact h

/-- C62, dense ± sparse for square matrices of any orientations, exactly: both arrays are read by columns; the compound assignment
addresses the dense matrix by its indices, so there only the orientation of the sparse operand matters. -/
theorem C62_square_dense_sparse_sum_exact [Zero R] (op : R → R → R) (h0 : ∀ x, op x 0 = x) (A : Dense R) (B : Sparse R) (n : Nat)
    (f g : Nat → Nat → R) (hA : A.Is n n f) (hB : B.Is n n g) :
    (∃ D, Sparse.binopDS op A B = .ok D ∧ D.ori = A.ori ∧ D.Is n n (fun i j => op (f i j) (turn A.ori (turn B.ori g) i j))) ∧
    (∃ D, Sparse.binassignDS op A B = .ok D ∧ D.ori = A.ori ∧ D.Is n n (fun i j => op (f i j) (turn B.ori g i j))) := by
  constructor
  · obtain ⟨⟨D, e, ho, h⟩, -⟩ := C18_dense_sparse_sum op h0 { A with ori := .col } { B with ori := .col } n n _ _
      (hA.turn .col) (hB.turn .col) rfl rfl
    refine ⟨{ D with ori := A.ori }, by rw [Sparse.binopDS_ori, e]; rfl, rfl, ?_⟩
    have := h.turn A.ori
    rw [ho] at this
    revert this
    cases A.ori <;> exact id
  · exact C18_dense_assign_any_orientation op h0 A { B with ori := .col } n n f _ hA (hB.turn .col) rfl

/-- C62, products of square sparse and dense matrices of any orientations, exactly. -/
theorem C62_square_mixed_product_exact [NonUnitalNonAssocSemiring R] (A : Sparse R) (B : Dense R) (C : Dense R) (n : Nat)
    (f g : Nat → Nat → R) (hA : A.Is n n f) (hB : B.Is n n g) :
    (∃ D, Sparse.mulSD A B C = .ok D ∧ D.ori = C.ori ∧
      D.Is n n (turn C.ori (fun i j => ∑ l ∈ Finset.range n, turn A.ori f i l * turn B.ori g l j))) ∧
    (∃ D, Sparse.mulDS B A C = .ok D ∧ D.ori = C.ori ∧
      D.Is n n (fun i j => ∑ l ∈ Finset.range n, g i l * turn A.ori f l j)) := by
  constructor
  · obtain ⟨D, e, ho, h⟩ := C24_sparse_dense_product { A with ori := .col } { B with ori := .col } { C with ori := .col } n n n _ _
      (hA.turn .col) (hB.turn .col) rfl rfl rfl
    refine ⟨{ D with ori := C.ori }, by rw [Sparse.mulSD_ori, e]; rfl, rfl, ?_⟩
    have := h.turn C.ori
    rwa [ho] at this
  · exact C24_dense_sparse_product B { A with ori := .col } C n n n g _ hB (hA.turn .col) rfl

/-! ### Rectangular row-major matrices -/

namespace Sparse

theorem orUb_whileN {σ : Type} (P : σ → Prop) (c : σ → Bool) (f : σ → Res σ) (hf : ∀ s, P s → OrUb (f s) P) (n : Nat) (s : σ) (h : P s) :
    OrUb (whileN n c f s) P := by
  induction n generalizing s with
  | zero =>
    unfold whileN
    split
    · exact .inr rfl
    · exact .inl ⟨_, rfl, h⟩
  | succ n ih =>
    unfold whileN
    split
    · exact (hf s h).bind fun s' hs => ih s' hs
    · exact .inl ⟨_, rfl, h⟩

theorem orUb_forRuns {σ : Type} (S : Sparse R) {n : Nat} (hn : S.offset.length = n + 1) (body : Nat → σ → Res σ) (s : σ) (I : Nat → σ → Prop)
    (h0 : I 0 s) (hs : ∀ q s, q < n → I q s → OrUb (body q s) (I (q + 1))) : OrUb (S.forRuns body s) (I n) := by
  unfold forRuns
  rw [if_neg (by omega), hn, Nat.add_sub_cancel, ptrLoop_eq _ n 0 n 1 _ (by omega) (by omega)]
  refine OrUb.loop I h0 fun q s hq hI => ?_
  simpa using hs q s hq hI

theorem orUb_ptrLoop {σ : Type} (P : σ → Prop) {f : Nat → σ → Res σ} (hf : ∀ p s, P s → OrUb (f p s) P) (a b d : Nat) (s : σ) (h : P s) :
    OrUb (ptrLoop a b d f s) P := by
  unfold ptrLoop
  generalize b + 1 = n
  induction n generalizing a s with
  | zero => exact .inr rfl
  | succ n ih =>
    unfold ptrLoopAux
    split
    · exact .inl ⟨_, rfl, h⟩
    · exact (hf a s h).bind fun s' hs => ih _ _ hs

theorem orUb_forRun {σ : Type} (S : Sparse R) (q : Nat) (body : Nat → R → σ → Res σ) (P : σ → Prop) (hb : ∀ k x s, P s → OrUb (body k x s) P) (s : σ)
    (h : P s) : OrUb (S.forRun q body s) P := by
  unfold forRun
  refine (Buf.orUb_read _ _).next fun b => (Buf.orUb_read _ _).next fun e => ?_
  refine OrUb.bind (P := fun t : Nat × σ => P t.2) ?_ fun t ht => .inl ⟨_, rfl, ht⟩
  exact orUb_ptrLoop _ (fun p t ht => (Buf.orUb_read _ _).next fun k => (Buf.orUb_read _ _).next fun x => (hb k x t.2 ht).bind fun s hs => .inl ⟨(t.1 + 1, s), rfl, hs⟩) _ _ _ _ h

/-- Offsets `0 … m-1` of `n` have been written at most; the others are not initialised. -/
def Fresh (n m : Nat) (E : Emit R) : Prop := E.io = m ∧ m ≤ n ∧ E.offset.length = n ∧ ∀ p, m ≤ p → p < n → E.offset[p]? = some none

theorem Fresh.mark {n m : Nat} {E : Emit R} (h : Fresh n m E) : OrUb E.mark (Fresh n (m + 1)) := by
  obtain ⟨h1, h2, h3, h4⟩ := h
  unfold Emit.mark Buf.write
  split
  · rename_i hlt
    refine .inl ⟨_, rfl, ?_, ?_, ?_, ?_⟩
    · show E.io + 1 = m + 1
      rw [h1]
    · omega
    · simp [h3]
    · intro p hp hpn
      show (E.offset.set E.io (some E.off))[p]? = _
      rw [List.getElem?_set, if_neg (by omega)]
      exact h4 p (by omega) hpn
  · exact .inr rfl

theorem Fresh.push {n m : Nat} {E : Emit R} (h : Fresh n m E) (k : Nat) (x : R) : OrUb (E.push k x) (Fresh n m) := by
  refine (Emit.orUb_push E k x).mono fun E' h' => ?_
  obtain ⟨h1, h2, h3, h4⟩ := h
  unfold Fresh
  rw [h'.1, h'.2]
  exact ⟨h1, h2, h3, h4⟩

theorem resizeBuf_nil {T : Type} (n p : Nat) (hp : p < n) : (Dense.resizeBuf ([] : Buf T) n)[p]? = some none := by
  unfold Dense.resizeBuf
  split
  · rename_i h; simp at h; omega
  · simp [Buf.alloc, hp]

theorem Fresh.start (o : Ori) (r c : Nat) : Fresh (c + 1) 0 ((Sparse.empty (R := R) o).resize r c).emit := by
  refine ⟨rfl, by omega, ?_, ?_⟩
  · simp [Sparse.emit, Sparse.resize, Dense.length_resizeBuf]
  · intro p _ hp
    exact resizeBuf_nil _ _ hp

/-- A sparse matrix whose second last or earlier offset has never been written cannot be read. -/
theorem toDense_fresh {T : Type} [Zero T] (cvt : R → T) (o : Ori) (S : Sparse R) (n p : Nat) (hn : S.offset.length = n + 1) (hp : p ≤ n) (h0 : 0 < n)
    (h : S.offset[p]? = some none) : S.toDense cvt o = .error .ub := by
  apply OrUb.false
  unfold toDense
  rw [Dense.fillBuf_ok, bind_ok']
  have hread : S.offset.read p = .error .ub := by unfold Buf.read; rw [h]
  refine OrUb.bind (P := fun _ => n < p) ?_ fun _ h => by omega
  refine (orUb_forRuns S hn _ _ (fun q _ => q = 0 ∨ q < p) (.inl rfl) ?_).mono fun _ h => by omega
  intro q s hq hI
  by_cases h1 : p = q ∨ p = q + 1
  · right
    have : ∀ body (d : Buf T), S.forRun q body d = .error .ub := by
      intro body d
      unfold forRun
      rcases h1 with rfl | rfl
      · rw [hread]; rfl
      · rcases Buf.orUb_read S.offset q with ⟨x, e, -⟩ | e
        · rw [e, bind_ok', hread]; rfl
        · rw [e]; rfl
    rw [this]; rfl
  · refine OrUb.bind (P := fun _ => True) ?_ fun d _ => .inl ⟨_, rfl, by omega⟩
    refine orUb_forRun S q _ (fun _ => True) (fun k x d _ => ?_) _ trivial
    split <;> exact (Buf.orUb_write _ _ _).mono fun _ _ => trivial

theorem binop_fresh (op : R → R → R) (un : R → R) (o : Ori) (A B : Sparse R) (n : Nat) (hn : A.offset.length = n + 1)
    (hr : A.dim.rows = B.dim.rows) (hc : A.dim.cols = B.dim.cols) :
    OrUb (Sparse.binop op un A B (Sparse.empty o)) (fun D => n ≤ A.dim.cols ∧ D.offset.length = A.dim.cols + 1 ∧
      ∀ p, n + 1 ≤ p → p < A.dim.cols + 1 → D.offset[p]? = some none) := by
  unfold binop
  have e1 : assertThat (A.dim.rows == B.dim.rows) = .ok () := by simp [assertThat, hr]
  have e2 : assertThat (A.dim.cols == B.dim.cols) = .ok () := by simp [assertThat, hc]
  rw [e1, e2, bind_ok', bind_ok']
  refine (Fresh.start o A.dim.rows A.dim.cols).mark.bind fun E hE => ?_
  refine (orUb_forRuns A hn _ _ (fun q E => Fresh (A.dim.cols + 1) (q + 1) E) hE ?_).bind fun E hE => .inl ⟨_, rfl, by have := hE.2.1; omega, hE.2.2.1, hE.2.2.2⟩
  intro q E hq hE
  refine (Buf.orUb_read _ _).next fun pa => (Buf.orUb_read _ _).next fun pb => (Buf.orUb_read _ _).next fun ea => (Buf.orUb_read _ _).next fun eb => ?_
  dsimp only
  have P : ∀ (E : Emit R), Fresh (A.dim.cols + 1) (q + 1) E → ∀ k x (F : Emit R → MergeSt R), (∀ E, (F E).E = E) →
      OrUb (E.push k x >>= fun E => pure (F E)) (fun s => Fresh (A.dim.cols + 1) (q + 1) s.E) :=
    fun E hE k x F hF => (hE.push k x).bind fun E' h' => .inl ⟨_, rfl, by simpa only [hF] using h'⟩
  refine OrUb.bind (P := fun s : MergeSt R => Fresh (A.dim.cols + 1) (q + 1) s.E)
    (orUb_whileN _ _ _ (fun s hs => ?_) _ _ hE) fun s hs => ?_
  · refine (Buf.orUb_read _ _).next fun ka => (Buf.orUb_read _ _).next fun kb => ?_
    split
    · exact (Buf.orUb_read _ _).next fun x => P s.E hs _ _ (fun E => { s with pa := s.pa + 1, E := E }) fun _ => rfl
    · split
      · exact (Buf.orUb_read _ _).next fun x => P s.E hs _ _ (fun E => { s with pb := s.pb + 1, E := E }) fun _ => rfl
      · exact (Buf.orUb_read _ _).next fun x => (Buf.orUb_read _ _).next fun y =>
          P s.E hs _ _ (fun E => { pa := s.pa + 1, pb := s.pb + 1, E := E }) fun _ => rfl
  refine OrUb.bind (P := fun s : MergeSt R => Fresh (A.dim.cols + 1) (q + 1) s.E)
    (orUb_whileN _ _ _ (fun s hs => ?_) _ _ hs) fun s hs => ?_
  · exact (Buf.orUb_read _ _).next fun ka => (Buf.orUb_read _ _).next fun x => P s.E hs _ _ (fun E => { s with pa := s.pa + 1, E := E }) fun _ => rfl
  refine OrUb.bind (P := fun s : MergeSt R => Fresh (A.dim.cols + 1) (q + 1) s.E)
    (orUb_whileN _ _ _ (fun s hs => ?_) _ _ hs) fun s hs => hs.mark
  exact (Buf.orUb_read _ _).next fun ka => (Buf.orUb_read _ _).next fun x => P s.E hs _ _ (fun E => { s with pb := s.pb + 1, E := E }) fun _ => rfl

theorem mulSS_fresh [Zero R] [Add R] [Mul R] [DecidableEq R] (o : Ori) (A B : Sparse R) (n : Nat) (hn : B.offset.length = n + 1)
    (hk : A.dim.cols = B.dim.rows) :
    OrUb (Sparse.mulSS A B (Sparse.empty o)) (fun D => n ≤ B.dim.cols ∧ D.offset.length = B.dim.cols + 1 ∧
      ∀ p, n + 1 ≤ p → p < B.dim.cols + 1 → D.offset[p]? = some none) := by
  unfold mulSS
  have e1 : assertThat (A.dim.cols == B.dim.rows) = .ok () := by simp [assertThat, hk]
  rw [e1, bind_ok']
  refine (orUb_forRuns B hn _ _ (fun q E => Fresh (B.dim.cols + 1) q E) (Fresh.start o A.dim.rows B.dim.cols) ?_).bind fun E hE =>
    hE.mark.bind fun E hE => .inl ⟨_, rfl, by have := hE.2.1; omega, hE.2.2.1, hE.2.2.2⟩
  intro q E hq hE
  refine OrUb.bind (P := fun _ => True) (orUb_forRun B q _ (fun _ => True) (fun k x s _ => orUb_forRun A k _ (fun _ => True) (fun k x s _ =>
    (Buf.orUb_read _ _).next fun _ => (Buf.orUb_write _ _ _).mono fun _ _ => trivial) _ trivial) _ trivial) fun scr _ => ?_
  refine hE.mark.bind fun E hE => ?_
  refine OrUb.bind (P := fun t : Nat × Emit R => Fresh (B.dim.cols + 1) (q + 1) t.2) ?_ fun t ht => .inl ⟨_, rfl, ht⟩
  refine orUb_ptrLoop _ (fun p t ht => (Buf.orUb_read _ _).next fun x => ?_) _ _ _ _ hE
  dsimp only
  split
  · exact (Fresh.push ht _ _).bind fun E hE => .inl ⟨_, rfl, hE⟩
  · exact .inl ⟨_, rfl, ht⟩

end Sparse

/-- C62, sums of *rectangular* row-major sparse matrices into a new matrix: for no shape with rows ≠ columns, whatever the operands
hold, the sum can be computed and read back: either the evaluation or the conversion of its result reads or writes memory it must not. -/
theorem C62_row_major_sparse_sum_is_unusable {T : Type} [Zero R] [Zero T] (op : R → R → R) (un : R → R) (cvt : R → T) (A B : Sparse R) (r c : Nat)
    (f g : Nat → Nat → R) (hA : A.Is r c f) (hB : B.Is r c g) (oA : A.ori = .row) (hrc : r ≠ c) (hc : 0 < c) (o o' : Ori) :
    (Sparse.binop op un A B (Sparse.empty o) >>= fun D => D.toDense cvt o') = .error .ub := by
  obtain ⟨LA, vA, -⟩ := hA
  obtain ⟨LB, vB, -⟩ := hB
  have hn : A.offset.length = r + 1 := by rw [vA.offsLen, vA.runs, oA]; rfl
  rcases Sparse.binop_fresh op un o A B r hn (vA.rows.trans vB.rows.symm) (vA.cols.trans vB.cols.symm) with ⟨D, e, h1, h2, h3⟩ | e
  · rw [vA.cols] at h1 h2 h3
    rw [e, bind_ok']
    exact Sparse.toDense_fresh cvt o' D c c h2 (Nat.le_refl _) hc (h3 c (by omega) (by omega))
  · rw [e]; rfl

/-- C62, products of row-major sparse matrices into a new matrix: if the right operand is not square, the product of no two matrices
can be computed and read back. -/
theorem C62_row_major_sparse_product_is_unusable {T : Type} [Zero R] [Add R] [Mul R] [DecidableEq R] [Zero T] (cvt : R → T) (A B : Sparse R)
    (m k n : Nat) (f g : Nat → Nat → R) (hA : A.Is m k f) (hB : B.Is k n g) (oB : B.ori = .row) (hkn : k ≠ n) (hn : 0 < n) (o o' : Ori) :
    (Sparse.mulSS A B (Sparse.empty o) >>= fun D => D.toDense cvt o') = .error .ub := by
  obtain ⟨LA, vA, -⟩ := hA
  obtain ⟨LB, vB, -⟩ := hB
  have hl : B.offset.length = k + 1 := by rw [vB.offsLen, vB.runs, oB]; rfl
  rcases Sparse.mulSS_fresh o A B k hl (vA.cols.trans vB.rows.symm) with ⟨D, e, h1, h2, h3⟩ | e
  · rw [vB.cols] at h1 h2 h3
    rw [e, bind_ok']
    exact Sparse.toDense_fresh cvt o' D n n h2 (Nat.le_refl _) hn (h3 n (by omega) (by omega))
  · rw [e]; rfl

/-- Row-major 2×2 matrices [[1,2],[0,3]] and [[0,1],[1,0]]. -/
def exRowA : Sparse Int := ⟨.row, Dim.mk' 2 2, [some 1, some 2, some 3], [some 0, some 1, some 1], [some 0, some 2, some 3]⟩
def exRowB : Sparse Int := ⟨.row, Dim.mk' 2 2, [some 1, some 1], [some 1, some 0], [some 0, some 1, some 2]⟩

/-- Non-vacuity: the product of these matrices is computed as [[0,3],[1,2]] = B·A, not as [[2,1],[3,0]] = A·B. -/
example : ∃ P D, Sparse.mulSS exRowA exRowB (Sparse.empty .row) = .ok P ∧ P.toDense id .row = .ok D ∧
    D.data = [some 0, some 3, some 1, some 2] := ⟨_, _, rfl, rfl, rfl⟩

theorem exRowA_is : exRowA.Is 2 2 (fun i j => if i = 0 then (j : Int) + 1 else 3 * j) := by
  refine ⟨[[(0, 1), (1, 2)], [(1, 3)]], ⟨rfl, rfl, rfl, rfl, rfl, ?_, rfl, ?_, by decide, by decide⟩, ?_⟩
  · intro q hq
    match q, hq with
    | 0, _ => rfl
    | 1, _ => rfl
    | 2, _ => rfl
  · intro p e h
    match p with
    | 0 => cases h; exact ⟨rfl, rfl⟩
    | 1 => cases h; exact ⟨rfl, rfl⟩
    | 2 => cases h; exact ⟨rfl, rfl⟩
    | p + 3 => simp at h
  · intro i j hi hj
    match i, j, hi, hj with
    | 0, 0, _, _ => rfl
    | 0, 1, _, _ => rfl
    | 1, 0, _, _ => rfl
    | 1, 1, _, _ => rfl

/-- Non-vacuity: a rectangular row-major sum, 1×2 (the result cannot be read) and 2×1 (the sum itself fails). -/
example : let A : Sparse Int := ⟨.row, Dim.mk' 1 2, [some 1], [some 1], [some 0, some 1]⟩
    let B : Sparse Int := ⟨.row, Dim.mk' 2 1, [some 1], [some 0], [some 0, some 0, some 1]⟩
    (∃ D, Sparse.binop (· + ·) id A A (Sparse.empty .row) = .ok D ∧ D.toDense id .row = .error .ub) ∧
    Sparse.binop (· + ·) id B B (Sparse.empty .row) = .error .ub := ⟨⟨_, rfl, rfl⟩, rfl⟩

end BB
