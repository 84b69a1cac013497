import Verif.Lemmas.DenseFill
import Verif.Lemmas.SparseCopy

/-!
# C11, C12, C13, C14, C17, C18, C23, C24, C55: sparse matrices
-/

namespace BB

open Sparse

variable {R : Type}

/-- Element of a matrix whose runs are `picks`. -/
theorem Sparse.entry_picks {T : Type} [Zero T] (chk : R → Bool) (cvt : R → T) (o : Ori) (f : Nat → Nat → R)
    {r c i j : Nat} (hi : i < r) (hj : j < c) :
    entryAt ((picks chk cvt (o.elem f) (o.majorIx r c) (o.minorIx r c)).getD (o.minorIx i j) []) (o.majorIx i j)
      = if chk (f i j) then cvt (f i j) else 0 := by
  have hq := minorIx_lt (so := o) hi hj
  have hk := majorIx_lt (so := o) hi hj
  have e : (picks chk cvt (o.elem f) (o.majorIx r c) (o.minorIx r c)).getD (o.minorIx i j) []
      = pick chk cvt (o.elem f) (o.majorIx r c) (o.minorIx i j) := by
    simp [picks, List.getD, hq]
  have e2 : o.elem f (o.minorIx i j) (o.majorIx i j) = f i j := by cases o <;> rfl
  rw [e, entryAt_pick, e2]
  simp [hk]

/-- C11.  Converting a valid sparse matrix of either orientation to a dense matrix of either orientation
(and any element type whose conversion keeps 0) succeeds and yields the stored value or 0 at every
index pair. -/
theorem C11_sparse_to_dense {T : Type} [Zero R] [Zero T] (cvt : R → T) (hc0 : cvt 0 = 0) (o : Ori)
    (S : Sparse R) (r c : Nat) (f : Nat → Nat → R) (hS : S.Is r c f) :
    ∃ D, S.toDense cvt o = .ok D ∧ D.ori = o ∧ D.Is r c (fun i j => cvt (f i j)) :=
  Sparse.toDense_sat cvt hc0 o hS

/-- A valid sparse 2×3 matrix [[0,5,0],[7,0,0]] with one spare cell, column-major. -/
def exSparse : Sparse Int :=
  ⟨.col, Dim.mk' 2 3, [some 7, some 5, none], [some 1, some 0, none], [some 0, some 1, some 2, some 2]⟩

theorem exSparse_valid : exSparse.Valid 2 3 [[(1, 7)], [(0, 5)], []] where
  rows := rfl
  cols := rfl
  size := rfl
  runs := rfl
  offsLen := rfl
  offs := by intro q hq; match q, hq with | 0, _ => rfl | 1, _ => rfl | 2, _ => rfl | 3, _ => rfl
  keyLen := rfl
  cells := by
    intro p e h
    match p, h with
    | 0, h => cases h; exact ⟨rfl, rfl⟩
    | 1, h => cases h; exact ⟨rfl, rfl⟩
    | (p+2), h => simp at h
  bound := by simp [exSparse, Ori.majorIx]
  sorted := by simp

example : exSparse.Is 2 3 (fun i j => if i = 1 ∧ j = 0 then 7 else if i = 0 ∧ j = 1 then 5 else 0) :=
  ⟨_, exSparse_valid, by
    intro i j hi hj
    match i, j, hi, hj with
    | 0, 0, _, _ => rfl
    | 0, 1, _, _ => rfl
    | 0, 2, _, _ => rfl
    | 1, 0, _, _ => rfl
    | 1, 1, _, _ => rfl
    | 1, 2, _, _ => rfl⟩

example : exSparse.toDense id .row = .ok ⟨.row, Dim.mk' 2 3, [some 0, some 5, some 0, some 7, some 0, some 0]⟩ := by rfl

/-- C11 needs a valid source: a default-constructed sparse matrix reports 0 × 0 elements and none of them significant, but
has no offset array at all and the conversion loop runs away. -/
theorem C11_default_constructed_is_ub (o : Ori) : let E := Sparse.empty (R := Int) .col
    E.dim.rows = 0 ∧ E.dim.cols = 0 ∧ E.dim.fullSize = 0 ∧ E.nnz = 0 ∧ E.toDense id o = .error .ub := by
  cases o <;> exact ⟨rfl, rfl, rfl, rfl, rfl⟩

/-- C12 for a column-major source: dense → sparse of either orientation succeeds; `nnz()` is the number
of accepted elements; the result is structurally valid; and the pair (key, value) stored for (i,j) is
exactly the converted element if the checker accepts it, and nothing otherwise.  (Outside the claim: row-major
sources, for which the claim is false, see `C62_dense_to_sparse_is_wrong`.) -/
theorem C12_dense_to_sparse {T : Type} (chk : R → Bool) (cvt : R → T) (o : Ori)
    (A : Dense R) (r c : Nat) (f : Nat → Nat → R) (hA : A.Is r c f) (ho : A.ori = .col) :
    ∃ S L, Sparse.ofDense chk cvt o A = .ok S ∧ S.ori = o ∧ S.Valid r c L ∧
      S.nnz = ∑ i ∈ Finset.range r, ∑ j ∈ Finset.range c, (if chk (f i j) then 1 else 0) ∧
      S.nnz = L.flatten.length ∧
      ∀ i j, i < r → j < c → ∀ x,
        ((o.majorIx i j, x) ∈ L.getD (o.minorIx i j) [] ↔ chk (f i j) = true ∧ x = cvt (f i j)) := by
  obtain ⟨S, e, h1, h2, h3⟩ := Sparse.ofDense_sat chk cvt o hA ho
  refine ⟨S, _, e, h1, h3, h2, ?_, ?_⟩
  · rw [picks_count]; exact h2
  · intro i j hi hj x
    have hq := minorIx_lt (so := o) hi hj
    have hk := majorIx_lt (so := o) hi hj
    have e1 : (picks chk cvt (o.elem f) (o.majorIx r c) (o.minorIx r c)).getD (o.minorIx i j) []
        = pick chk cvt (o.elem f) (o.majorIx r c) (o.minorIx i j) := by
      simp [picks, List.getD, hq]
    have e2 : o.elem f (o.minorIx i j) (o.majorIx i j) = f i j := by cases o <;> rfl
    rw [e1]
    simp only [pick, List.mem_filterMap, List.mem_range]
    constructor
    · rintro ⟨k, hk', h⟩
      by_cases hc : chk (o.elem f (o.minorIx i j) k) = true
      · rw [if_pos hc] at h
        simp only [Option.some.injEq, Prod.mk.injEq] at h
        obtain ⟨rfl, rfl⟩ := h
        rw [e2] at hc ⊢
        exact ⟨hc, rfl⟩
      · rw [if_neg hc] at h; cases h
    · rintro ⟨hc, rfl⟩
      exact ⟨o.majorIx i j, hk, by rw [e2, if_pos hc]⟩

/-- C12 in terms of the denoted matrix: element (i,j) of the result is the converted element if accepted
and 0 otherwise.  Also for submatrix views as source (`v` any column-major view). -/
theorem C12_dense_view_to_sparse {T : Type} [Zero T] (chk : R → Bool) (cvt : R → T) (o : Ori)
    (v : View) (b : Buf R) (f : Nat → Nat → R) (hf : v.Fits b.length) (hr : v.Reads b f) (ho : v.ori = .col) :
    ∃ S, Sparse.ofView chk cvt o v b
        (∑ i ∈ Finset.range v.rows, ∑ j ∈ Finset.range v.cols, if chk (f i j) then 1 else 0) = .ok S ∧
      S.ori = o ∧ S.Tight ∧ S.Is v.rows v.cols (fun i j => if chk (f i j) then cvt (f i j) else 0) := by
  obtain ⟨S, e, h1, h2, h3⟩ := Sparse.ofView_sat chk cvt o hf hr ho (cnt := _) (picks_count chk cvt o f _ _).symm
  refine ⟨S, e, h1, ?_, _, h3, ?_⟩
  · refine ⟨_, ?_, h2⟩
    rw [List.getLast?_eq_getElem?, h3.offsLen, Nat.add_sub_cancel, h3.offs _ (Nat.le_refl _), List.take_length, picks_count]
  · intro i j hi hj
    rw [h1, Sparse.entry_picks chk cvt o f hi hj]

example : Sparse.ofDense (fun x => decide (2 < x)) id .row (Dense.ofFn .col 2 3 (fun i j => 10 * i + j))
    = .ok ⟨.row, Dim.mk' 2 3, [some 10, some 11, some 12], [some 0, some 1, some 2], [some 0, some 0, some 3]⟩ := by
  rfl

/-- C62, negative for row-major sources: for a 2×3 row-major source and a
row-major target the loop runs over the first two *columns*; element (1,0)=3 of [[1,2,0],[3,0,4]] ends
up at (0,1) where 2 should be, and the element 4 of the last column is lost. -/
theorem C62_dense_to_sparse_is_wrong :
    ∃ S D, Sparse.ofDense (fun x => decide (x ≠ 0)) id .row
        (⟨.row, Dim.mk' 2 3, [some 1, some 2, some 0, some 3, some 0, some 4]⟩ : Dense Int) = .ok S ∧
      S.toDense id .row = .ok D ∧ D.get 0 1 = .ok 3 ∧ D.get 1 2 = .ok 0 :=
  ⟨_, _, rfl, rfl, rfl, rfl⟩

/-- C33, negative: with a stale (too small) count the conversion writes past the end of the
value array. -/
theorem C33_stale_count_writes_past_end :
    Sparse.ofView (fun x => decide (x ≠ 0)) id .col (View.plain .col 2 2)
      ([some 1, some 2, some 3, some 4] : Buf Int) 1 = .error .ub := by rfl

/-- C13 for column-major matrices (and square row-major ones) with at least one row: the transpose is a
valid sparse matrix that denotes the transposed matrix; if something is stored, `nnz()` is kept.
(Outside the claim: matrices without rows and non-square row-major matrices, for which the code fails.) -/
theorem C13_sparse_transpose [Zero R] (S : Sparse R) (r c : Nat) (f : Nat → Nat → R)
    (hS : S.Is r c f) (ho : S.ori = .col ∨ r = c) (hr : 0 < r) :
    ∃ T, S.transpose = .ok T ∧ T.ori = S.ori ∧ (S.nnz ≠ 0 → T.nnz = S.nnz) ∧ T.Is c r (fun j i => f i j) := by
  obtain ⟨L, hL, hf⟩ := hS
  have hK : S.ori.majorIx r c = r := by
    rcases ho with h | h
    · rw [h]; rfl
    · cases S.ori <;> simp [Ori.majorIx, h]
  have hN : L.length = c := by
    rw [hL.runs]
    rcases ho with h | h
    · rw [h]; rfl
    · cases S.ori <;> simp [Ori.minorIx, h]
  obtain ⟨T, e, h1, h2, h3⟩ := Sparse.transpose_sat hL hK hr
  refine ⟨T, e, h1, ?_, _, h3, ?_⟩
  · intro h
    rw [if_neg h] at h2
    exact h2
  · intro j i hj hi
    show f i j = _
    rw [hf i j hi hj, h1]
    have hq : S.ori.minorIx j i < r := by
      rcases ho with h | h
      · rw [h]; exact hi
      · cases S.ori <;> simp only [Ori.minorIx] <;> omega
    have hk : S.ori.majorIx j i < c := by
      rcases ho with h | h
      · rw [h]; exact hj
      · cases S.ori <;> simp only [Ori.majorIx] <;> omega
    have e1 : (Sparse.trans L r).getD (S.ori.minorIx j i) [] = trq L L.length (S.ori.minorIx j i) := by
      simp [Sparse.trans, List.getD, hq]
    rw [e1, entryAt_trq, if_pos (by omega)]
    cases S.ori <;> rfl

example : ∃ T, exSparse.transpose = .ok T ∧ T.offset = [some 0, some 1, some 2] ∧
    T.key = [some 1, some 0, none] ∧ T.value = [some 5, some 7, none] := ⟨_, rfl, rfl, rfl, rfl⟩

/-- C63, negative: transposing a matrix without rows runs past the end of the offset array. -/
theorem C63_sparse_transpose_no_rows_is_ub :
    ∃ S : Sparse Int, S.Valid 0 2 [[], []] ∧ S.transpose = .error .ub := by
  refine ⟨⟨.col, Dim.mk' 0 2, [], [], [some 0, some 0, some 0]⟩, ?_, rfl⟩
  exact { rows := rfl, cols := rfl, size := rfl, runs := rfl, offsLen := rfl,
          offs := by intro q hq; match q, hq with | 0, _ => rfl | 1, _ => rfl | 2, _ => rfl
          keyLen := rfl, cells := by intro p e h; simp at h
          bound := by simp, sorted := by simp }

/-- C64, negative: transposing an all-zero matrix (nothing stored) returns a matrix that reports r*c
stored, uninitialised, elements. -/
theorem C64_transpose_counts_garbage :
    ∃ S T : Sparse Int, S.Valid 2 2 [[], []] ∧ S.nnz = 0 ∧ S.transpose = .ok T ∧ T.nnz = 4 ∧
      T.value = [none, none, none, none] := by
  refine ⟨⟨.col, Dim.mk' 2 2, [], [], [some 0, some 0, some 0]⟩, _, ?_, rfl, rfl, rfl, rfl⟩
  exact { rows := rfl, cols := rfl, size := rfl, runs := rfl, offsLen := rfl,
          offs := by intro q hq; match q, hq with | 0, _ => rfl | 1, _ => rfl | 2, _ => rfl
          keyLen := rfl, cells := by intro p e h; simp at h
          bound := by simp, sorted := by simp }

/-- C62, negative: a row-major 1×3 matrix with an element in its last column makes the counting loop
write past the offset array of the transpose. -/
theorem C62_sparse_transpose_is_ub :
    ∃ S : Sparse Int, S.Valid 1 3 [[(2, 9)]] ∧ S.ori = .row ∧ S.transpose = .error .ub := by
  refine ⟨⟨.row, Dim.mk' 1 3, [some 9], [some 2], [some 0, some 1]⟩, ?_, rfl, rfl⟩
  exact { rows := rfl, cols := rfl, size := rfl, runs := rfl, offsLen := rfl,
          offs := by intro q hq; match q, hq with | 0, _ => rfl | 1, _ => rfl
          keyLen := rfl
          cells := by
            intro p e h
            match p, h with
            | 0, h => cases h; exact ⟨rfl, rfl⟩
            | (p+1), h => simp at h
          bound := by simp [Ori.majorIx], sorted := by simp }

/-- C14 for a column-major source: dense → sparse (any checker, any orientation) → dense (any
orientation) keeps the accepted elements and yields 0 elsewhere. -/
theorem C14_round_trip [Zero R] (chk : R → Bool) (o o' : Ori) (A : Dense R) (r c : Nat)
    (f : Nat → Nat → R) (hA : A.Is r c f) (ho : A.ori = .col) :
    ∃ S D, Sparse.ofDense chk id o A = .ok S ∧ S.toDense id o' = .ok D ∧ D.ori = o' ∧
      D.Is r c (fun i j => if chk (f i j) then f i j else 0) := by
  obtain ⟨S, e, h1, h2, h3⟩ := Sparse.ofDense_sat chk id o hA ho
  obtain ⟨D, e', h4, h5⟩ := Sparse.toDense_valid id rfl o' h3
  refine ⟨S, D, e, e', h4, h5.congr ?_⟩
  intro i j hi hj
  rw [h1]
  exact Sparse.entry_picks chk id o f hi hj

/-- C14: a checker that accepts every non-zero value makes the round trip the identity. -/
theorem C14_round_trip_identity [Zero R] (chk : R → Bool) (hchk : ∀ x, x ≠ 0 → chk x = true)
    (o o' : Ori) (A : Dense R) (r c : Nat) (f : Nat → Nat → R) (hA : A.Is r c f) (ho : A.ori = .col) :
    ∃ S D, Sparse.ofDense chk id o A = .ok S ∧ S.toDense id o' = .ok D ∧ D.Is r c f := by
  obtain ⟨S, D, e, e', -, h⟩ := C14_round_trip chk o o' A r c f hA ho
  refine ⟨S, D, e, e', h.congr ?_⟩
  intro i j _ _
  by_cases h0 : chk (f i j) = true
  · simp [h0]
  · have : f i j = 0 := by
      by_contra hne; exact h0 (hchk _ hne)
    simp [this]

/-- C62, negative: the round trip of a row-major source loses an element. -/
theorem C62_round_trip_is_wrong :
    ∃ S D, Sparse.ofDense (fun x => decide (x ≠ 0)) id .row
        (⟨.row, Dim.mk' 2 3, [some 1, some 2, some 0, some 3, some 0, some 4]⟩ : Dense Int) = .ok S ∧
      S.toDense id .row = .ok D ∧ D.get 1 2 ≠ .ok 4 :=
  ⟨_, _, rfl, rfl, by decide⟩

/-- C17 for operands whose runs are columns (column-major, or square row-major): `A op B` (`op` is + or
-) is a valid sparse matrix that denotes the element-wise result, whatever `C` held before.  (Outside the claim:
"every element reported as stored is initialised" is false, see `C64_sum_counts_garbage`, and non-square
row-major operands fail.) -/
theorem C17_sparse_sum [Zero R] (op : R → R → R) (un : R → R) (h0 : ∀ x, op x 0 = x)
    (h1 : ∀ y, op 0 y = un y) (A B C : Sparse R) (r c : Nat) (f g : Nat → Nat → R)
    (hA : A.Is r c f) (hB : B.Is r c g) (hBo : B.ori = A.ori) (hCo : C.ori = A.ori)
    (ho : A.ori = .col ∨ r = c) :
    ∃ D, Sparse.binop op un A B C = .ok D ∧ D.ori = A.ori ∧ D.nnz = r * c ∧
      D.Is r c (fun i j => op (f i j) (g i j)) := by
  obtain ⟨LA, hA, hf⟩ := hA
  obtain ⟨LB, hB, hg⟩ := hB
  have hN : A.ori.minorIx r c = c := by
    rcases ho with h | h
    · rw [h]; rfl
    · cases A.ori <;> simp [Ori.minorIx, h]
  obtain ⟨D, e, h2, h3, LD, h4, h5⟩ := Sparse.binop_sat op un h0 h1 C hA hB hBo hCo hN
  refine ⟨D, e, h2, h3, LD, h4, ?_⟩
  intro i j hi hj
  show op (f i j) (g i j) = _
  rw [hf i j hi hj, hg i j hi hj, hBo, h2]
  have : A.ori.minorIx i j < c := by rw [← hN]; exact minorIx_lt hi hj
  exact (h5 _ _ this).symm

/-- C17 for addition and subtraction in any ring: the two instances the library has. -/
theorem C17_sparse_add_sub [AddGroup R] (A B C : Sparse R) (r c : Nat) (f g : Nat → Nat → R)
    (hA : A.Is r c f) (hB : B.Is r c g) (hBo : B.ori = A.ori) (hCo : C.ori = A.ori) (ho : A.ori = .col ∨ r = c) :
    (∃ D, Sparse.binop (· + ·) id A B C = .ok D ∧ D.Is r c (fun i j => f i j + g i j)) ∧
    (∃ D, Sparse.binop (· - ·) (- ·) A B C = .ok D ∧ D.Is r c (fun i j => f i j - g i j)) := by
  constructor
  · obtain ⟨D, e, -, -, h⟩ := C17_sparse_sum (· + ·) id (by simp) (by simp) A B C r c f g hA hB hBo hCo ho
    exact ⟨D, e, h⟩
  · obtain ⟨D, e, -, -, h⟩ := C17_sparse_sum (· - ·) (- ·) (by simp) (by simp) A B C r c f g hA hB hBo hCo ho
    exact ⟨D, e, h⟩

/-- C64, negative: the sum reports `nnz() = r*c` stored elements, whatever the operands store; the cells
past the last run are uninitialised (here 4 of 6). -/
theorem C64_sum_counts_garbage :
    ∃ D, Sparse.binop (· - ·) (- ·) exSparse exSparse (Sparse.empty .col) = .ok D ∧
      D.nnz = 6 ∧ D.value = [some 0, some 0, none, none, none, none] := ⟨_, rfl, rfl, rfl⟩

/-- C62, negative: for non-square row-major operands the offset array of the result has the wrong
length; here (a 2×1 result gets 2 offsets, 3 are needed) the loop writes out of bounds. -/
theorem C62_sparse_sum_is_ub :
    ∃ S : Sparse Int, S.Valid 2 1 [[(0, 9)], []] ∧ S.ori = .row ∧
      Sparse.binop (· + ·) id S S (Sparse.empty .row) = .error .ub := by
  refine ⟨⟨.row, Dim.mk' 2 1, [some 9], [some 0], [some 0, some 1, some 1]⟩, ?_, rfl, rfl⟩
  exact { rows := rfl, cols := rfl, size := rfl, runs := rfl, offsLen := rfl,
          offs := by intro q hq; match q, hq with | 0, _ => rfl | 1, _ => rfl | 2, _ => rfl
          keyLen := rfl
          cells := by
            intro p e h
            match p, h with
            | 0, h => cases h; exact ⟨rfl, rfl⟩
            | (p+1), h => simp at h
          bound := by simp [Ori.majorIx], sorted := by simp }

/-- C18, Dense ± Sparse and Dense += / -= Sparse, column-major: element-wise.  (Outside the claim: Sparse - Dense,
which is false of the code, and the operators that throw.) -/
theorem C18_dense_sparse_sum [Zero R] (op : R → R → R) (h0 : ∀ x, op x 0 = x) (A : Dense R) (B : Sparse R)
    (r c : Nat) (f g : Nat → Nat → R) (hA : A.Is r c f) (hB : B.Is r c g) (hAo : A.ori = .col) (hBo : B.ori = .col) :
    (∃ D, Sparse.binopDS op A B = .ok D ∧ D.ori = .col ∧ D.Is r c (fun i j => op (f i j) (g i j))) ∧
    (∃ D, Sparse.binassignDS op A B = .ok D ∧ D.ori = .col ∧ D.Is r c (fun i j => op (f i j) (g i j))) := by
  obtain ⟨L, hL, hg⟩ := hB
  have key : ∀ i j, i < r → j < c → op (f i j) (entryAt (L.getD j []) i) = op (f i j) (g i j) := by
    intro i j hi hj
    rw [hg i j hi hj, hBo]; rfl
  constructor
  · obtain ⟨D, e, h1, h2⟩ := Sparse.binopDS_sat op h0 hA hL hAo hBo
    exact ⟨D, e, by rw [h1, hAo], h2.congr key⟩
  · obtain ⟨D, e, h1, h2⟩ := Sparse.binassignDS_sat op h0 hA hL hBo
    exact ⟨D, e, by rw [h1, hAo], h2.congr key⟩

/-- C18, `Dense op= Sparse` also for a row-major left operand. -/
theorem C18_dense_assign_any_orientation [Zero R] (op : R → R → R) (h0 : ∀ x, op x 0 = x) (A : Dense R)
    (B : Sparse R) (r c : Nat) (f g : Nat → Nat → R) (hA : A.Is r c f) (hB : B.Is r c g) (hBo : B.ori = .col) :
    ∃ D, Sparse.binassignDS op A B = .ok D ∧ D.ori = A.ori ∧ D.Is r c (fun i j => op (f i j) (g i j)) := by
  obtain ⟨L, hL, hg⟩ := hB
  obtain ⟨D, e, h1, h2⟩ := Sparse.binassignDS_sat op h0 hA hL hBo
  refine ⟨D, e, h1, h2.congr ?_⟩
  intro i j hi hj
  rw [hg i j hi hj, hBo]; rfl

/-- C18, Sparse + Dense (commutative addition), column-major. -/
theorem C18_sparse_plus_dense [AddCommMonoid R] (A : Sparse R) (B : Dense R)
    (r c : Nat) (f g : Nat → Nat → R) (hA : A.Is r c f) (hB : B.Is r c g) (hAo : A.ori = .col) (hBo : B.ori = .col) :
    ∃ D, Sparse.binopSD (· + ·) A B = .ok D ∧ D.Is r c (fun i j => f i j + g i j) := by
  obtain ⟨⟨D, e, -, h⟩, -⟩ := C18_dense_sparse_sum (· + ·) (by simp) B A r c g f hB hA hBo hAo
  exact ⟨D, e, h.congr (fun i j _ _ => by rw [add_comm])⟩

/-- C65, negative: Sparse - Dense computes Dense - Sparse, for all operands. -/
theorem C65_sparse_minus_dense_is_negated [AddGroup R] (A : Sparse R) (B : Dense R)
    (r c : Nat) (f g : Nat → Nat → R) (hA : A.Is r c f) (hB : B.Is r c g) (hAo : A.ori = .col) (hBo : B.ori = .col) :
    ∃ D, Sparse.binopSD (· - ·) A B = .ok D ∧ D.Is r c (fun i j => g i j - f i j) := by
  obtain ⟨⟨D, e, -, h⟩, -⟩ := C18_dense_sparse_sum (· - ·) (by simp) B A r c g f hB hA hBo hAo
  exact ⟨D, e, h⟩

/-- C65, negative: the in-place operators on a sparse left operand only throw. -/
theorem C65_sparse_assign_throws (A B : Sparse R) (D : Dense R) :
    Sparse.binassignSS A B = .error (.throw "4 not yet implemented.") ∧
    Sparse.binassignSD A D = .error (.throw "5 not yet implemented.") := ⟨rfl, rfl⟩

example : ∃ D, Sparse.binopDS (· - ·) (Dense.ofFn .col 2 3 (fun i j => (10 * i + j : Int))) exSparse = .ok D ∧
    D.get 1 0 = .ok 3 ∧ D.get 0 1 = .ok (-4) ∧ D.get 1 2 = .ok 12 := ⟨_, rfl, rfl, rfl, rfl⟩

/-- The sparse product for arithmetic of which nothing is assumed but `x + 0 = 0 + x = x` and that the elements at hand multiplied
with 0 give 0: the products are accumulated from left to right. -/
theorem sparse_product_seq' [AddZeroClass R] [Mul R] [DecidableEq R] (A B C : Sparse R) (m k n : Nat)
    (f g : Nat → Nat → R) (hA : A.Is m k f) (hB : B.Is k n g) (hAo : A.ori = .col) (hBo : B.ori = .col)
    (hCo : C.ori = .col) (hf0 : ∀ i l, i < m → l < k → f i l * 0 = 0) (hg0 : ∀ l j, l < k → j < n → 0 * g l j = 0) :
    ∃ D L, Sparse.mulSS A B C = .ok D ∧ D.ori = .col ∧ D.nnz = m * n ∧ D.Valid m n L ∧
      (∀ run ∈ L, ∀ e ∈ run, e.2 ≠ 0) ∧
      (∀ i j, i < m → j < n → entryAt (L.getD j []) i = dotSeq f g k i j) ∧
      D.Is m n (fun i j => dotSeq f g k i j) := by
  obtain ⟨LA, hA, hf⟩ := hA
  obtain ⟨LB, hB, hg⟩ := hB
  obtain ⟨D, e, h1, h2, h3⟩ := Sparse.mulSS_sat' C hA hB hAo hBo hCo
    (fun i l hi hl => by have := hf0 i l hi hl; rw [hf i l hi hl, hAo] at this; exact this)
    (fun l j hl hj => by have := hg0 l j hl hj; rw [hg l j hl hj, hBo] at this; exact this)
  have key : ∀ i j, i < m → j < n → dotSeq (fun i l => entryAt (LA.getD l []) i) (fun l j => entryAt (LB.getD j []) l) k i j
      = dotSeq f g k i j := by
    intro i j hi hj
    refine dotSeq_congr (fun l hl => ?_) (fun l hl => ?_)
    · rw [hf i l hi hl, hAo]; rfl
    · rw [hg l j hl hj, hBo]; rfl
  have elt : ∀ i j, i < m → j < n → entryAt ((picks (fun x => decide (x ≠ 0)) id
        (fun q i => dotSeq (fun i l => entryAt (LA.getD l []) i) (fun l j => entryAt (LB.getD j []) l) k i q) m n).getD j []) i
      = dotSeq f g k i j := by
    intro i j hi hj
    rw [← key i j hi hj]
    have e1 : ∀ G : Nat → Nat → R, (picks (fun x => decide (x ≠ 0)) id G m n).getD j []
        = pick (fun x => decide (x ≠ 0)) id G m j := by
      intro G; simp [picks, List.getD, hj]
    rw [e1, entryAt_pick]
    by_cases hz : dotSeq (fun i l => entryAt (LA.getD l []) i) (fun l j => entryAt (LB.getD j []) l) k i j = 0
    · simp only [hz]; simp
    · simp only [hi, true_and, decide_eq_true hz, id, if_true]
  refine ⟨D, _, e, h1, h2, h3, ?_, elt, _, h3, ?_⟩
  · intro run hrun e he
    simp only [picks, List.mem_map, List.mem_range] at hrun
    obtain ⟨q, -, rfl⟩ := hrun
    simp only [pick, List.mem_filterMap] at he
    obtain ⟨k', -, h⟩ := he
    split at h
    · rename_i hz
      simp only [Option.some.injEq] at h
      subst h
      exact of_decide_eq_true hz
    · cases h
  · intro i j hi hj
    rw [h1]
    exact (elt i j hi hj).symm

/-- `C23_sparse_product` for arithmetic that rounds: the products are accumulated from left to right. -/
theorem sparse_product_seq [Arith R] [DecidableEq R] (A B C : Sparse R) (m k n : Nat)
    (f g : Nat → Nat → R) (hA : A.Is m k f) (hB : B.Is k n g) (hAo : A.ori = .col) (hBo : B.ori = .col)
    (hCo : C.ori = .col) :
    ∃ D L, Sparse.mulSS A B C = .ok D ∧ D.ori = .col ∧ D.nnz = m * n ∧ D.Valid m n L ∧
      (∀ run ∈ L, ∀ e ∈ run, e.2 ≠ 0) ∧
      (∀ i j, i < m → j < n → entryAt (L.getD j []) i = dotSeq f g k i j) ∧
      D.Is m n (fun i j => dotSeq f g k i j) :=
  sparse_product_seq' A B C m k n f g hA hB hAo hBo hCo (fun _ _ _ _ => mul_zero _) (fun _ _ _ _ => zero_mul _)

/-- C23 for column-major operands: the product is a valid sparse matrix (offsets, strictly increasing
in-range keys) that denotes the row-by-column sums, no write leaves the result storage, every stored
element is non-zero.  (Outside the claim: "nnz() is the number of stored elements": it is m*n.) -/
theorem C23_sparse_product [NonUnitalNonAssocSemiring R] [DecidableEq R] (A B C : Sparse R) (m k n : Nat)
    (f g : Nat → Nat → R) (hA : A.Is m k f) (hB : B.Is k n g) (hAo : A.ori = .col) (hBo : B.ori = .col)
    (hCo : C.ori = .col) :
    ∃ D L, Sparse.mulSS A B C = .ok D ∧ D.ori = .col ∧ D.nnz = m * n ∧ D.Valid m n L ∧
      (∀ run ∈ L, ∀ e ∈ run, e.2 ≠ 0) ∧
      (∀ i j, i < m → j < n → entryAt (L.getD j []) i = ∑ l ∈ Finset.range k, f i l * g l j) ∧
      D.Is m n (fun i j => ∑ l ∈ Finset.range k, f i l * g l j) := by
  obtain ⟨D, L, e, h1, h2, h3, h4, h5, h6⟩ := sparse_product_seq A B C m k n f g hA hB hAo hBo hCo
  simp only [dotSeq_eq_sum] at h5 h6
  exact ⟨D, L, e, h1, h2, h3, h4, h5, h6⟩

/-- C64, negative: `nnz()` of a product counts uninitialised cells. -/
theorem C64_product_counts_garbage :
    ∃ S D : Sparse Int, S.Valid 1 2 [[(0, 3)], []] ∧
      Sparse.mulSS (⟨.col, Dim.mk' 2 1, [some 1], [some 1], [some 0, some 1]⟩ : Sparse Int) S (Sparse.empty .col) = .ok D ∧
      D.nnz = 4 ∧ D.value = [some 3, none, none, none] := by
  refine ⟨⟨.col, Dim.mk' 1 2, [some 3], [some 0], [some 0, some 1, some 1]⟩, _, ?_, rfl, rfl, rfl⟩
  exact { rows := rfl, cols := rfl, size := rfl, runs := rfl, offsLen := rfl,
          offs := by intro q hq; match q, hq with | 0, _ => rfl | 1, _ => rfl | 2, _ => rfl
          keyLen := rfl
          cells := by
            intro p e h
            match p, h with
            | 0, h => cases h; exact ⟨rfl, rfl⟩
            | (p+1), h => simp at h
          bound := by simp [Ori.majorIx], sorted := by simp }

/-- Sparse * Dense for arithmetic of which nothing is assumed but `x + 0 = 0 + x = x` and
`0 * y = 0` for the elements `y` at hand: the products are accumulated from left to right. -/
theorem sparse_dense_product_seq' [AddZeroClass R] [Mul R] (A : Sparse R) (B C : Dense R) (m k n : Nat)
    (f g : Nat → Nat → R) (hA : A.Is m k f) (hB : B.Is k n g) (hAo : A.ori = .col) (hBo : B.ori = .col)
    (hCo : C.ori = .col) (hg0 : ∀ l j, l < k → j < n → 0 * g l j = 0) :
    ∃ D, Sparse.mulSD A B C = .ok D ∧ D.ori = .col ∧ D.Is m n (fun i j => dotSeq f g k i j) := by
  obtain ⟨L, hL, hf⟩ := hA
  obtain ⟨D, e, h1, h2⟩ := Sparse.mulSD_sat' C hL hB hAo hBo hCo hg0
  refine ⟨D, e, h1, h2.congr ?_⟩
  intro i j hi hj
  refine dotSeq_congr (fun l hl => ?_) (fun l hl => rfl)
  rw [hf i l hi hl, hAo]; rfl

/-- Sparse * Dense for arithmetic that rounds: the products are accumulated from left to right. -/
theorem sparse_dense_product_seq [Arith R] (A : Sparse R) (B C : Dense R) (m k n : Nat)
    (f g : Nat → Nat → R) (hA : A.Is m k f) (hB : B.Is k n g) (hAo : A.ori = .col) (hBo : B.ori = .col)
    (hCo : C.ori = .col) :
    ∃ D, Sparse.mulSD A B C = .ok D ∧ D.ori = .col ∧ D.Is m n (fun i j => dotSeq f g k i j) :=
  sparse_dense_product_seq' A B C m k n f g hA hB hAo hBo hCo (fun _ _ _ _ => zero_mul _)

/-- C24, Sparse * Dense, column-major. -/
theorem C24_sparse_dense_product [NonUnitalNonAssocSemiring R] (A : Sparse R) (B C : Dense R) (m k n : Nat)
    (f g : Nat → Nat → R) (hA : A.Is m k f) (hB : B.Is k n g) (hAo : A.ori = .col) (hBo : B.ori = .col)
    (hCo : C.ori = .col) :
    ∃ D, Sparse.mulSD A B C = .ok D ∧ D.ori = .col ∧ D.Is m n (fun i j => ∑ l ∈ Finset.range k, f i l * g l j) := by
  obtain ⟨D, e, h1, h2⟩ := sparse_dense_product_seq A B C m k n f g hA hB hAo hBo hCo
  exact ⟨D, e, h1, h2.congr (fun i j _ _ => dotSeq_eq_sum ..)⟩

/-- Dense * Sparse for arithmetic of which nothing is assumed but `x + 0 = 0 + x = x` and
`x * 0 = 0` for the elements `x` at hand: the products are accumulated from left to right. -/
theorem dense_sparse_product_seq' [AddZeroClass R] [Mul R] (A : Dense R) (B : Sparse R) (C : Dense R) (m k n : Nat)
    (f g : Nat → Nat → R) (hA : A.Is m k f) (hB : B.Is k n g) (hBo : B.ori = .col)
    (hf0 : ∀ i l, i < m → l < k → f i l * 0 = 0) :
    ∃ D, Sparse.mulDS A B C = .ok D ∧ D.ori = C.ori ∧ D.Is m n (fun i j => dotSeq f g k i j) := by
  obtain ⟨L, hL, hg⟩ := hB
  obtain ⟨D, e, h1, h2⟩ := Sparse.mulDS_sat' C hA hL hBo hf0
  refine ⟨D, e, h1, h2.congr ?_⟩
  intro i j hi hj
  refine dotSeq_congr (fun l hl => rfl) (fun l hl => ?_)
  rw [hg l j hl hj, hBo]; rfl

/-- Dense * Sparse for arithmetic that rounds: the products are accumulated from left to right. -/
theorem dense_sparse_product_seq [Arith R] (A : Dense R) (B : Sparse R) (C : Dense R) (m k n : Nat)
    (f g : Nat → Nat → R) (hA : A.Is m k f) (hB : B.Is k n g) (hBo : B.ori = .col) :
    ∃ D, Sparse.mulDS A B C = .ok D ∧ D.ori = C.ori ∧ D.Is m n (fun i j => dotSeq f g k i j) :=
  dense_sparse_product_seq' A B C m k n f g hA hB hBo (fun _ _ _ _ => mul_zero _)

/-- C24, Dense * Sparse, the dense operand and the result in either orientation. -/
theorem C24_dense_sparse_product [NonUnitalNonAssocSemiring R] (A : Dense R) (B : Sparse R) (C : Dense R) (m k n : Nat)
    (f g : Nat → Nat → R) (hA : A.Is m k f) (hB : B.Is k n g) (hBo : B.ori = .col) :
    ∃ D, Sparse.mulDS A B C = .ok D ∧ D.ori = C.ori ∧ D.Is m n (fun i j => ∑ l ∈ Finset.range k, f i l * g l j) := by
  obtain ⟨D, e, h1, h2⟩ := dense_sparse_product_seq A B C m k n f g hA hB hBo
  exact ⟨D, e, h1, h2.congr (fun i j _ _ => dotSeq_eq_sum ..)⟩

example : ∃ D, Sparse.mulDS (Dense.ofFn .row 2 2 (fun i j => (10 * i + j : Int))) exSparse (Dense.empty .col) = .ok D ∧
    D.get 1 0 = .ok 77 ∧ D.get 1 1 = .ok 50 ∧ D.get 1 2 = .ok 0 := ⟨_, rfl, rfl, rfl, rfl⟩

example : ∃ D, Sparse.mulSD exSparse (Dense.ofFn .col 3 1 (fun i j => (10 * i + j + 1 : Int))) (Dense.empty .col) = .ok D ∧
    D.get 0 0 = .ok 55 ∧ D.get 1 0 = .ok 7 := ⟨_, rfl, rfl, rfl⟩

/-- Products with inner dimensions that do not match are rejected by an assertion. -/
theorem C24_dimension_mismatch_asserts [Zero R] [Add R] [Mul R] (A : Dense R) (B : Sparse R) (C : Dense R)
    (h : A.dim.cols ≠ B.dim.rows) : Sparse.mulDS A B C = .error .assertFail := by
  unfold Sparse.mulDS assertThat
  simp [h]

/-- C55 for matrices that store exactly what they report: converting to another element type keeps the
denoted matrix and `nnz()`; converting a column-major matrix to row-major does so too if it has a row
and stores something.  (Outside the claim: the remaining cases, in which the code reads uninitialised memory.) -/
theorem C55_sparse_conversion {T : Type} [Zero R] [Zero T] (cvt : R → T) (hc0 : cvt 0 = 0) (o : Ori)
    (S : Sparse R) (r c : Nat) (f : Nat → Nat → R) (hS : S.Is r c f) (ht : S.Tight)
    (ho : S.ori = o ∨ (S.ori = .col ∧ 0 < r ∧ S.nnz ≠ 0)) :
    ∃ U, S.convert cvt o = .ok U ∧ U.ori = o ∧ U.nnz = S.nnz ∧ U.Tight ∧ U.Is r c (fun i j => cvt (f i j)) := by
  obtain ⟨L, hL, hf⟩ := hS
  have ht' : S.nnz = L.flatten.length := by
    obtain ⟨n, h1, h2⟩ := ht
    rw [List.getLast?_eq_getElem?, hL.offsLen, Nat.add_sub_cancel, hL.offs _ (Nat.le_refl _), List.take_length] at h1
    injection h1 with h1
    injection h1 with h1
    omega
  obtain ⟨U, e, h1, h2, L', h3, h5, h4⟩ := Sparse.convert_sat cvt hc0 o hL ht' ho
  refine ⟨U, e, h1, h2, ⟨_, ?_, h5⟩, L', h3, ?_⟩
  · rw [List.getLast?_eq_getElem?, h3.offsLen, Nat.add_sub_cancel, h3.offs _ (Nat.le_refl _), List.take_length]
  intro i j hi hj
  show cvt (f i j) = _
  rw [h1, h4 i j hi hj, hf i j hi hj]

example : (⟨.col, Dim.mk' 2 3, [some 7, some 5], [some 1, some 0], [some 0, some 1, some 2, some 2]⟩ : Sparse Int).convert
    (fun x => 2 * x) .row
    = .ok ⟨.row, Dim.mk' 2 3, [some 10, some 14], [some 1, some 0], [some 0, some 1, some 2]⟩ := by rfl

/-- C64, negative: the result of a sum (spare cells, see `C64_sum_counts_garbage`) cannot be converted
without reading uninitialised memory, and neither can an all-zero matrix to the other orientation. -/
theorem C64_conversion_reads_uninitialised :
    exSparse.convert (fun x => 2 * x) .col = .error .ub ∧
    (⟨.col, Dim.mk' 2 2, [], [], [some 0, some 0, some 0]⟩ : Sparse Int).convert id .row = .error .ub :=
  ⟨rfl, rfl⟩

end BB
