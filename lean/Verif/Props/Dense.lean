import Verif.Lemmas.DenseFill
import Mathlib.Algebra.Field.Basic

/-!
# C09, C10, C16, C21, C22, C44, C49: dense matrices
-/

namespace BB

variable {R : Type}

/-- C09.  Converting a dense matrix to any element type and to either orientation succeeds, keeps the
dimensions and yields the converted element at every index pair. -/
theorem C09_dense_conversion {S : Type} (cvt : R → S) (o : Ori) (A : Dense R) (r c : Nat) (f : Nat → Nat → R)
    (hA : A.Is r c f) :
    ∃ B, A.convert cvt o = .ok B ∧ B.ori = o ∧ B.Is r c (fun i j => cvt (f i j)) :=
  Dense.convert_sat cvt o hA

/-- Every r×c matrix is held by some object, in each orientation (the hypotheses of the theorems of this
file are met by every mathematical matrix). -/
example (o : Ori) (r c : Nat) (f : Nat → Nat → R) : ∃ A : Dense R, A.ori = o ∧ A.Is r c f :=
  ⟨Dense.ofFn o r c f, rfl, Dense.ofFn_is o r c f⟩

example : (Dense.ofFn .row 2 3 (fun i j => 10 * i + j)).convert (fun x => x + 1) .col
    = .ok ⟨.col, Dim.mk' 2 3, [some 1, some 11, some 2, some 12, some 3, some 13]⟩ := by rfl

/-- C10.  `transpose` swaps the dimensions and the indices, and never reads an uninitialised cell. -/
theorem C10_transpose (A : Dense R) (r c : Nat) (f : Nat → Nat → R) (hA : A.Is r c f) :
    ∃ T, A.transpose = .ok T ∧ T.ori = A.ori ∧ T.Is c r (fun j i => f i j) :=
  Dense.transpose_sat hA

/-- C10.  Transposing twice gives back every element (indeed the same storage). -/
theorem C10_transpose_twice (A : Dense R) (r c : Nat) (f : Nat → Nat → R) (hA : A.Is r c f) :
    ∃ T U, A.transpose = .ok T ∧ T.transpose = .ok U ∧ U.ori = A.ori ∧ U.Is r c f := by
  obtain ⟨T, e, ho, hT⟩ := Dense.transpose_sat hA
  obtain ⟨U, e', ho', hU⟩ := Dense.transpose_sat hT
  exact ⟨T, U, e, e', by rw [ho', ho], hU⟩

example : (Dense.ofFn .col 2 3 (fun i j => 10 * i + j)).transpose
    = .ok (Dense.ofFn .col 3 2 (fun i j => 10 * j + i)) := by rfl

/-- C16.  `C = A op B` (`op` is + or -) for operands of equal dimensions and orientation is
element-wise, for whatever object `C` held before. -/
theorem C16_dense_sum (op : R → R → R) (A B C : Dense R) (r c : Nat) (f g : Nat → Nat → R)
    (hA : A.Is r c f) (hB : B.Is r c g) (ho : B.ori = A.ori) (ho' : C.ori = A.ori) :
    ∃ D, Dense.binop op A B C = .ok D ∧ D.ori = A.ori ∧ D.Is r c (fun i j => op (f i j) (g i j)) :=
  Dense.binop_sat op C hA hB ho.symm ho'

/-- C16.  `A op= B` is element-wise. -/
theorem C16_dense_sum_assign (op : R → R → R) (A B : Dense R) (r c : Nat) (f g : Nat → Nat → R)
    (hA : A.Is r c f) (hB : B.Is r c g) (ho : B.ori = A.ori) :
    ∃ D, Dense.binassign op A B = .ok D ∧ D.ori = A.ori ∧ D.Is r c (fun i j => op (f i j) (g i j)) :=
  Dense.binassign_sat op hA hB ho.symm

/-- C16, error branch: operands of different dimensions are rejected by an assertion before anything is
read or written. -/
theorem C16_dimension_mismatch_asserts (op : R → R → R) (A B C : Dense R)
    (h : ¬ (A.rows = B.rows ∧ A.cols = B.cols)) : Dense.binop op A B C = .error .assertFail := by
  unfold Dense.binop assertThat
  by_cases h1 : A.dim.rows = B.dim.rows
  · have h2 : A.dim.cols ≠ B.dim.cols := fun h2 => h ⟨h1, h2⟩
    simp [h1, h2]
  · simp [h1]

/-- C62, negative: for operands of different orientation (which the templates accept) the sum is taken
storage cell by storage cell and is wrong: the 2×2 matrices f(i,j) = 10 i + j (column-major) and its
row-major copy do not add up to 2 f. -/
theorem C62_mixed_sum_is_wrong :
    ∃ D, Dense.binop (· + ·) (Dense.ofFn .col 2 2 (fun i j => 10 * i + j))
        (Dense.ofFn .row 2 2 (fun i j => 10 * i + j)) (Dense.empty .col) = .ok D ∧
      D.get 1 0 = .ok 11 ∧ (10 * 1 + 0) + (10 * 1 + 0) = 20 :=
  ⟨_, rfl, rfl, rfl⟩

/-- C21 for column-major operands and result: the raw dense product is the row-by-column product,
accumulated from 0 in increasing l; no uninitialised or out-of-range cell is read.  (Outside the claim: row-major
operands, for which the claim is false, see `C62_native_product_is_wrong`.) -/
theorem C21_native_product [Zero R] [Add R] [Mul R] (A B C : Dense R) (m k n : Nat)
    (f g : Nat → Nat → R) (hA : A.Is m k f) (hB : B.Is k n g)
    (hAo : A.ori = .col) (hBo : B.ori = .col) (hCo : C.ori = .col) :
    ∃ D, Dense.mulGeneral A B C = .ok D ∧ D.ori = .col ∧ D.Is m n (fun i j => dotSeq f g k i j) :=
  Dense.mulGeneral_sat C hA hB hAo hBo hCo

/-- C21 in a semiring: the elements are the mathematical sums of products; for k = 0 they are 0. -/
theorem C21_native_product_sum [NonUnitalNonAssocSemiring R] (A B C : Dense R) (m k n : Nat)
    (f g : Nat → Nat → R) (hA : A.Is m k f) (hB : B.Is k n g)
    (hAo : A.ori = .col) (hBo : B.ori = .col) (hCo : C.ori = .col) :
    ∃ D, Dense.mulGeneral A B C = .ok D ∧ D.Is m n (fun i j => ∑ l ∈ Finset.range k, f i l * g l j) := by
  obtain ⟨D, e, -, hD⟩ := Dense.mulGeneral_sat C hA hB hAo hBo hCo
  exact ⟨D, e, hD.congr (fun i j _ _ => dotSeq_eq_sum f g k i j)⟩

/-- C62, negative: with row-major operands the same functor returns a wrong
product (the type parameters accept them).  [[1,2],[3,4]]·[[1,1],[0,1]] has first column (1,3); the code
delivers (4,6) (result column-major, as `operator*` chooses it). -/
theorem C62_native_product_is_wrong :
    ∃ D, Dense.mulGeneral (⟨.row, Dim.mk' 2 2, [some 1, some 2, some 3, some 4]⟩ : Dense Nat)
        ⟨.row, Dim.mk' 2 2, [some 1, some 1, some 0, some 1]⟩ (Dense.empty .col) = .ok D ∧
      D.get 0 0 = .ok 4 ∧ D.get 1 0 = .ok 6 ∧ 1 * 1 + 2 * 0 = 1 ∧ 3 * 1 + 4 * 0 = 3 :=
  ⟨_, rfl, rfl, rfl, rfl, rfl⟩

/-- C22.  The cursor product delivers the row-by-column product for operands that are arbitrary views
(any orientation, plain or submatrix) and a result of any orientation, whatever `C` held before. -/
theorem C22_cursor_product [Zero R] [Add R] [Mul R] (va vb : View) (da db : Buf R) (C : Dense R)
    (f g : Nat → Nat → R) (hk : va.cols = vb.rows) (hfit : va.Fits da.length)
    (hA : va.Reads da f) (hB : vb.Reads db g) :
    ∃ D, Dense.mulCursor va da vb db C = .ok D ∧ D.ori = C.ori ∧
      D.Is va.rows vb.cols (fun i j => dotSeq f g va.cols i j) :=
  Dense.mulCursor_sat C hk hfit hA hB

/-- C22 for two plain matrices of any orientations. -/
theorem C22_cursor_product_plain [NonUnitalNonAssocSemiring R] (A B C : Dense R) (m k n : Nat)
    (f g : Nat → Nat → R) (hA : A.Is m k f) (hB : B.Is k n g) :
    ∃ D, Dense.mulCursor A.view A.data B.view B.data C = .ok D ∧ D.ori = C.ori ∧
      D.Is m n (fun i j => ∑ l ∈ Finset.range k, f i l * g l j) := by
  have e1 := hA.view_rows
  have e2 := hB.view_rows
  have rdA : A.view.Reads A.data f := by
    intro i j hi hj
    rw [e1] at hi hj
    exact hA.elems i j hi hj
  have rdB : B.view.Reads B.data g := by
    intro i j hi hj
    rw [e2] at hi hj
    exact hB.elems i j hi hj
  obtain ⟨D, e, ho, hD⟩ := Dense.mulCursor_sat C (by rw [e1, e2]; rfl) hA.fits rdA rdB
  rw [e1, e2] at hD
  refine ⟨D, e, ho, ?_⟩
  exact Dense.Is.congr (A := D) hD (fun i j _ _ => dotSeq_eq_sum f g k i j)

/-- A window of a larger matrix is an admissible operand of C22. -/
example : ((View.plain .col 3 3).sub 2 2 1 1).Fits 9 ∧
    ((View.plain .col 3 3).sub 2 2 1 1).Reads (Dense.ofFn .col 3 3 (fun i j => 10 * i + j)).data
      (fun i j => 10 * (1 + i) + (1 + j)) := by
  constructor
  · exact View.fits_col rfl (by decide) (by decide)
  · intro i j hi hj
    simp only [View.sub] at hi hj
    match i, j, hi, hj with
    | 0, 0, _, _ => rfl
    | 0, 1, _, _ => rfl
    | 1, 0, _, _ => rfl
    | 1, 1, _, _ => rfl

/-- C44, `AllFiller` at construction, after `resize`, and on an existing matrix: every element of a matrix of any
shape has the given value afterwards, whatever the object held before. -/
theorem C44_all_filler (A : Dense R) (r c : Nat) (x : R) :
    (∃ B, (Dense.new A.ori r c : Dense R).fillAll x = .ok B ∧ B.Is r c (fun _ _ => x)) ∧
    (∃ B, A.resizeFill r c x = .ok B ∧ B.Is r c (fun _ _ => x)) := by
  constructor
  · refine ⟨_, Dense.fillAll_ok _ _, ?_⟩
    simp only [Dense.new, Buf.length_alloc]
    exact Dense.is_mk (by simp) (Dense.replicate_cells _ _ _ _)
  · obtain ⟨B, e, -, h⟩ := Dense.resizeFill_is A r c x
    exact ⟨B, e, h⟩

/-- C44, `ContinuousNumberFiller`: the elements are 1, 2, 3, … in storage order. -/
theorem C44_continuous_filler [AddMonoidWithOne R] (o : Ori) (r c : Nat) :
    ∃ B, (Dense.new o r c : Dense R).fillContinuous = .ok B ∧ B.ori = o ∧
      B.Is r c (fun i j => match o with
        | .col => ((i + j * r : Nat) : R) + 1
        | .row => ((i * c + j : Nat) : R) + 1) := by
  obtain ⟨B, e, ho, h⟩ := Dense.fillContinuous_sat (Dense.new o r c : Dense R) rfl (by simp [Dense.new])
  refine ⟨B, e, ho, h.congr ?_⟩
  intro i j _ _
  rw [countUp_eq]
  cases o <;> rfl

/-- C44, `HilbertFiller`: element (i,j), counted from 0, is 1/(i+j+1). -/
theorem C44_hilbert_filler [Field R] (o : Ori) (r c : Nat) :
    ∃ B, (Dense.new o r c : Dense R).fillHilbert = .ok B ∧ B.ori = o ∧
      B.Is r c (fun i j => 1 / ((i : R) + (j : R) + 1)) := by
  obtain ⟨B, e, ho, h⟩ := Dense.fillHilbert_sat (Dense.new o r c : Dense R) rfl (by simp [Dense.new])
  refine ⟨B, e, ho, h.congr ?_⟩
  intro i j _ _
  rw [countUp_eq, countUp_eq]
  congr 1
  ring

/-- C44, `DiagonalFiller` on a square matrix … -/
theorem C44_diagonal_filler [Zero R] (o : Ori) (n : Nat) (x : R) :
    ∃ B, (Dense.new o n n : Dense R).fillDiagonal x = .ok B ∧ B.ori = o ∧
      B.Is n n (fun i j => if i = j then x else 0) :=
  Dense.fillDiagonal_sat (Dense.new o n n : Dense R) x rfl (by simp [Dense.new])

/-- … and on any other one: it throws and leaves the matrix alone. -/
theorem C44_diagonal_filler_rejects [Zero R] (A : Dense R) (x : R) (h : A.rows ≠ A.cols) :
    ∃ msg, A.fillDiagonal x = .error (.throw msg) := by
  refine ⟨"DiagonalFiller: Matrix is not quadratic.", ?_⟩
  unfold Dense.fillDiagonal
  exact if_pos h

example : (Dense.new .row 2 3 : Dense Nat).fillContinuous
    = .ok ⟨.row, Dim.mk' 2 3, [some 1, some 2, some 3, some 4, some 5, some 6]⟩ := by rfl

/-- C49 for a non-empty list of rows none of which is shorter than the first one: the j-th value of the
i-th row becomes element (i,j). (Outside the claim: rows shorter than the first one and an empty outer list, for
which the claim is false, see `C68_ragged_is_ub`.) -/
theorem C49_initializer_lists (o : Ori) (first : List R) (rest : List (List R)) (f : Nat → Nat → R)
    (hlen : ∀ row ∈ rest, first.length ≤ row.length)
    (hf : ∀ i j row x, (first :: rest)[i]? = some row → row[j]? = some x → f i j = x) :
    ∃ A, Dense.ofLists o (first :: rest) = .ok A ∧ A.ori = o ∧
      A.Is (rest.length + 1) first.length f :=
  Dense.ofLists_sat o (first :: rest) first rest f rfl (by
    intro row h
    rcases List.mem_cons.mp h with rfl | h
    · exact Nat.le_refl _
    · exact hlen row h) hf

example : Dense.ofLists .col [[1, 2, 3], [4, 5, 6]]
    = .ok ⟨.col, Dim.mk' 2 3, [some 1, some 4, some 2, some 5, some 3, some 6]⟩ := by rfl

/-- C68, negative: a second row shorter than the first is read past its end,
a longer one is silently cut, and an empty list of rows is dereferenced. -/
theorem C68_ragged_is_ub :
    Dense.ofLists .col [[1, 2], [3]] = .error .ub ∧
    (∃ A, Dense.ofLists .col [[1], [2, 3]] = .ok A ∧ A.cols = 1) ∧
    Dense.ofLists (R := Nat) .col [] = .error .ub :=
  ⟨rfl, ⟨_, rfl, rfl⟩, rfl⟩

end BB
