import Verif.Props.Mismatch
import Verif.Props.Dense
import Verif.Model.External

/-!
# C102: mismatched operands in the products computed by libraries and by cursors
-/

namespace BB

variable {R : Type}

/-- C102: no product routine of a library is called with mismatched operands, whatever the routine would do: OpenBLAS and MKL
(`?gemm`), MKL sparse (`?csrmm`, `?csrmultcsr`), Eigen, Blaze. -/
theorem C102_library_product {RA RB : Type} [Zero R] [One R] (gemm : Blas.Gemm R) (csrmm : Blas.Csrmm R) (csr : Ext.Csrmultcsr R) (eigen : Ext.Prod R R R)
    (blaze : Ext.Prod RA RB R) (pl : Ext.Place) :
    (∀ A B C : Dense R, A.dim.cols ≠ B.dim.rows →
      Blas.mul gemm A B C = .error .assertFail ∧ Ext.mulEigen eigen A B C = .error .assertFail) ∧
    (∀ (A : Sparse R) (B C : Dense R), A.dim.cols ≠ B.dim.rows → Blas.mulCsr csrmm A B C = .error .assertFail) ∧
    (∀ A B C : Sparse R, A.dim.cols ≠ B.dim.rows → Ext.mulCsrCsr csr A B C = .error .assertFail) ∧
    (∀ (A : Dense RA) (B : Dense RB) (C : Dense R), A.dim.cols ≠ B.dim.rows → Ext.mulBlaze blaze pl A B C = .error .assertFail) := by
  refine ⟨fun A B C h => ⟨?_, ?_⟩, fun A B C h => ?_, fun A B C h => ?_, fun A B C h => ?_⟩
  · simp [Blas.mul, assertThat, h]
  · simp [Ext.mulEigen, assertThat, h]
  · simp [Blas.mulCsr, assertThat, h]
  · simp [Ext.mulCsrCsr, assertThat, h]
  · simp [Ext.mulBlaze, assertThat, h]

/-- C102 is false of the cursor-based product, which has no check: for every m×k and k'×n matrix with k < k' it returns an
m×n matrix, the product with the first k rows of the second factor. -/
theorem C102_cursor_product_is_not_checked [NonUnitalNonAssocSemiring R] (A B C : Dense R) (m k k' n : Nat) (f g : Nat → Nat → R)
    (hA : A.Is m k f) (hB : B.Is k' n g) (hk : k < k') :
    ∃ D, Dense.mulCursor A.view A.data B.view B.data C = .ok D ∧ D.ori = C.ori ∧
      D.Is m n (fun i j => ∑ l ∈ Finset.range k, f i l * g l j) := by
  have e1 := hA.view_rows
  have e2 := hB.view_rows
  have rdA : A.view.Reads A.data f := by
    intro i j hi hj
    rw [e1] at hi hj
    exact hA.elems i j hi hj
  have rdB : ({ B.view with rows := k } : View).Reads B.data g := by
    intro i j hi hj
    have hi' : i < k := hi
    have hj' : j < n := by rw [e2] at hj; exact hj
    have := hB.elems i j (by omega) hj'
    simp only [Dense.get, View.get, e2, View.plain] at this ⊢
    rw [show assertThat (decide (i < k')) = .ok () by simp [assertThat]; omega] at this
    rw [show assertThat (decide (i < k)) = .ok () by simp [assertThat]; omega]
    exact this
  have hkk : A.view.cols = ({ B.view with rows := k } : View).rows := by rw [e1]; rfl
  have fitA : A.view.Fits A.data.length := by rw [e1, hA.alloc]; exact View.plain_fits _ _ _
  obtain ⟨D, e, h1, h2⟩ := Dense.mulCursor_sat (vb := { B.view with rows := k }) C hkk fitA rdA rdB
  refine ⟨D, e, h1, ?_⟩
  have hr : A.view.rows = m := by rw [e1]; rfl
  have hc : A.view.cols = k := by rw [e1]; rfl
  have hn : ({ B.view with rows := k } : View).cols = n := by rw [e2]; rfl
  rw [hr, hc, hn] at h2
  exact h2.congr fun i j _ _ => dotSeq_eq_sum ..

/-- The same for k > k': the inner loop runs on behind the column of the second factor.  If that is the 1×1 submatrix (3) of
(3 5), the result of (1 2)·(3) is 1·3 + 2·5; if it is the matrix (3), memory behind it is read. -/
theorem C102_cursor_product_counterexample :
    (∃ D, Dense.mulCursor (View.plain .col 1 2) [some 1, some 2] ((View.plain .col 1 2).sub 1 1 0 0) [some 3, some 5] (Dense.empty .col) = .ok D ∧
      D.get 0 0 = .ok (13 : Int)) ∧
    Dense.mulCursor (View.plain .col 1 2) [some 1, some 2] (View.plain .col 1 1) [some (3 : Int)] (Dense.empty .col) = .error .ub :=
  ⟨⟨_, rfl, rfl⟩, rfl⟩

example : ∃ D, Dense.mulCursor (Dense.ofFn .col 2 1 (fun i _ => (i + 1 : Int))).view (Dense.ofFn .col 2 1 (fun i _ => (i + 1 : Int))).data
    (Dense.ofFn .col 3 2 (fun i j => (10 * i + j + 1 : Int))).view (Dense.ofFn .col 3 2 (fun i j => (10 * i + j + 1 : Int))).data
    (Dense.empty .col) = .ok D ∧ D.get 1 1 = .ok 4 := ⟨_, rfl, rfl⟩

end BB
