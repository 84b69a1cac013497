import Verif.Lemmas.Mat
import Mathlib.Data.Int.Order.Basic
import Mathlib.Tactic.Abel

/-!
# Properties C19, C20, C25, C26, C50: zero matrices and two-part matrices

`M.Is r c f` (SpecMat.lean) says that the matrix `M`, of whatever kind, denotes the r×c matrix `f`.
-/

namespace BB

variable {R : Type}

/-! ### C19 -/

/-- C19, first part: M + Zero, Zero + M and M - Zero denote M, for M of any kind (dense, sparse, zero or
two-part), and `M += Zero`, `M -= Zero` leave M exactly as it was.  (Outside the claim: Zero - M, see
`C65_zero_minus_is_wrong`.) -/
theorem C19_zero_identity [AddCommGroup R] (M : SMat R) (d : Dim) (r c : Nat) (f : Nat → Nat → R) (hM : M.Is r c f)
    (hr : d.rows = r) (hc : d.cols = c) :
    (∃ C, SMat.binop (· + ·) id M (.zero d) = .ok C ∧ C.Is r c f) ∧
    (∃ C, SMat.binop (· + ·) id (.zero d) M = .ok C ∧ C.Is r c f) ∧
    (∃ C, SMat.binop (· - ·) (- ·) M (.zero d) = .ok C ∧ C.Is r c f) ∧
    SMat.binassign (· + ·) M (.zero d) = .ok M ∧
    SMat.binassign (· - ·) M (.zero d) = .ok M := by
  have hZ : (SMat.zero d : SMat R).Is r c (fun _ _ => 0) := ⟨hr, hc, fun _ _ _ _ => rfl⟩
  refine ⟨?_, ?_, ?_, SMat.binassign_zero _ (hM.rows.trans hr.symm) (hM.cols.trans hc.symm),
    SMat.binassign_zero _ (hM.rows.trans hr.symm) (hM.cols.trans hc.symm)⟩
  · obtain ⟨C, e, h⟩ := SMat.binop_add_sat hM hZ
    exact ⟨C, e, h.congr (by simp)⟩
  · obtain ⟨C, e, h⟩ := SMat.binop_add_sat hZ hM
    exact ⟨C, e, h.congr (by simp)⟩
  · obtain ⟨C, e, h⟩ := SMat.binop_sub_sat hM hZ ⟨fun _ => rfl, fun _ => rfl⟩
    exact ⟨C, e, h.congr (by simp)⟩

/-- C19 for two-part matrices. -/
theorem C19_zero_identity_multiple [AddCommGroup R] (X1 X2 : SMat R) (d : Dim) (r c : Nat) (f : Nat → Nat → R)
    (hX : (Mat.two X1 X2).Is r c f) (hr : d.rows = r) (hc : d.cols = c) :
    (∃ C, Mat.add (· + ·) (.two X1 X2) (.one (.zero d)) = .ok C ∧ C.Is r c f) ∧
    (∃ C, Mat.add (· + ·) (.one (.zero d)) (.two X1 X2) = .ok C ∧ C.Is r c f) ∧
    (∃ C, Mat.sub (.two X1 X2) (.one (.zero d)) = .ok C ∧ C.Is r c f) ∧
    Mat.addAssign (.two X1 X2) (.one (.zero d)) = .ok (.two X1 X2) ∧
    Mat.subAssign (.two X1 X2) (.one (.zero d)) = .ok (.two X1 X2) := by
  have hZ : (SMat.zero d : SMat R).Is r c (fun _ _ => 0) := ⟨hr, hc, fun _ _ _ _ => rfl⟩
  refine ⟨?_, ?_, ?_, ?_, ?_⟩
  · obtain ⟨C, e, h⟩ := Mat.add_sat (B := .one (.zero d)) hX hZ
    exact ⟨C, e, h.congr (by simp)⟩
  · obtain ⟨C, e, h⟩ := Mat.add_sat (A := .one (.zero d)) hZ hX
    exact ⟨C, e, h.congr (by simp)⟩
  · obtain ⟨f1, f2, h1, h2, h3⟩ := hX
    obtain ⟨C, e, h⟩ := SMat.binop_add_sat h1 h2
    obtain ⟨D, e', h'⟩ := SMat.binop_sub_sat h hZ ⟨fun _ => rfl, fun _ => rfl⟩
    refine ⟨D, ?_, h'.congr (fun i j hi hj => by rw [h3 i j hi hj, sub_zero])⟩
    simp only [Mat.sub, e, bind_ok']
    exact e'
  all_goals
    obtain ⟨f1, f2, h1, h2, h3⟩ := hX
    simp only [Mat.addAssign, Mat.subAssign]
    rw [SMat.binassign_zero _ (h1.rows.trans hr.symm) (h1.cols.trans hc.symm),
      SMat.binassign_zero _ (h2.rows.trans hr.symm) (h2.cols.trans hc.symm)]
    rfl

/-- C65, negative: Zero - M returns M, not -M, for every dense or sparse M. -/
theorem C65_zero_minus_is_wrong [Sub R] [Neg R] (d : Dim) (A : Dense R) (S : Sparse R) :
    SMat.binop (· - ·) (- ·) (.zero d) (.dense A) = .ok (.dense A) ∧
    SMat.binop (· - ·) (- ·) (.zero d) (.sparse S) = .ok (.sparse S) := ⟨rfl, rfl⟩

/-- C65, the negation of the claim about Zero - M: there is a 1×1 matrix M = (5) such that Zero - M does
not denote (-5). -/
theorem C65_zero_minus_counterexample :
    ∃ (M C : SMat Int), M.Is 1 1 (fun _ _ => 5) ∧
      SMat.binop (· - ·) (- ·) (.zero (Dim.mk' 1 1)) M = .ok C ∧ ¬ C.Is 1 1 (fun _ _ => -5) := by
  refine ⟨.dense (Dense.ofFn .col 1 1 (fun _ _ => 5)), _, ⟨Dense.ofFn_is .., rfl⟩, rfl, ?_⟩
  rintro ⟨h, -⟩
  have h1 := h.elems 0 0 (by omega) (by omega)
  have h2 := (Dense.ofFn_is .col 1 1 (fun _ _ => (5 : Int))).elems 0 0 (by omega) (by omega)
  rw [h1] at h2
  cases h2

example : ∃ C, SMat.binop (· + ·) id (.zero (Dim.mk' 2 3)) (.sparse exSparse) = .ok C ∧
    C.Is 2 3 (fun i j => if i = 0 ∧ j = 1 then 5 else if i = 1 ∧ j = 0 then 7 else 0) := by
  refine (C19_zero_identity (.sparse exSparse) (Dim.mk' 2 3) 2 3 _ ⟨⟨_, exSparse_valid, ?_⟩, rfl⟩ rfl rfl).2.1
  intro i j hi hj
  have : i = 0 ∨ i = 1 := by omega
  have : j = 0 ∨ j = 1 ∨ j = 2 := by omega
  rcases ‹i = 0 ∨ i = 1› with rfl | rfl <;> rcases ‹j = 0 ∨ j = 1 ∨ j = 2› with rfl | rfl | rfl <;> rfl

/-! ### C25 -/

/-- C25: M * Zero, Zero * M and Zero * Zero are zero matrices with rows(left) rows and columns(right)
columns, for M of any kind.  (Outside the claim: "as reported by every dimension query": `getSize()` is wrong, see
`C47_zero_product_size_is_zero`.) -/
theorem C25_zero_annihilates [Zero R] [Add R] [Mul R] [DecidableEq R] (M : SMat R) (d : Dim) :
    (M.cols = d.rows → ∃ e, SMat.mul M (.zero d) = .ok (.zero e) ∧ e.rows = M.rows ∧ e.cols = d.cols) ∧
    (d.cols = M.rows → ∃ e, SMat.mul (.zero d) M = .ok (.zero e) ∧ e.rows = d.rows ∧ e.cols = M.cols) := by
  constructor
  · intro h
    refine ⟨SMat.zeroResize (Dim.mk' 0 0) M.rows d.cols, ?_, rfl, rfl⟩
    cases M <;> simp only [SMat.cols] at h <;> simp [SMat.mul, SMat.mulZero, assertThat, SMat.rows, h]
  · intro h
    refine ⟨SMat.zeroResize (Dim.mk' 0 0) d.rows M.cols, ?_, rfl, rfl⟩
    cases M <;> simp only [SMat.rows] at h <;> simp [SMat.mul, SMat.mulZero, assertThat, SMat.cols, h]

/-- C25, the value side: the product with a zero matrix denotes the zero matrix, and is accepted by any
dense target: converted to dense it has the right size and every element is 0. -/
theorem C25_zero_product_to_dense [Zero R] [Add R] [Mul R] [DecidableEq R] (M : SMat R) (d : Dim) :
    (M.cols = d.rows → ∃ Z D, SMat.mul M (.zero d) = .ok Z ∧ Mat.denseOf Z = .ok D ∧ D.Is M.rows d.cols (fun _ _ => 0)) ∧
    (d.cols = M.rows → ∃ Z D, SMat.mul (.zero d) M = .ok Z ∧ Mat.denseOf Z = .ok D ∧ D.Is d.rows M.cols (fun _ _ => 0)) := by
  obtain ⟨h1, h2⟩ := C25_zero_annihilates M d
  constructor
  · intro h
    obtain ⟨e, he, hr, hc⟩ := h1 h
    obtain ⟨D, e', hD⟩ := Mat.denseOf_sat (A := (.zero e : SMat R)) (f := fun _ _ => 0) ⟨hr, hc, fun _ _ _ _ => rfl⟩
    exact ⟨_, D, he, e', hD.1⟩
  · intro h
    obtain ⟨e, he, hr, hc⟩ := h2 h
    obtain ⟨D, e', hD⟩ := Mat.denseOf_sat (A := (.zero e : SMat R)) (f := fun _ _ => 0) ⟨hr, hc, fun _ _ _ _ => rfl⟩
    exact ⟨_, D, he, e', hD.1⟩

/-- C47, negative: the zero matrix returned by a product reports `getSize() = 0` whatever its rows and
columns, because `Matrix<Zero>::resize` does not update the size. -/
theorem C47_zero_product_size_is_zero [Zero R] [Add R] [Mul R] [DecidableEq R] (M Z : SMat R) (d : Dim)
    (h : SMat.mul M (.zero d) = .ok Z) : Z.size = 0 := by
  have key : ∀ r k k' c, SMat.mulZero r k k' c = .ok Z → Z.size = 0 := by
    intro r k k' c h
    by_cases hk : k = k'
    · simp [SMat.mulZero, assertThat, hk] at h
      subst h; rfl
    · simp [SMat.mulZero, assertThat, hk] at h
  cases M <;> exact key _ _ _ _ h

/-- C47, the negation for a concrete product: 2×3 times 3×4 has 2 rows and 4 columns but reports size 0. -/
theorem C47_zero_product_size_counterexample :
    ∃ Z, SMat.mul (.sparse exSparse) (.zero (Dim.mk' 3 4)) = .ok Z ∧ Z.rows = 2 ∧ Z.cols = 4 ∧ Z.size ≠ Z.rows * Z.cols :=
  ⟨_, rfl, rfl, rfl, by decide⟩

/-- C25: non-conforming operands are rejected by an assertion. -/
theorem C25_mismatch_asserts [Zero R] [Add R] [Mul R] [DecidableEq R] (M : SMat R) (d : Dim) (h : M.cols ≠ d.rows) :
    SMat.mul M (.zero d) = .error .assertFail := by
  cases M <;> simp only [SMat.cols] at h <;> simp [SMat.mul, SMat.mulZero, assertThat, h]

/-! ### C20 -/

/-- C20, sums: A + B denotes the sum of what A and B denote, whatever their kinds (dense, sparse, zero,
two-part). -/
theorem C20_sum [AddCommMonoid R] (A B : Mat R) (r c : Nat) (f g : Nat → Nat → R) (hA : A.Is r c f) (hB : B.Is r c g) :
    ∃ C, Mat.add (· + ·) A B = .ok C ∧ C.Is r c (fun i j => f i j + g i j) :=
  Mat.add_sat hA hB

/-- C20, differences A - (Y1+Y2) for a dense A: correct. -/
theorem C20_dense_minus_multiple [AddCommGroup R] (A : Dense R) (Y1 Y2 : SMat R) (r c : Nat) (f g : Nat → Nat → R)
    (hA : A.Is r c f) (hAo : A.ori = .col) (hY : (Mat.two Y1 Y2).Is r c g) :
    ∃ C, Mat.sub (.one (.dense A)) (.two Y1 Y2) = .ok C ∧ C.Is r c (fun i j => f i j - g i j) := by
  obtain ⟨g1, g2, h1, h2, h3⟩ := hY
  obtain ⟨C, e, h⟩ := SMat.binop_sub_sat (A := .dense A) ⟨hA, hAo⟩ h1 ⟨by simp [SMat.isSparse], by simp [SMat.isZero]⟩
  have k := SMat.binop_kind e
  obtain ⟨D, e', h'⟩ := SMat.binop_sub_sat h h2 (by
    cases C with
    | dense C => exact ⟨by simp [SMat.isSparse], by simp [SMat.isZero]⟩
    | sparse C => simp [SMat.isDense] at k
    | zero C => simp [SMat.isDense] at k)
  refine ⟨D, ?_, h'.congr (fun i j hi hj => by rw [h3 i j hi hj]; abel)⟩
  simp only [Mat.sub, e, bind_ok']
  exact e'

/-- C20, differences (X1+X2) - B: correct if one of X1, X2 is dense, or if B is sparse or zero and one of
X1, X2 is sparse. -/
theorem C20_multiple_minus_single [AddCommGroup R] (X1 X2 B : SMat R) (r c : Nat) (f g : Nat → Nat → R)
    (hX : (Mat.two X1 X2).Is r c f) (hB : B.Is r c g)
    (hk : X1.isDense = true ∨ X2.isDense = true ∨ (B.isDense = false ∧ (X1.isSparse = true ∨ X2.isSparse = true))) :
    ∃ C, Mat.sub (.two X1 X2) (.one B) = .ok C ∧ C.Is r c (fun i j => f i j - g i j) := by
  obtain ⟨f1, f2, h1, h2, h3⟩ := hX
  obtain ⟨C, e, h⟩ := SMat.binop_add_sat h1 h2
  have k := SMat.binop_kind e
  have hz : ∀ M : SMat R, (M.isZero = true → M.isDense = false ∧ M.isSparse = false) ∧
      (M.isSparse = true → M.isDense = false) := by
    intro M; cases M <;> simp [SMat.isZero, SMat.isDense, SMat.isSparse]
  obtain ⟨D, e', h'⟩ := SMat.binop_sub_sat h hB (by
    constructor
    · intro hs
      have := k.2.2.1 hs
      rcases hk with hk | hk | hk
      · simp [hk] at this
      · simp [hk] at this
      · exact hk.1
    · intro hs
      exfalso
      have := k.2.1
      rw [hs] at this
      simp only [Bool.true_eq, Bool.and_eq_true] at this
      have a1 := (hz X1).1 this.1
      have a2 := (hz X2).1 this.2
      rcases hk with hk | hk | hk
      · simp [hk] at a1
      · simp [hk] at a2
      · simp [a1, a2] at hk)
  refine ⟨D, ?_, h'.congr (fun i j hi hj => by rw [h3 i j hi hj])⟩
  simp only [Mat.sub, e, bind_ok']
  exact e'

/-- C20, A += X and A -= X for a dense A and a two-part X: correct. -/
theorem C20_dense_assign_multiple [AddCommGroup R] (A : Dense R) (X1 X2 : SMat R) (r c : Nat) (f g : Nat → Nat → R)
    (hA : A.Is r c f) (hAo : A.ori = .col) (hX : (Mat.two X1 X2).Is r c g) :
    (∃ D, Mat.addAssign (.one (.dense A)) (.two X1 X2) = .ok (.one (.dense D)) ∧ D.Is r c (fun i j => f i j + g i j) ∧ D.ori = .col) ∧
    (∃ D, Mat.subAssign (.one (.dense A)) (.two X1 X2) = .ok (.one (.dense D)) ∧ D.Is r c (fun i j => f i j - g i j) ∧ D.ori = .col) := by
  obtain ⟨g1, g2, h1, h2, h3⟩ := hX
  constructor
  · obtain ⟨C, e, h⟩ := SMat.binop_add_sat h1 h2
    obtain ⟨_, e', D, rfl, h'⟩ := SMat.binassign_dense_sat (· + ·) (by simp) (A := A) ⟨hA, hAo⟩ h
    refine ⟨D, ?_, h'.congr (fun i j hi hj => by rw [h3 i j hi hj])⟩
    simp only [Mat.addAssign, e, e', bind_ok']; rfl
  · obtain ⟨_, e, D, rfl, h⟩ := SMat.binassign_dense_sat (· - ·) (by simp) (A := A) ⟨hA, hAo⟩ h1
    obtain ⟨_, e', E, rfl, h'⟩ := SMat.binassign_dense_sat (· - ·) (by simp) h h2
    refine ⟨E, ?_, h'.congr (fun i j hi hj => by rw [h3 i j hi hj]; abel)⟩
    simp only [Mat.subAssign, e, e', bind_ok']; rfl

/-- C65, negative: X - Y for two-part X, Y computes (X1+X2) - Y1 + Y2, for all operands with a dense part
in X. -/
theorem C65_multiple_minus_multiple_is_wrong [AddCommGroup R] (X1 X2 Y1 Y2 : SMat R) (r c : Nat) (f g1 g2 : Nat → Nat → R)
    (hX : (Mat.two X1 X2).Is r c f) (h1 : Y1.Is r c g1) (h2 : Y2.Is r c g2) (hk : X1.isDense = true ∨ X2.isDense = true) :
    ∃ C, Mat.sub (.two X1 X2) (.two Y1 Y2) = .ok C ∧ C.Is r c (fun i j => f i j - g1 i j + g2 i j) := by
  obtain ⟨D, e, h⟩ := C20_multiple_minus_single X1 X2 Y1 r c f g1 hX h1 (by tauto)
  obtain ⟨E, e', h'⟩ := SMat.binop_add_sat h h2
  refine ⟨E, ?_, h'⟩
  simp only [Mat.sub] at e ⊢
  cases hx : SMat.binop (· + ·) id X1 X2 with
  | error x => rw [hx] at e; cases e
  | ok C =>
    rw [hx] at e
    simp only [bind_ok'] at e ⊢
    rw [e]
    exact e'

/-- C65, the negation of "X - Y denotes (X1+X2)-(Y1+Y2)" with a 1×1 witness: (0+0)-(0+1) gives 1. -/
theorem C65_multiple_minus_multiple_counterexample :
    ∃ (X1 X2 Y1 Y2 C : SMat Int), (Mat.two X1 X2).Is 1 1 (fun _ _ => 0) ∧ (Mat.two Y1 Y2).Is 1 1 (fun _ _ => 1) ∧
      Mat.sub (.two X1 X2) (.two Y1 Y2) = .ok C ∧ ¬ C.Is 1 1 (fun _ _ => 0 - 1) := by
  have hz : (SMat.dense (Dense.ofFn .col 1 1 (fun _ _ => (0 : Int)))).Is 1 1 (fun _ _ => 0) := ⟨Dense.ofFn_is .., rfl⟩
  have ho : (SMat.dense (Dense.ofFn .col 1 1 (fun _ _ => (1 : Int)))).Is 1 1 (fun _ _ => 1) := ⟨Dense.ofFn_is .., rfl⟩
  have hX : (Mat.two (SMat.dense (Dense.ofFn .col 1 1 (fun _ _ => (0 : Int)))) (SMat.dense (Dense.ofFn .col 1 1 (fun _ _ => 0)))).Is
    1 1 (fun _ _ => 0) := ⟨_, _, hz, hz, by simp⟩
  obtain ⟨C, e, h⟩ := C65_multiple_minus_multiple_is_wrong _ _ _ _ 1 1 _ _ _ hX hz ho (Or.inl rfl)
  refine ⟨_, _, _, _, C, hX, ⟨_, _, hz, ho, by simp⟩, e, ?_⟩
  intro h'
  cases C with
  | dense C =>
    have a := h.1.elems 0 0 (by omega) (by omega)
    rw [h'.1.elems 0 0 (by omega) (by omega)] at a
    cases a
  | sparse C => exact absurd e (by intro e; cases e)
  | zero d => exact absurd e (by intro e; cases e)

/-- C65, negative: X += B for a two-part X with dense parts adds B twice; X -= B subtracts it twice. -/
theorem C65_multiple_assign_doubles [AddCommGroup R] (X1 X2 : Dense R) (B : SMat R) (r c : Nat) (f g : Nat → Nat → R)
    (hX : (Mat.two (.dense X1) (.dense X2)).Is r c f) (hB : B.Is r c g) :
    (∃ X, Mat.addAssign (.two (.dense X1) (.dense X2)) (.one B) = .ok X ∧ X.Is r c (fun i j => f i j + g i j + g i j)) ∧
    (∃ X, Mat.subAssign (.two (.dense X1) (.dense X2)) (.one B) = .ok X ∧ X.Is r c (fun i j => f i j - g i j - g i j)) := by
  obtain ⟨f1, f2, h1, h2, h3⟩ := hX
  constructor
  · obtain ⟨_, e, D, rfl, h⟩ := SMat.binassign_dense_sat (· + ·) (by simp) h1 hB
    obtain ⟨_, e', E, rfl, h'⟩ := SMat.binassign_dense_sat (· + ·) (by simp) h2 hB
    refine ⟨.two (.dense D) (.dense E), by simp only [Mat.addAssign, e, e', bind_ok']; rfl,
      _, _, h, h', fun i j hi hj => by beta_reduce; rw [h3 i j hi hj]; abel⟩
  · obtain ⟨_, e, D, rfl, h⟩ := SMat.binassign_dense_sat (· - ·) (by simp) h1 hB
    obtain ⟨_, e', E, rfl, h'⟩ := SMat.binassign_dense_sat (· - ·) (by simp) h2 hB
    refine ⟨.two (.dense D) (.dense E), by simp only [Mat.subAssign, e, e', bind_ok']; rfl,
      _, _, h, h', fun i j hi hj => by beta_reduce; rw [h3 i j hi hj]; abel⟩

/-- C65, negative: for the two-part types the library registers (first part sparse), X += B and X -= B
only throw, for every dense or sparse B. -/
theorem C65_multiple_assign_throws [Add R] [Sub R] (X1 : Sparse R) (X2 B : SMat R) (hB : B.isZero = false) :
    (∃ s, Mat.addAssign (.two (.sparse X1) X2) (.one B) = .error (.throw s)) ∧
    (∃ s, Mat.subAssign (.two (.sparse X1) X2) (.one B) = .error (.throw s)) := by
  cases B with
  | dense B => exact ⟨⟨_, rfl⟩, ⟨_, rfl⟩⟩
  | sparse B => exact ⟨⟨_, rfl⟩, ⟨_, rfl⟩⟩
  | zero d => simp [SMat.isZero] at hB

/-- C20: a two-part matrix converted to a dense matrix is the sum of its parts. -/
theorem C20_to_dense [AddMonoid R] (A : Mat R) (r c : Nat) (f : Nat → Nat → R) (hA : A.Is r c f) :
    ∃ D, A.toDense = .ok D ∧ D.ori = .col ∧ D.Is r c f := by
  obtain ⟨D, e, h1, h2⟩ := Mat.toDense_sat hA
  exact ⟨D, e, h2, h1⟩

example : ∃ D : Dense Int, (Mat.two (.sparse exSparse) (.dense (Dense.ofFn .col 2 3 (fun i j => (10 * i + j : Int))))).toDense = .ok D ∧
    D.get 1 0 = .ok 17 ∧ D.get 0 1 = .ok 6 ∧ D.get 1 2 = .ok 12 := ⟨_, rfl, rfl, rfl, rfl⟩

/-! ### C26 -/

/-- C26: the product of matrices of any kinds, computed part by part for two-part operands, denotes the
product of what the operands denote. -/
theorem C26_product_of_sums [NonUnitalNonAssocSemiring R] [DecidableEq R] (A B : Mat R) (m k n : Nat) (f g : Nat → Nat → R)
    (hA : A.Is m k f) (hB : B.Is k n g) :
    ∃ C, Mat.mul A B = .ok C ∧ C.Is m n (fun i j => ∑ l ∈ Finset.range k, f i l * g l j) :=
  Mat.mul_sat hA hB

example : ∃ C : SMat Int, Mat.mul (.two (.sparse exSparse) (.dense (Dense.ofFn .col 2 3 (fun _ _ => 1))))
    (.two (.dense (Dense.ofFn .col 3 1 (fun i _ => i))) (.zero (Dim.mk' 3 1))) = .ok C ∧
    ∃ D, Mat.denseOf C = .ok D ∧ D.get 0 0 = .ok 8 ∧ D.get 1 0 = .ok 3 := ⟨_, rfl, _, rfl, rfl, rfl⟩

/-! ### C50 -/

/-- C50: the constructor accepts exactly the pairs of parts with equal dimensions; otherwise an assertion
fails (an exception is thrown, if so configured).  (Missing: keeping the dimensions equal afterwards.) -/
theorem C50_constructor_checks_partial (X1 X2 : SMat R) :
    (X1.rows = X2.rows ∧ X1.cols = X2.cols → Mat.mkTwo X1 X2 = .ok (.two X1 X2)) ∧
    (¬ (X1.rows = X2.rows ∧ X1.cols = X2.cols) → Mat.mkTwo X1 X2 = .error .assertFail) := by
  constructor
  · rintro ⟨h1, h2⟩; simp [Mat.mkTwo, assertThat, h1, h2]
  · intro h
    by_cases h1 : X1.rows = X2.rows
    · have h2 : X1.cols ≠ X2.cols := fun h2 => h ⟨h1, h2⟩
      simp [Mat.mkTwo, assertThat, h1, h2]
    · simp [Mat.mkTwo, assertThat, h1]

/-- C50: in a debug build, whatever sequence of `reset` calls follows a successful construction, if the
program is still running both parts have equal dimensions.  (Missing: edits of the parts, and builds in
which a failed check does not stop the program.) -/
theorem C50_history_partial (p1 p2 : Option (SMat R)) (m m' : Multi R) (os : List (Multi.Op R))
    (h : Multi.new .debug p1 p2 = .ok m) (hr : ∀ o ∈ os, ∃ q1 q2, o = .reset q1 q2)
    (h' : Multi.run .debug m os = some m') (X1 X2 : SMat R) (h1 : m'.p1 = some X1) (h2 : m'.p2 = some X2) :
    X1.rows = X2.rows ∧ X1.cols = X2.cols := by
  have chk : ∀ a : Multi R, Multi.check .debug a = .ok () → ∀ Y1 Y2, a.p1 = some Y1 → a.p2 = some Y2 →
      Y1.rows = Y2.rows ∧ Y1.cols = Y2.cols := by
    rintro ⟨a1, a2⟩ ha Y1 Y2 rfl rfl
    by_contra hne
    by_cases e : Y1.rows = Y2.rows
    · have e' : Y1.cols ≠ Y2.cols := fun e' => hne ⟨e, e'⟩
      simp [Multi.check, e, e', Multi.failure] at ha
    · simp [Multi.check, e, Multi.failure] at ha
  have inv : Multi.check .debug m = .ok () := by
    simp only [Multi.new] at h
    cases hc : Multi.check .debug (⟨p1, p2⟩ : Multi R) with
    | error e => rw [hc] at h; cases h
    | ok u => rw [hc] at h; cases h; exact hc
  clear h
  induction os generalizing m with
  | nil => cases h'; exact chk _ inv _ _ h1 h2
  | cons o os ih =>
    obtain ⟨q1, q2, rfl⟩ := hr o (by simp)
    simp only [Multi.run, Multi.step] at h'
    cases hc : Multi.check .debug (⟨q1, q2⟩ : Multi R) with
    | ok u =>
      rw [hc] at h'
      exact ih ⟨q1, q2⟩ (fun o ho => hr o (by simp [ho])) h' hc
    | error e =>
      have : e = .assertFail := by
        cases q1 with
        | none => simp [Multi.check] at hc
        | some Y1 =>
          cases q2 with
          | none => simp [Multi.check] at hc
          | some Y2 =>
            clear ih hr h' h1 h2
            by_cases e1 : Y1.rows = Y2.rows <;> by_cases e2 : Y1.cols = Y2.cols <;>
              simp [Multi.check, Multi.failure, e1, e2] at hc
            all_goals exact hc.symm
      subst this
      rw [hc] at h'
      cases h'

/-- The hypotheses of `C50_history_partial` are met by a real run: a 2×3 object reset to a 1×1 one. -/
example : ∃ m m' : Multi Int, Multi.new .debug (some (.sparse exSparse)) (some (.zero (Dim.mk' 2 3))) = .ok m ∧
    Multi.run .debug m [.reset (some (.zero (Dim.mk' 1 1))) (some (.dense (Dense.ofFn .col 1 1 (fun _ _ => 0))))] = some m' ∧
    m'.rows = .ok 1 := ⟨_, _, rfl, rfl, rfl⟩

/-- C50, negative: a part can be given another size through `getMatrix1()`, in every build; nothing
notices. -/
theorem C50_edit_breaks_dimensions (b : Build) : ∃ (X1 X2 Y1 Y2 : SMat Int) (m : Multi Int),
    Multi.new b (some X1) (some X2) = .ok m ∧
    ∃ f, Multi.run b m [.edit1 f] = some ⟨some Y1, some Y2⟩ ∧ Y1.rows ≠ Y2.rows := by
  refine ⟨.zero (Dim.mk' 2 3), .zero (Dim.mk' 2 3), .zero (Dim.mk' 5 3), .zero (Dim.mk' 2 3),
    ⟨some (.zero (Dim.mk' 2 3)), some (.zero (Dim.mk' 2 3))⟩, rfl, fun _ => .zero (Dim.mk' 5 3), rfl, by decide⟩

/-- C66, negative: when failures are exceptions, `reset` has already stored the mismatching parts when it
throws: the object that is left has parts of different dimensions. -/
theorem C66_reset_keeps_mismatch : ∃ (m : Multi Int) (X1 X2 : SMat Int), Multi.new .exception none none = .ok m ∧
    Multi.step .exception m (.reset (some X1) (some X2)) = (⟨some X1, some X2⟩, some (.throw "wrong dimension")) ∧
    X1.rows ≠ X2.rows :=
  ⟨_, .zero (Dim.mk' 2 3), .zero (Dim.mk' 5 3), rfl, rfl, by decide⟩

/-- C69, negative: in a release build mismatches are accepted silently by the constructor. -/
theorem C69_multiple_mismatch_is_accepted (X1 X2 : SMat R) :
    Multi.new .release (some X1) (some X2) = .ok ⟨some X1, some X2⟩ := by
  simp only [Multi.new, Multi.check, Multi.failure]
  split <;> split <;> rfl

/-- C50, negative: a default constructed two-part matrix has no parts; asking for its dimension is
undefined behaviour. -/
theorem C50_default_constructed_is_ub (b : Build) :
    ∃ m : Multi R, Multi.new b none none = .ok m ∧ m.rows = .error .ub := ⟨_, rfl, rfl⟩

end BB
