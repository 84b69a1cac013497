import Verif.SpecMat
import Verif.Props.Sparse
import Verif.Props.Dense

/-!
# Operators on all matrix kinds
-/

namespace BB

variable {R : Type}

theorem Sparse.Is.congr [Zero R] {S : Sparse R} {r c : Nat} {f g : Nat → Nat → R} (h : S.Is r c f)
    (e : ∀ i j, i < r → j < c → f i j = g i j) : S.Is r c g := by
  obtain ⟨L, hL, hf⟩ := h
  exact ⟨L, hL, fun i j hi hj => by rw [← e i j hi hj]; exact hf i j hi hj⟩

theorem Sparse.Is.rows [Zero R] {S : Sparse R} {r c : Nat} {f : Nat → Nat → R} (h : S.Is r c f) : S.dim.rows = r := by
  obtain ⟨L, hL, hf⟩ := h; exact hL.rows

theorem Sparse.Is.cols [Zero R] {S : Sparse R} {r c : Nat} {f : Nat → Nat → R} (h : S.Is r c f) : S.dim.cols = c := by
  obtain ⟨L, hL, hf⟩ := h; exact hL.cols

namespace SMat

theorem Is.congr [Zero R] {M : SMat R} {r c : Nat} {f g : Nat → Nat → R} (h : M.Is r c f)
    (e : ∀ i j, i < r → j < c → f i j = g i j) : M.Is r c g := by
  cases M with
  | dense A => exact ⟨h.1.congr e, h.2⟩
  | sparse A => exact ⟨h.1.congr e, h.2⟩
  | zero d => exact ⟨h.1, h.2.1, fun i j hi hj => by rw [← e i j hi hj]; exact h.2.2 i j hi hj⟩

theorem Is.rows [Zero R] {M : SMat R} {r c : Nat} {f : Nat → Nat → R} (h : M.Is r c f) : M.rows = r := by
  cases M with
  | dense A => exact h.1.rows
  | sparse A => exact h.1.rows
  | zero d => exact h.1

theorem Is.cols [Zero R] {M : SMat R} {r c : Nat} {f : Nat → Nat → R} (h : M.Is r c f) : M.cols = c := by
  cases M with
  | dense A => exact h.1.cols
  | sparse A => exact h.1.cols
  | zero d => exact h.2.1

/-- Addition need not be associative. -/
theorem binop_add_seq [AddZeroClass R] (comm : ∀ a b : R, a + b = b + a) {A B : SMat R} {r c : Nat} {f g : Nat → Nat → R}
    (hA : A.Is r c f) (hB : B.Is r c g) :
    Sat (binop (· + ·) id A B) (fun C => C.Is r c (fun i j => f i j + g i j)) := by
  cases A with
  | dense A =>
    cases B with
    | dense B =>
      obtain ⟨D, e, h1, h2⟩ := Dense.binop_sat (· + ·) (Dense.empty .col) hA.1 hB.1 (by rw [hA.2, hB.2]) (by rw [hA.2]; rfl)
      exact ⟨.dense D, by simp only [binop, e]; rfl, h2, by rw [h1, hA.2]⟩
    | sparse B =>
      obtain ⟨⟨D, e, h1, h2⟩, -⟩ := C18_dense_sparse_sum (· + ·) (by simp) A B r c f g hA.1 hB.1 hA.2 hB.2
      exact ⟨.dense D, by simp only [binop, e]; rfl, h2, h1⟩
    | zero d => exact ⟨.dense A, rfl, hA.1.congr (fun i j hi hj => by rw [hB.2.2 i j hi hj, add_zero]), hA.2⟩
  | sparse A =>
    cases B with
    | dense B =>
      obtain ⟨⟨D, e, h1, h2⟩, -⟩ := C18_dense_sparse_sum (· + ·) (by simp) B A r c g f hB.1 hA.1 hB.2 hA.2
      exact ⟨.dense D, by simp only [binop, Sparse.binopSD, e]; rfl, h2.congr (fun i j _ _ => comm _ _), h1⟩
    | sparse B =>
      obtain ⟨D, e, h1, -, h2⟩ := C17_sparse_sum (· + ·) id (by simp) (by simp) A B (Sparse.empty .col) r c f g
        hA.1 hB.1 (by rw [hA.2, hB.2]) (by rw [hA.2]; rfl) (Or.inl hA.2)
      exact ⟨.sparse D, by simp only [binop, e]; rfl, h2, by rw [h1, hA.2]⟩
    | zero d => exact ⟨.sparse A, rfl, hA.1.congr (fun i j hi hj => by rw [hB.2.2 i j hi hj, add_zero]), hA.2⟩
  | zero d =>
    cases B with
    | dense B => exact ⟨.dense B, rfl, hB.1.congr (fun i j hi hj => by rw [hA.2.2 i j hi hj, zero_add]), hB.2⟩
    | sparse B => exact ⟨.sparse B, rfl, hB.1.congr (fun i j hi hj => by rw [hA.2.2 i j hi hj, zero_add]), hB.2⟩
    | zero e =>
      exact ⟨.zero d, rfl, hA.1, hA.2.1, fun i j hi hj => by
        show f i j + g i j = 0
        rw [hA.2.2 i j hi hj, hB.2.2 i j hi hj, add_zero]⟩

theorem binop_add_sat [AddCommMonoid R] {A B : SMat R} {r c : Nat} {f g : Nat → Nat → R}
    (hA : A.Is r c f) (hB : B.Is r c g) :
    Sat (binop (· + ·) id A B) (fun C => C.Is r c (fun i j => f i j + g i j)) :=
  binop_add_seq add_comm hA hB

/-- The combinations for which `operator -` is correct: not Sparse − Dense and not Zero − M for a
non-zero-matrix M. -/
def SubOk (A B : SMat R) : Prop :=
  (A.isSparse = true → B.isDense = false) ∧ (A.isZero = true → B.isZero = true)

/-- What `operator -` computes, for any arithmetic with `x - 0 = x` and `0 - x = -x`. -/
theorem binop_sub_law [Zero R] [Sub R] [Neg R] (h0 : ∀ x : R, x - 0 = x) (h1 : ∀ x : R, 0 - x = -x) {A B : SMat R} {r c : Nat}
    {f g : Nat → Nat → R} (hA : A.Is r c f) (hB : B.Is r c g) :
    Sat (binop (· - ·) (- ·) A B) (fun C =>
      (SubOk A B → C.Is r c (fun i j => f i j - g i j)) ∧
      (A.isSparse = true → B.isDense = true → C.Is r c (fun i j => g i j - f i j)) ∧
      (A.isZero = true → B.isZero = false → C.Is r c g)) := by
  cases A with
  | dense A =>
    cases B with
    | dense B =>
      obtain ⟨D, e, h1, h2⟩ := Dense.binop_sat (· - ·) (Dense.empty .col) hA.1 hB.1 (by rw [hA.2, hB.2]) (by rw [hA.2]; rfl)
      exact ⟨.dense D, by simp only [binop, e]; rfl, fun _ => ⟨h2, by rw [h1, hA.2]⟩, nofun, nofun⟩
    | sparse B =>
      obtain ⟨⟨D, e, h1, h2⟩, -⟩ := C18_dense_sparse_sum (· - ·) h0 A B r c f g hA.1 hB.1 hA.2 hB.2
      exact ⟨.dense D, by simp only [binop, e]; rfl, fun _ => ⟨h2, h1⟩, nofun, nofun⟩
    | zero d => exact ⟨.dense A, rfl, fun _ => ⟨hA.1.congr (fun i j hi hj => by rw [hB.2.2 i j hi hj, h0]), hA.2⟩, nofun, nofun⟩
  | sparse A =>
    cases B with
    | dense B =>
      obtain ⟨⟨D, e, h1, h2⟩, -⟩ := C18_dense_sparse_sum (· - ·) h0 B A r c g f hB.1 hA.1 hB.2 hA.2
      exact ⟨.dense D, by simp only [binop, Sparse.binopSD, e]; rfl, fun h => absurd (h.1 rfl) (by simp [isDense]), fun _ _ => ⟨h2, h1⟩, nofun⟩
    | sparse B =>
      obtain ⟨D, e, h1, -, h2⟩ := C17_sparse_sum (· - ·) (- ·) h0 h1 A B (Sparse.empty .col) r c f g
        hA.1 hB.1 (by rw [hA.2, hB.2]) (by rw [hA.2]; rfl) (Or.inl hA.2)
      exact ⟨.sparse D, by simp only [binop, e]; rfl, fun _ => ⟨h2, by rw [h1, hA.2]⟩, nofun, nofun⟩
    | zero d => exact ⟨.sparse A, rfl, fun _ => ⟨hA.1.congr (fun i j hi hj => by rw [hB.2.2 i j hi hj, h0]), hA.2⟩, nofun, nofun⟩
  | zero d =>
    cases B with
    | dense B => exact ⟨.dense B, rfl, fun h => absurd (h.2 rfl) (by simp [isZero]), nofun, fun _ _ => hB⟩
    | sparse B => exact ⟨.sparse B, rfl, fun h => absurd (h.2 rfl) (by simp [isZero]), nofun, fun _ _ => hB⟩
    | zero e =>
      exact ⟨.zero d, rfl, fun _ => ⟨hA.1, hA.2.1, fun i j hi hj => by
        show f i j - g i j = 0
        rw [hA.2.2 i j hi hj, hB.2.2 i j hi hj, h0]⟩, nofun, nofun⟩

theorem binop_sub_sat [AddGroup R] {A B : SMat R} {r c : Nat} {f g : Nat → Nat → R}
    (hA : A.Is r c f) (hB : B.Is r c g) (hok : SubOk A B) :
    Sat (binop (· - ·) (- ·) A B) (fun C => C.Is r c (fun i j => f i j - g i j)) :=
  (binop_sub_law sub_zero zero_sub hA hB).mono fun _ h => h.1 hok

/-- In-place operators with a dense left operand. -/
theorem binassign_dense_sat [Zero R] (op : R → R → R) (h0 : ∀ x, op x 0 = x) {A : Dense R} {B : SMat R} {r c : Nat}
    {f g : Nat → Nat → R} (hA : (SMat.dense A).Is r c f) (hB : B.Is r c g) :
    Sat (binassign op (.dense A) B) (fun C => ∃ D, C = .dense D ∧ C.Is r c (fun i j => op (f i j) (g i j))) := by
  cases B with
  | dense B =>
    obtain ⟨D, e, h1, h2⟩ := Dense.binassign_sat op hA.1 hB.1 (by rw [hA.2, hB.2])
    exact ⟨.dense D, by simp only [binassign, e]; rfl, D, rfl, h2, by rw [h1, hA.2]⟩
  | sparse B =>
    obtain ⟨-, D, e, h1, h2⟩ := C18_dense_sparse_sum op h0 A B r c f g hA.1 hB.1 hA.2 hB.2
    exact ⟨.dense D, by simp only [binassign, e]; rfl, D, rfl, h2, h1⟩
  | zero d =>
    refine ⟨.dense A, ?_, A, rfl, hA.1.congr (fun i j hi hj => by rw [hB.2.2 i j hi hj, h0]), hA.2⟩
    simp [binassign, assertThat, hA.1.rows, hA.1.cols, hB.1, hB.2.1]

/-- Adding a zero matrix in place. -/
theorem binassign_zero (op : R → R → R) {A : SMat R} {d : Dim} (h1 : A.rows = d.rows) (h2 : A.cols = d.cols) :
    binassign op A (.zero d) = .ok A := by
  cases A with
  | dense A => simp [rows, cols] at h1 h2; simp [binassign, assertThat, h1, h2]
  | sparse A => simp [rows, cols] at h1 h2; simp [binassign, assertThat, h1, h2]
  | zero e => simp [rows, cols] at h1 h2; simp [binassign, assertThat, h1, h2]

theorem dotSeq_eq_zero [AddZeroClass R] [Mul R] {m k n : Nat} {f g : Nat → Nat → R}
    (hf0 : ∀ i l, i < m → l < k → f i l * 0 = 0) (hg0 : ∀ l j, l < k → j < n → 0 * g l j = 0)
    (h : (∀ i j, i < m → j < k → f i j = 0) ∨ (∀ i j, i < k → j < n → g i j = 0)) {i j : Nat} (hi : i < m) (hj : j < n) :
    dotSeq f g k i j = 0 := by
  have key : ∀ k', k' ≤ k → dotSeq f g k' i j = 0 := by
    intro k'
    induction k' with
    | zero => intro _; rfl
    | succ k' ih =>
      intro hk
      rw [dotSeq_succ, ih (by omega), zero_add]
      rcases h with h | h
      · rw [h i k' hi (by omega), hg0 k' j (by omega) hj]
      · rw [h k' j (by omega) hj, hf0 i k' hi (by omega)]
  exact key k (Nat.le_refl k)

theorem mulZero_is [AddZeroClass R] [Mul R] {m k n : Nat} {f g : Nat → Nat → R}
    (hf0 : ∀ i l, i < m → l < k → f i l * 0 = 0) (hg0 : ∀ l j, l < k → j < n → 0 * g l j = 0)
    (h : (∀ i j, i < m → j < k → f i j = 0) ∨ (∀ i j, i < k → j < n → g i j = 0)) :
    Sat (mulZero (R := R) m k k n) (fun C => C.Is m n (fun i j => dotSeq f g k i j)) := by
  refine ⟨.zero (zeroResize (Dim.mk' 0 0) m n), by simp [mulZero, assertThat], rfl, rfl, ?_⟩
  intro i j hi hj
  exact dotSeq_eq_zero hf0 hg0 h hi hj

/-- Of the arithmetic nothing is assumed but `x + 0 = 0 + x = x` and that the elements at hand multiplied with 0 give 0. -/
theorem mul_seq' [AddZeroClass R] [Mul R] [DecidableEq R] {A B : SMat R} {m k n : Nat} {f g : Nat → Nat → R}
    (hA : A.Is m k f) (hB : B.Is k n g)
    (hf0 : ∀ i l, i < m → l < k → f i l * 0 = 0) (hg0 : ∀ l j, l < k → j < n → 0 * g l j = 0) :
    Sat (mul A B) (fun C => C.Is m n (fun i j => dotSeq f g k i j)) := by
  cases A with
  | dense A =>
    cases B with
    | dense B =>
      obtain ⟨D, e, h1, h2⟩ := Dense.mulGeneral_sat (Dense.empty .col) hA.1 hB.1 hA.2 hB.2 rfl
      exact ⟨.dense D, by simp only [mul, e]; rfl, h2, h1⟩
    | sparse B =>
      obtain ⟨D, e, h1, h2⟩ := dense_sparse_product_seq' A B (Dense.empty .col) m k n f g hA.1 hB.1 hB.2 hf0
      exact ⟨.dense D, by simp only [mul, e]; rfl, h2, h1⟩
    | zero d =>
      have := mulZero_is (R := R) (f := f) (g := g) (m := m) (k := k) (n := n) hf0 hg0 (Or.inr hB.2.2)
      simpa only [mul, hA.1.rows, hA.1.cols, hB.1, hB.2.1] using this
  | sparse A =>
    cases B with
    | dense B =>
      obtain ⟨D, e, h1, h2⟩ := sparse_dense_product_seq' A B (Dense.empty .col) m k n f g hA.1 hB.1 hA.2 hB.2 rfl hg0
      exact ⟨.dense D, by simp only [mul, e]; rfl, h2, h1⟩
    | sparse B =>
      obtain ⟨D, L, e, h1, -, -, -, -, h2⟩ := sparse_product_seq' A B (Sparse.empty .col) m k n f g hA.1 hB.1 hA.2 hB.2 rfl
        hf0 hg0
      exact ⟨.sparse D, by simp only [mul, e]; rfl, h2, h1⟩
    | zero d =>
      have := mulZero_is (R := R) (f := f) (g := g) (m := m) (k := k) (n := n) hf0 hg0 (Or.inr hB.2.2)
      simpa only [mul, hA.1.rows, hA.1.cols, hB.1, hB.2.1] using this
  | zero d =>
    have := mulZero_is (R := R) (f := f) (g := g) (m := m) (k := k) (n := n) hf0 hg0 (Or.inl hA.2.2)
    cases B with
    | dense B => simpa only [mul, hA.1, hA.2.1, hB.1.rows, hB.1.cols] using this
    | sparse B => simpa only [mul, hA.1, hA.2.1, hB.1.rows, hB.1.cols] using this
    | zero e => simpa only [mul, hA.1, hA.2.1, hB.1, hB.2.1] using this

/-- Neither addition need be associative nor multiplication distributive. -/
theorem mul_seq [Arith R] [DecidableEq R] {A B : SMat R} {m k n : Nat} {f g : Nat → Nat → R}
    (hA : A.Is m k f) (hB : B.Is k n g) :
    Sat (mul A B) (fun C => C.Is m n (fun i j => dotSeq f g k i j)) :=
  mul_seq' hA hB (fun _ _ _ _ => mul_zero _) (fun _ _ _ _ => zero_mul _)

theorem mul_sat [NonUnitalNonAssocSemiring R] [DecidableEq R] {A B : SMat R} {m k n : Nat} {f g : Nat → Nat → R}
    (hA : A.Is m k f) (hB : B.Is k n g) :
    Sat (mul A B) (fun C => C.Is m n (fun i j => ∑ l ∈ Finset.range k, f i l * g l j)) :=
  Sat.mono (mul_seq hA hB) (fun _ h => h.congr (fun _ _ _ _ => dotSeq_eq_sum ..))

end SMat

namespace Mat

theorem Is.congr [Zero R] [Add R] {M : Mat R} {r c : Nat} {f g : Nat → Nat → R} (h : M.Is r c f)
    (e : ∀ i j, i < r → j < c → f i j = g i j) : M.Is r c g := by
  cases M with
  | one A => exact SMat.Is.congr h e
  | two X1 X2 =>
    obtain ⟨f1, f2, h1, h2, h3⟩ := h
    exact ⟨f1, f2, h1, h2, fun i j hi hj => by rw [← e i j hi hj]; exact h3 i j hi hj⟩

theorem denseOf_sat [Zero R] {A : SMat R} {r c : Nat} {f : Nat → Nat → R} (h : A.Is r c f) :
    Sat (denseOf A) (fun D => (SMat.dense D).Is r c f) := by
  cases A with
  | dense A =>
    obtain ⟨D, e, h1, h2⟩ := Dense.convert_sat id .col h.1
    exact ⟨D, e, h2, h1⟩
  | sparse A =>
    obtain ⟨D, e, h1, h2⟩ := C11_sparse_to_dense id rfl .col A r c f h.1
    exact ⟨D, e, h2, h1⟩
  | zero d =>
    obtain ⟨rfl, rfl, h3⟩ := h
    refine ⟨_, Dense.fillAll_ok _ _, ?_, rfl⟩
    refine Dense.Is.congr (f := fun _ _ => 0) ?_ (fun i j hi hj => (h3 i j hi hj).symm)
    exact Dense.is_mk (by simp [Dense.new]) (by simpa [Dense.new] using Dense.replicate_cells .col d.rows d.cols (0 : R))

theorem toDense_sat [AddZeroClass R] {A : Mat R} {r c : Nat} {f : Nat → Nat → R} (h : A.Is r c f) :
    Sat (toDense A) (fun D => (SMat.dense D).Is r c f) := by
  cases A with
  | one A => exact denseOf_sat h
  | two X1 X2 =>
    obtain ⟨f1, f2, h1, h2, h3⟩ := h
    unfold toDense
    refine Sat.bind (denseOf_sat h1) ?_
    intro D hD
    refine Sat.bind (SMat.binassign_dense_sat (· + ·) (by simp) hD h2) ?_
    rintro _ ⟨D', rfl, hD'⟩
    exact Sat.pure (hD'.congr (fun i j hi hj => (h3 i j hi hj).symm))

theorem add_sat [AddCommMonoid R] {A B : Mat R} {r c : Nat} {f g : Nat → Nat → R}
    (hA : A.Is r c f) (hB : B.Is r c g) :
    Sat (add (· + ·) A B) (fun C => C.Is r c (fun i j => f i j + g i j)) := by
  cases A with
  | one A =>
    cases B with
    | one B => exact SMat.binop_add_sat hA hB
    | two B1 B2 =>
      obtain ⟨g1, g2, h1, h2, h3⟩ := hB
      refine Sat.bind (SMat.binop_add_sat hA h1) ?_
      intro C hC
      refine Sat.mono (SMat.binop_add_sat hC h2) ?_
      intro D hD
      exact hD.congr (fun i j hi hj => by rw [h3 i j hi hj, add_assoc])
  | two A1 A2 =>
    obtain ⟨f1, f2, k1, k2, k3⟩ := hA
    cases B with
    | one B =>
      refine Sat.bind (SMat.binop_add_sat k1 k2) ?_
      intro C hC
      refine Sat.mono (SMat.binop_add_sat hC hB) ?_
      intro D hD
      exact hD.congr (fun i j hi hj => by rw [k3 i j hi hj])
    | two B1 B2 =>
      obtain ⟨g1, g2, h1, h2, h3⟩ := hB
      refine Sat.bind (SMat.binop_add_sat k1 k2) fun C0 hC0 => Sat.bind (SMat.binop_add_sat hC0 h1) fun C hC => ?_
      refine Sat.mono (SMat.binop_add_sat hC h2) ?_
      intro D hD
      exact hD.congr (fun i j hi hj => by rw [k3 i j hi hj, h3 i j hi hj, add_assoc])

theorem mul_sat [NonUnitalNonAssocSemiring R] [DecidableEq R] {A B : Mat R} {m k n : Nat} {f g : Nat → Nat → R}
    (hA : A.Is m k f) (hB : B.Is k n g) :
    Sat (mul A B) (fun C => C.Is m n (fun i j => ∑ l ∈ Finset.range k, f i l * g l j)) := by
  cases A with
  | one A =>
    cases B with
    | one B => exact SMat.mul_sat hA hB
    | two B1 B2 =>
      obtain ⟨g1, g2, h1, h2, h3⟩ := hB
      refine Sat.bind (SMat.mul_sat hA h1) fun C1 hC1 => Sat.bind (SMat.mul_sat hA h2) fun C2 hC2 => ?_
      refine Sat.mono (SMat.binop_add_sat hC1 hC2) ?_
      intro D hD
      refine hD.congr (fun i j hi hj => ?_)
      rw [← Finset.sum_add_distrib]
      refine Finset.sum_congr rfl fun l hl => ?_
      rw [h3 l j (Finset.mem_range.1 hl) hj, mul_add]
  | two A1 A2 =>
    obtain ⟨f1, f2, k1, k2, k3⟩ := hA
    cases B with
    | one B =>
      refine Sat.bind (SMat.mul_sat k1 hB) fun C1 hC1 => Sat.bind (SMat.mul_sat k2 hB) fun C2 hC2 => ?_
      refine Sat.mono (SMat.binop_add_sat hC1 hC2) ?_
      intro D hD
      refine hD.congr (fun i j hi hj => ?_)
      rw [← Finset.sum_add_distrib]
      refine Finset.sum_congr rfl fun l hl => ?_
      rw [k3 i l hi (Finset.mem_range.1 hl), add_mul]
    | two B1 B2 =>
      obtain ⟨g1, g2, h1, h2, h3⟩ := hB
      refine Sat.mono (P := fun C : SMat R => C.Is m n (fun i j =>
        (∑ l ∈ Finset.range k, f1 i l * g1 l j) + (∑ l ∈ Finset.range k, f1 i l * g2 l j)
          + (∑ l ∈ Finset.range k, f2 i l * g1 l j) + ∑ l ∈ Finset.range k, f2 i l * g2 l j)) ?_ ?_
      · refine Sat.bind (SMat.mul_sat k1 h1) fun C1 hC1 => Sat.bind (SMat.mul_sat k1 h2) fun C2 hC2 => ?_
        refine Sat.bind (SMat.binop_add_sat hC1 hC2) fun C3 hC3 => ?_
        refine Sat.bind (SMat.mul_sat k2 h1) fun C4 hC4 => ?_
        refine Sat.bind (SMat.binop_add_sat hC3 hC4) fun C5 hC5 => ?_
        refine Sat.bind (SMat.mul_sat k2 h2) fun C6 hC6 => ?_
        exact SMat.binop_add_sat hC5 hC6
      · intro D hD
        refine hD.congr (fun i j hi hj => ?_)
        rw [← Finset.sum_add_distrib, ← Finset.sum_add_distrib, ← Finset.sum_add_distrib]
        refine Finset.sum_congr rfl fun l hl => ?_
        rw [k3 i l hi (Finset.mem_range.1 hl), h3 l j (Finset.mem_range.1 hl) hj, add_mul, mul_add, mul_add, ← add_assoc]

end Mat

namespace SMat

/-- Which kind of matrix `operator +` / `operator -` return. -/
theorem binop_kind {op : R → R → R} {un : R → R} {A B C : SMat R} (h : binop op un A B = .ok C) :
    C.isDense = (A.isDense || B.isDense) ∧ C.isZero = (A.isZero && B.isZero) ∧
    (C.isSparse = true ↔ (A.isDense = false ∧ B.isDense = false ∧ (A.isSparse = true ∨ B.isSparse = true))) := by
  have key : ∀ {X : Type} {x : Res X} {k : X → SMat R}, (x >>= fun a => Except.ok (k a)) = .ok C → ∃ a, C = k a := by
    intro X x k h
    cases x with
    | error e => cases h
    | ok a => cases h; exact ⟨a, rfl⟩
  cases A <;> cases B <;> simp only [binop] at h
  all_goals first
    | (obtain ⟨a, rfl⟩ := key h; simp [isDense, isZero, isSparse])
    | (cases h; simp [isDense, isZero, isSparse])

end SMat
end BB
