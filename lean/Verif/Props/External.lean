import Verif.Model.External
import Verif.Props.Blas

/-! C80: products by Eigen and Blaze.  C81: sparse times sparse by MKL. -/

namespace BB.Ext

open BB.Blas Finset

variable {RA RB R : Type}

/-! ### Conforming products exist -/

/-- The textbook product. -/
def refProd [Semiring R] (ca : RA → R) (cb : RB → R) : Prod RA RB R := fun m k n a b c =>
  gridFill m n m (fun i j _ => loopN k (fun l s => do
    let x ← a.read (i + l * m)
    let y ← b.read (l + j * k)
    return s + ca x * cb y) 0) c

theorem refProd_conforms [Semiring R] (ca : RA → R) (cb : RB → R) : (refProd ca cb).Conforms ca cb := by
  intro m k n a b c f g hA hB hc
  obtain ⟨c', e, h1, h2, -⟩ := gridFill_sat (M := m) (N := n) (ldc := m) (c := c) (F := fun i j _ => loopN k (fun l s => do
    let x ← a.read (i + l * m)
    let y ← b.read (l + j * k)
    return s + ca x * cb y) 0) (v := fun i j => ∑ l ∈ range k, ca (f i l) * cb (g l j)) le_rfl
    (fun i j hi hj => by
      rw [hc]
      calc i + j * m < m + j * m := by omega
        _ = (j + 1) * m := by ring
        _ ≤ n * m := Nat.mul_le_mul_right _ hj
        _ = m * n := Nat.mul_comm _ _)
    (by
      intro i j hi hj c' _
      obtain ⟨s, e, hs⟩ := Sat.loop (n := k) (f := fun l s => do
          let x ← a.read (i + l * m)
          let y ← b.read (l + j * k)
          return s + ca x * cb y) (s := (0 : R)) (fun n s => s = ∑ l ∈ range n, ca (f i l) * cb (g l j)) (by simp) (by
            rintro l s hl' rfl
            simp only [hA i l hi hl', hB l j hl' hj, bind_ok', pure_ok']
            exact Sat.ok (Finset.sum_range_succ _ _).symm)
      rw [e, hs])
  exact ⟨c', e, h1.trans hc, h2⟩

/-! ### C80 -/

theorem prod_sat [Semiring R] {ca : RA → R} {cb : RB → R} {impl : Prod RA RB R} (hp : impl.Conforms ca cb) {A : Dense RA} {B : Dense RB} (C : Dense R)
    {m k n : Nat} {f : Nat → Nat → RA} {g : Nat → Nat → RB} (hA : A.Is m k f) (hB : B.Is k n g) (hAo : A.ori = .col) (hBo : B.ori = .col)
    (hCo : C.ori = .col) :
    ∃ d, impl m k n A.data B.data (C.resize m n).data = .ok d ∧
      Dense.Is { C.resize m n with data := d } m n (fun i j => ∑ l ∈ range k, ca (f i l) * cb (g l j)) := by
  have hlen : (C.resize m n).data.length = m * n := Dense.length_resizeBuf _ _
  obtain ⟨c', e, h1, h2⟩ := hp m k n A.data B.data (C.resize m n).data f g
    (fun i l hi hl' => by
      have := hA.read hi hl'
      simpa [View.plain, View.pos, hAo, hA.view_rows] using this)
    (fun l j hl' hj => by
      have := hB.read hl' hj
      simpa [View.plain, View.pos, hBo, hB.view_rows] using this) hlen
  refine ⟨c', e, Dense.is_of_cells rfl rfl rfl h1 ?_⟩
  intro i j hi hj
  have := h2 i j hi hj
  rw [Buf.read_ok] at this
  simpa [Dense.view, View.plain, View.pos, Dense.resize, hCo, Dim.mk'] using this

/-- C80, Eigen: for column-major operands of any size, including empty ones, and a column-major result object in any
state, the result is the product. -/
theorem C80_eigen [Semiring R] (impl : Prod R R R) (hp : impl.Conforms id id) (A B C : Dense R) (m k n : Nat) (f g : Nat → Nat → R)
    (hA : A.Is m k f) (hB : B.Is k n g) (hAo : A.ori = .col) (hBo : B.ori = .col) (hCo : C.ori = .col) :
    ∃ D, mulEigen impl A B C = .ok D ∧ D.ori = .col ∧ D.Is m n (fun i j => ∑ l ∈ range k, f i l * g l j) := by
  unfold mulEigen
  simp only [hA.rows, hA.cols, hB.rows, hB.cols, beq_self_eq_true, assertThat, if_true, bind_ok']
  obtain ⟨d, e, h⟩ := prod_sat hp C hA hB hAo hBo hCo
  rw [e, bind_ok']
  exact ⟨_, rfl, hCo, h⟩

/-- C80: for operands with inner elements Eigen, the BLAS interfaces and the native product give equal matrices. -/
theorem C80_eigen_as_native [Semiring R] (impl : Prod R R R) (hp : impl.Conforms id id) (cfg : Config) (gemm : Gemm R) (hg : gemm.Conforms)
    (A B C C' : Dense R) (m k n : Nat) (f g : Nat → Nat → R)
    (hA : A.Is m k f) (hB : B.Is k n g) (hAo : A.ori = .col) (hBo : B.ori = .col) (hCo : C.ori = .col) (hCo' : C'.ori = .col)
    (hm : m < 2 ^ 31) (hk : k < 2 ^ 31) (hn : n < 2 ^ 31) (hne : 0 < k) :
    ∃ D, mulEigen impl A B C = .ok D ∧ best cfg gemm A B C' = .ok D := by
  obtain ⟨D, h1, ho, hD⟩ := C80_eigen impl hp A B C m k n f g hA hB hAo hBo hCo
  obtain ⟨E, h2, -, hE⟩ := C58_interface_independent cfg cfg gemm gemm hg hg A B C' C' m k n f g hA hB hAo hBo hCo' hCo' hm hk hn hne
  have hEo : E.ori = .col := by
    cases cfg with
    | native =>
      obtain ⟨E', h, ho, -⟩ := C21_native_product A B C' m k n f g hA hB hAo hBo hCo'
      have := h2.symm.trans h
      injection this with e
      rw [e, ho]
    | intelMKL =>
      obtain ⟨E', h, ho, -⟩ := C46_gemm gemm hg A B C' m k n f g hA hB hAo hBo hCo' hm hk hn (.inl hne)
      have := h2.symm.trans h
      injection this with e
      rw [e, ho]
    | openBLAS =>
      obtain ⟨E', h, ho, -⟩ := C46_gemm gemm hg A B C' m k n f g hA hB hAo hBo hCo' hm hk hn (.inl hne)
      have := h2.symm.trans h
      injection this with e
      rw [e, ho]
  refine ⟨D, h1, ?_⟩
  rw [h2, is_unique hE hD (hEo.trans ho.symm)]

/-- Blaze accepts the three arrays. -/
def Accepts (pl : Place) (m k : Nat) : Prop :=
  pl.addrA = true ∧ pl.addrB = true ∧ pl.addrC = true ∧ m % pl.simdA = 0 ∧ k % pl.simdB = 0 ∧ m % pl.simdC = 0

theorem custom_ok {s m : Nat} {a : Bool} (h1 : a = true) (h2 : m % s = 0) : custom s a m = .ok () := by
  unfold custom; simp [h1, h2]

/-- C80, Blaze: if the arrays are aligned and both operands have a number of rows that is a multiple of the SIMD width,
the result is the product, computed in the element type of the result also for float times double. -/
theorem C80_blaze_partial [Semiring R] (ca : RA → R) (cb : RB → R) (impl : Prod RA RB R) (hp : impl.Conforms ca cb) (pl : Place)
    (A : Dense RA) (B : Dense RB) (C : Dense R) (m k n : Nat) (f : Nat → Nat → RA) (g : Nat → Nat → RB)
    (hA : A.Is m k f) (hB : B.Is k n g) (hAo : A.ori = .col) (hBo : B.ori = .col) (hCo : C.ori = .col) (hpl : Accepts pl m k) :
    ∃ D, mulBlaze impl pl A B C = .ok D ∧ D.ori = .col ∧ D.Is m n (fun i j => ∑ l ∈ range k, ca (f i l) * cb (g l j)) := by
  obtain ⟨a1, a2, a3, m1, m2, m3⟩ := hpl
  unfold mulBlaze
  simp only [hA.rows, hA.cols, hB.rows, hB.cols, beq_self_eq_true, assertThat, if_true, bind_ok', custom_ok a1 m1, custom_ok a2 m2]
  rw [show (C.resize m n).dim.rows = m from rfl, custom_ok a3 m3, bind_ok']
  obtain ⟨d, e, h⟩ := prod_sat hp C hA hB hAo hBo hCo
  rw [e, bind_ok']
  exact ⟨_, rfl, hCo, h⟩

/-- C80 is false for Blaze in all other cases: the call throws, whatever the routine computes. -/
theorem C80_blaze_throws (impl : Prod RA RB R) (pl : Place) (A : Dense RA) (B : Dense RB) (C : Dense R) (m k n : Nat)
    (f : Nat → Nat → RA) (g : Nat → Nat → RB) (hA : A.Is m k f) (hB : B.Is k n g) (hpl : ¬ Accepts pl m k) :
    ∃ msg, mulBlaze impl pl A B C = .error (.throw msg) := by
  unfold mulBlaze
  simp only [hA.rows, hA.cols, hB.rows, hB.cols, beq_self_eq_true, assertThat, if_true, bind_ok']
  rw [show (C.resize m n).dim.rows = m from rfl]
  have key : ∀ s a r, (custom s a r = .ok () ∧ a = true ∧ r % s = 0) ∨ ∃ msg, custom s a r = .error (.throw msg) := by
    intro s a r
    unfold custom
    cases a
    · exact .inr ⟨_, rfl⟩
    · by_cases h : r % s = 0
      · exact .inl ⟨by simp [h], rfl, h⟩
      · exact .inr ⟨_, by simp [h]; rfl⟩
  rcases key pl.simdA pl.addrA m with ⟨e1, a1, m1⟩ | ⟨msg, e1⟩
  · rcases key pl.simdB pl.addrB k with ⟨e2, a2, m2⟩ | ⟨msg, e2⟩
    · rcases key pl.simdC pl.addrC m with ⟨e3, a3, m3⟩ | ⟨msg, e3⟩
      · exact absurd ⟨a1, a2, a3, m1, m2, m3⟩ hpl
      · exact ⟨msg, by rw [e1, bind_ok', e2, bind_ok', e3]; rfl⟩
    · exact ⟨msg, by rw [e1, bind_ok', e2]; rfl⟩
  · exact ⟨msg, by rw [e1]; rfl⟩

/-- Non-vacuity: 4×4 doubles with four doubles in a register are accepted, 3×3 are not. -/
example : Accepts ⟨4, 4, 4, true, true, true⟩ 4 4 ∧ ¬ Accepts ⟨4, 4, 4, true, true, true⟩ 3 3 := by
  unfold Accepts; decide

example : (do
    let D ← mulEigen (refProd id id) (Dense.ofFn .col 2 3 (fun i j => (10 * i + j : Int))) (Dense.ofFn .col 3 2 (fun i j => (i - j : Int))) (Dense.empty .col)
    D.get 1 1 : Res Int).toOption = some 2 := by decide +kernel

/-! ### C81 -/

theorem tight_length {A : Sparse R} {r c : Nat} {L : List (List (Nat × R))} (hL : A.Valid r c L) (ht : A.Tight) : A.value.length = L.flatten.length := by
  obtain ⟨n, h1, h2⟩ := ht
  rw [List.getLast?_eq_getElem?, hL.offsLen, Nat.add_sub_cancel, hL.offs _ (Nat.le_refl _), List.take_length] at h1
  injection h1 with h1
  injection h1 with h1
  have : A.nnz = A.value.length := rfl
  omega

theorem take_flatten_le {α : Type} (L : List (List α)) (i : Nat) : (L.take i).flatten.length ≤ L.flatten.length := by
  conv => rhs; rw [← List.take_append_drop i L, List.flatten_append, List.length_append]
  omega

/-- The one-based copies of the arrays of a column-major matrix hold its columns. -/
theorem csr_of {A : Sparse R} {n : Nat} {L : List (List (Nat × R))} (hL : A.Valid n n L) (ho : A.ori = .col) (hn : n * n + 1 < 2 ^ 31) :
    Csr L A.value (A.key.map (Option.map fun k => toI32 (k + 1))) (A.offset.map (Option.map fun k => toI32 (k + 1))) ∧
    L.length = n ∧ (∀ run ∈ L, ∀ e ∈ run, e.1 < n) := by
  have hb : ∀ run ∈ L, ∀ e ∈ run, e.1 < n := by
    intro run hr e he
    have := hL.bound run hr e he
    rw [ho] at this; exact this
  have hlen : L.length = n := by rw [hL.runs, ho]; rfl
  have hfl : L.flatten.length ≤ n * n := by
    have := flatten_length_le (L := L) (n := n) (fun run hr => sorted_length_le (hL.sorted run hr) (hb run hr))
    rwa [hlen] at this
  have hnn : n ≤ n * n := Nat.le_mul_self n
  refine ⟨⟨?_, ?_⟩, hlen, hb⟩
  · intro p e he
    obtain ⟨c1, c2⟩ := hL.cells p e he
    refine ⟨Buf.read_ok.2 c2, ?_⟩
    rw [Buf.read_ok, List.getElem?_map, c1]
    obtain ⟨q, run, t, hq, he', -⟩ := flatten_locate L p e he
    simp only [Option.map_some]
    rw [toI32_small (by have := hb run (List.mem_of_getElem? hq) e (List.mem_of_getElem? he'); omega)]
    rfl
  · intro i hi
    rw [Buf.read_ok, List.getElem?_map, hL.offs i hi]
    simp only [Option.map_some]
    rw [toI32_small (by have := take_flatten_le L i; omega)]
    rfl

theorem fromI32_succ {k : Nat} (h : k < 2 ^ 64) : fromI32 ((k : Int) + 1) = k := by
  unfold fromI32
  omega

/-- C81: for square column-major matrices every conforming csrmultcsr makes the functor return B*A instead of A*B. -/
theorem C81_square_is_swapped [CommSemiring R] (impl : Csrmultcsr R) (hi : impl.Conforms) (A B C : Sparse R) (n : Nat) (f g : Nat → Nat → R)
    (hA : A.Is n n f) (hB : B.Is n n g) (hAt : A.Tight) (hBt : B.Tight) (hAo : A.ori = .col) (hBo : B.ori = .col) (hCo : C.ori = .col)
    (hn : n * n + 1 < 2 ^ 31) :
    ∃ D, mulCsrCsr impl A B C = .ok D ∧ D.ori = .col ∧ D.Is n n (fun i j => ∑ l ∈ range n, g i l * f l j) := by
  obtain ⟨LA, vA, hf⟩ := hA
  obtain ⟨LB, vB, hg⟩ := hB
  obtain ⟨cA, lA, bA⟩ := csr_of vA hAo hn
  obtain ⟨cB, lB, bB⟩ := csr_of vB hBo hn
  obtain ⟨-, iA2, iA3⟩ := vA.init (tight_length vA hAt)
  obtain ⟨-, iB2, iB3⟩ := vB.init (tight_length vB hBt)
  have hnn : n ≤ n * n := Nat.le_mul_self n
  have hCv : (C.resize n n).value.length = n * n := Dense.length_resizeBuf _ _
  have hCk : (C.resize n n).key.length = n * n := Dense.length_resizeBuf _ _
  have hCf : (C.resize n n).offset.length = n + 1 := Dense.length_resizeBuf _ _
  obtain ⟨LC, c', jc', ic', e1, e2, lC, bC, sC, vC, cC, l1, l2, l3, hrest⟩ := hi.computes n n n LA LB A.value B.value (C.resize n n).value
    (A.key.map (Option.map fun k => toI32 (k + 1))) (A.offset.map (Option.map fun k => toI32 (k + 1)))
    (B.key.map (Option.map fun k => toI32 (k + 1))) (B.offset.map (Option.map fun k => toI32 (k + 1)))
    (List.replicate (C.resize n n).key.length (some 0)) (List.replicate (C.resize n n).offset.length (some 0))
    lA lB bA bB cA cB (by simp [hCf]) (by rw [hCv]) (by simp [hCk])
  have hfl : LC.flatten.length ≤ n * n := by
    have := flatten_length_le (L := LC) (n := n) (fun run hr => sorted_length_le (sC run hr) (bC run hr))
    rwa [lC] at this
  have i1 : ∀ x ∈ jc', x ≠ none := by
    intro x hx e
    obtain ⟨p, hp⟩ := List.getElem?_of_mem hx
    by_cases h : p < LC.flatten.length
    · have := (cC.elems p _ (List.getElem?_eq_getElem h)).2
      rw [Buf.read_ok, hp, e] at this
      cases this
    · rw [(hrest p (by omega)).2, e, List.getElem?_replicate] at hp
      split at hp <;> cases hp
  have i2 : ∀ x ∈ ic', x ≠ none := by
    intro x hx e
    obtain ⟨p, hp⟩ := List.getElem?_of_mem hx
    have hlt := (List.getElem?_eq_some_iff.1 hp).1
    rw [l3, List.length_replicate, hCf] at hlt
    have := cC.ptrs p (by omega)
    rw [Buf.read_ok, hp, e] at this
    cases this
  unfold mulCsrCsr
  have s31 : n < 2 ^ 31 := by omega
  simp only [vA.rows, vA.cols, vB.rows, vB.cols, beq_self_eq_true, assertThat, if_true, bind_ok', convertBuf_eq _ iA2, convertBuf_eq _ iA3,
    convertBuf_eq _ iB2, convertBuf_eq _ iB3, toI32_small s31, e1, e2, convertBuf_eq _ i1, convertBuf_eq _ i2]
  refine ⟨_, rfl, hCo, LC, ⟨rfl, rfl, rfl, ?_, ?_, ?_, ?_, ?_, ?_, sC⟩, ?_⟩
  · rw [lC]; show n = C.ori.minorIx n n; rw [hCo]; rfl
  · show (ic'.map _).length = _
    rw [List.length_map, l3, List.length_replicate, hCf, lC]
  · intro q hq
    show (ic'.map _)[q]? = _
    have := cC.ptrs q hq
    rw [Buf.read_ok] at this
    rw [List.getElem?_map, this]
    simp only [Option.map_some]
    rw [fromI32_succ (by have := take_flatten_le LC q; omega)]
  · show (jc'.map _).length = c'.length
    rw [List.length_map, l2, List.length_replicate, hCk, l1, hCv]
  · intro p e he
    obtain ⟨h1, h2⟩ := cC.elems p e he
    rw [Buf.read_ok] at h1 h2
    refine ⟨?_, h1⟩
    show (jc'.map _)[p]? = _
    obtain ⟨q, run, t, hq, he', -⟩ := flatten_locate LC p e he
    rw [List.getElem?_map, h2]
    simp only [Option.map_some]
    rw [fromI32_succ (by have := bC run (List.mem_of_getElem? hq) e (List.mem_of_getElem? he'); omega)]
  · intro run hr e he
    show e.1 < C.ori.majorIx n n
    rw [hCo]; exact bC run hr e he
  · intro i j hi' hj
    show _ = entryAt (LC.getD (C.ori.minorIx i j) []) (C.ori.majorIx i j)
    rw [hCo]
    show _ = entryAt (LC.getD j []) i
    have hmem : LA.getD j [] ∈ LA := by
      rw [List.getD, List.getElem?_eq_getElem (by omega)]; exact List.getElem_mem _
    rw [vC j i hj hi', Sparse.run_sum' (fun l => entryAt (LB.getD l []) i) (vA.sorted _ hmem) (bA _ hmem)]
    refine Finset.sum_congr rfl fun l hl => ?_
    have hl' := Finset.mem_range.1 hl
    have a1 := hf l j hl' hj
    have a2 := hg i l hi' hl'
    rw [hAo] at a1
    rw [hBo] at a2
    rw [a1, a2, mul_comm]
    rfl

/-- C81 is false: whenever the two products differ in one element the result is wrong. -/
theorem C81_square_is_wrong [CommSemiring R] (impl : Csrmultcsr R) (hi : impl.Conforms) (A B C : Sparse R) (n : Nat) (f g : Nat → Nat → R)
    (hA : A.Is n n f) (hB : B.Is n n g) (hAt : A.Tight) (hBt : B.Tight) (hAo : A.ori = .col) (hBo : B.ori = .col) (hCo : C.ori = .col)
    (hn : n * n + 1 < 2 ^ 31) (hne : ∃ i j, i < n ∧ j < n ∧ ∑ l ∈ range n, f i l * g l j ≠ ∑ l ∈ range n, g i l * f l j) :
    ∃ D h, mulCsrCsr impl A B C = .ok D ∧ D.Is n n h ∧ ∃ i j, i < n ∧ j < n ∧ h i j ≠ ∑ l ∈ range n, f i l * g l j := by
  obtain ⟨D, e, -, h⟩ := C81_square_is_swapped impl hi A B C n f g hA hB hAt hBt hAo hBo hCo hn
  obtain ⟨i, j, h1, h2, h3⟩ := hne
  exact ⟨D, _, e, h, i, j, h1, h2, h3.symm⟩

/-- C81, the part that holds: square column-major factors that commute. -/
theorem C81_commuting_partial [CommSemiring R] (impl : Csrmultcsr R) (hi : impl.Conforms) (A B C : Sparse R) (n : Nat) (f g : Nat → Nat → R)
    (hA : A.Is n n f) (hB : B.Is n n g) (hAt : A.Tight) (hBt : B.Tight) (hAo : A.ori = .col) (hBo : B.ori = .col) (hCo : C.ori = .col)
    (hn : n * n + 1 < 2 ^ 31) (hc : ∀ i j, i < n → j < n → ∑ l ∈ range n, f i l * g l j = ∑ l ∈ range n, g i l * f l j) :
    ∃ D, mulCsrCsr impl A B C = .ok D ∧ D.Is n n (fun i j => ∑ l ∈ range n, f i l * g l j) := by
  obtain ⟨D, e, -, L, hL, h⟩ := C81_square_is_swapped impl hi A B C n f g hA hB hAt hBt hAo hBo hCo hn
  refine ⟨D, e, L, hL, fun i j hi hj => ?_⟩
  exact (hc i j hi hj).trans (h i j hi hj)

/-- C81 is false for every column-major matrix with more rows than columns: the offsets are read past their end. -/
theorem C81_tall_is_ub [CommSemiring R] (impl : Csrmultcsr R) (hi : impl.Conforms) (A B C : Sparse R) (m k n : Nat) (f g : Nat → Nat → R)
    (hA : A.Is m k f) (hB : B.Is k n g) (hAt : A.Tight) (hBt : B.Tight) (hAo : A.ori = .col)
    (hm : m < 2 ^ 31) (h : k < m) : mulCsrCsr impl A B C = .error .ub := by
  obtain ⟨LA, vA, -⟩ := hA
  obtain ⟨LB, vB, -⟩ := hB
  obtain ⟨-, iA2, iA3⟩ := vA.init (tight_length vA hAt)
  obtain ⟨-, iB2, iB3⟩ := vB.init (tight_length vB hBt)
  have lA : LA.length = k := by rw [vA.runs, hAo]; rfl
  unfold mulCsrCsr
  simp only [vA.rows, vA.cols, vB.rows, vB.cols, beq_self_eq_true, assertThat, if_true, bind_ok', convertBuf_eq _ iA2, convertBuf_eq _ iA3,
    convertBuf_eq _ iB2, convertBuf_eq _ iB3, toI32_small hm]
  rw [hi.bounds]
  · rfl
  · rw [List.length_map, vA.offsLen, lA]; omega

/-! ### A conforming csrmultcsr exists -/

/-- Row `i` of a matrix in one-based compressed row format. -/
def rowOf [Zero R] (val : Buf R) (idx ptr : Buf Int) (i : Nat) : List (Nat × R) :=
  let b := (ptr[i]?.join.getD 0).toNat - 1
  let e := (ptr[i+1]?.join.getD 0).toNat - 1
  (List.range (e - b)).map fun t => ((idx[b + t]?.join.getD 0).toNat - 1, val[b + t]?.join.getD 0)

theorem rowOf_eq [Zero R] {L : List (List (Nat × R))} {val : Buf R} {idx ptr : Buf Int} (h : Csr L val idx ptr) {i : Nat} (hi : i < L.length) :
    rowOf val idx ptr i = L.getD i [] := by
  have hrun : L[i]? = some (L.getD i []) := by
    rw [List.getD, List.getElem?_eq_getElem hi]; rfl
  generalize L.getD i [] = run at hrun
  have h1 := Buf.read_ok.1 (h.ptrs i (by omega))
  have h2 := Buf.read_ok.1 (h.ptrs (i + 1) (by omega))
  have hlen := take_succ_flatten_length L i run hrun
  unfold rowOf
  rw [h1, h2]
  simp only [Option.join_some, Option.getD_some]
  have e1 : (((L.take i).flatten.length : Int) + 1).toNat - 1 = (L.take i).flatten.length := by omega
  have e2 : (((L.take (i+1)).flatten.length : Int) + 1).toNat - 1 = (L.take (i+1)).flatten.length := by omega
  rw [e1, e2, show (L.take (i+1)).flatten.length - (L.take i).flatten.length = run.length by omega]
  apply List.ext_getElem?
  intro t
  rw [List.getElem?_map]
  by_cases ht : t < run.length
  · obtain ⟨a, b⟩ := h.elems _ _ (flatten_getElem? L i t run run[t] hrun (List.getElem?_eq_getElem ht))
    rw [List.getElem?_range ht, Option.map_some, Buf.read_ok.1 a, Buf.read_ok.1 b, List.getElem?_eq_getElem ht]
    simp only [Option.join_some, Option.getD_some, Option.some.injEq]
    exact Prod.ext (by simp only; omega) rfl
  · rw [List.getElem?_eq_none (by simpa using ht), List.getElem?_eq_none (by omega)]; rfl

/-- One element of the product of two matrices in compressed row format. -/
def csrElem [Semiring R] (a b : Buf R) (ja ia jb ib : Buf Int) (i j : Nat) : R :=
  ((rowOf a ja ia i).map fun e => e.2 * entryAt (rowOf b jb ib e.1) j).sum

/-- A csrmultcsr that stores all elements of the product. -/
def refCsrmultcsr [Semiring R] : Csrmultcsr R := fun req m _ k a ja ia b jb ib c jc ic =>
  if ia.length < m.toNat + 1 then .error .ub
  else if req = 1 then .ok (c, jc, ic.mapIdx fun i x => if i ≤ m.toNat then some ((i * k.toNat : Nat) + 1 : Int) else x)
  else .ok (c.mapIdx (fun p x => if p < m.toNat * k.toNat then some (csrElem a b ja ia jb ib (p / k.toNat) (p % k.toNat)) else x),
    jc.mapIdx (fun p x => if p < m.toNat * k.toNat then some ((p % k.toNat : Nat) + 1 : Int) else x), ic)

theorem entryAt_range [Zero R] (F : Nat → R) (k j : Nat) (hj : j < k) : entryAt ((List.range k).map fun j => (j, F j)) j = F j := by
  induction k with
  | zero => omega
  | succ k ih =>
    rw [List.range_succ, List.map_append, List.map_cons, List.map_nil, entryAt_append _ _ _ (by
      intro a ha
      simp only [List.mem_map, List.mem_range] at ha
      obtain ⟨x, hx, rfl⟩ := ha
      simp only; omega)]
    by_cases h : k = j
    · simp [h]
    · rw [if_neg (fun e => h e.symm)]; exact ih (by omega)

theorem refCsrmultcsr_conforms [Semiring R] : (refCsrmultcsr (R := R)).Conforms := by
  constructor
  · intro m n k LA LB a b c ja ia jb ib jc ic hA hB bA bB cA cB hic hc hjc
    have hlia : m + 1 ≤ ia.length := by
      have := Buf.read_ok.1 (cA.ptrs m (by omega))
      have := (List.getElem?_eq_some_iff.1 this).1
      omega
    let LC : List (List (Nat × R)) := (List.range m).map fun i => (List.range k).map fun j => (j, csrElem a b ja ia jb ib i j)
    have hLC : ∀ i, i < m → LC[i]? = some ((List.range k).map fun j => (j, csrElem a b ja ia jb ib i j)) := by
      intro i hi
      simp only [LC, List.getElem?_map, List.getElem?_range hi, Option.map_some]
    have hl : LC.length = m := by simp [LC]
    have htake : ∀ i, i ≤ m → (LC.take i).flatten.length = i * k := by
      intro i
      induction i with
      | zero => simp
      | succ i ih =>
        intro hi
        rw [take_succ_flatten_length LC i _ (hLC i (by omega)), ih (by omega)]
        simp only [List.length_map, List.length_range]; ring
    have hmem : ∀ run ∈ LC, ∃ i, run = (List.range k).map fun j => (j, csrElem a b ja ia jb ib i j) := by
      intro run hr
      simp only [LC, List.mem_map] at hr
      obtain ⟨i, -, rfl⟩ := hr
      exact ⟨i, rfl⟩
    have hcell : ∀ (p : Nat) (e : Nat × R), LC.flatten[p]? = some e → p < m * k ∧ e = (p % k, csrElem a b ja ia jb ib (p / k) (p % k)) := by
      intro p e he
      obtain ⟨q, run, t, hq, he', hp⟩ := flatten_locate LC p e he
      have hqm : q < m := by
        have := (List.getElem?_eq_some_iff.1 hq).1
        omega
      rw [htake q (by omega)] at hp
      rw [hLC q hqm] at hq
      injection hq with hq
      subst hq
      rw [List.getElem?_map] at he'
      have ht : t < k := by
        by_contra h
        rw [List.getElem?_eq_none (by simpa using h)] at he'
        cases he'
      rw [List.getElem?_range ht] at he'
      injection he' with he'
      have d1 : p / k = q := by
        rw [hp, Nat.add_comm, Nat.add_mul_div_right _ _ (by omega), Nat.div_eq_of_lt ht, Nat.zero_add]
      have d2 : p % k = t := by
        rw [hp, Nat.add_comm, Nat.add_mul_mod_self_right, Nat.mod_eq_of_lt ht]
      refine ⟨?_, by rw [d1, d2]; exact he'.symm⟩
      calc p = q * k + t := hp
        _ < q * k + k := by omega
        _ = (q + 1) * k := by ring
        _ ≤ m * k := Nat.mul_le_mul_right _ hqm
    have hcc : ¬ ia.length < m + 1 := by omega
    refine ⟨LC, c.mapIdx (fun p x => if p < m * k then some (csrElem a b ja ia jb ib (p / k) (p % k)) else x),
      jc.mapIdx (fun p x => if p < m * k then some ((p % k : Nat) + 1 : Int) else x),
      ic.mapIdx (fun i x => if i ≤ m then some ((i * k : Nat) + 1 : Int) else x), ?_, ?_, hl, ?_, ?_, ?_, ⟨?_, ?_⟩, ?_, ?_, ?_, ?_⟩
    · exact (by unfold refCsrmultcsr; simp only [Int.toNat_natCast]; rw [if_neg hcc, if_pos trivial])
    · exact (by unfold refCsrmultcsr; simp only [Int.toNat_natCast]; rw [if_neg hcc, if_neg (by decide)])
    · intro run hr e he
      obtain ⟨i, rfl⟩ := hmem run hr
      simp only [List.mem_map, List.mem_range] at he
      obtain ⟨x, hx, rfl⟩ := he
      exact hx
    · intro run hr
      obtain ⟨i, rfl⟩ := hmem run hr
      rw [List.pairwise_map]
      exact List.pairwise_lt_range
    · intro i j hi hj
      rw [List.getD, hLC i hi, Option.getD_some, entryAt_range _ _ _ hj]
      unfold csrElem
      rw [rowOf_eq cA (by omega)]
      have hmA : LA.getD i [] ∈ LA := by
        rw [List.getD, List.getElem?_eq_getElem (by omega)]; exact List.getElem_mem _
      congr 1
      apply List.map_congr_left
      intro e he
      rw [rowOf_eq cB (by rw [hB]; exact bA _ hmA e he)]
    · intro p e he
      obtain ⟨h1, h2⟩ := hcell p e he
      subst h2
      refine ⟨?_, ?_⟩
      · rw [Buf.read_ok, List.getElem?_mapIdx, List.getElem?_eq_getElem (by omega), Option.map_some, if_pos h1]
      · rw [Buf.read_ok, List.getElem?_mapIdx, List.getElem?_eq_getElem (by omega), Option.map_some, if_pos h1]
    · intro i hi
      rw [hl] at hi
      rw [Buf.read_ok, List.getElem?_mapIdx, List.getElem?_eq_getElem (by omega), Option.map_some, if_pos hi, htake i hi]
    · simp
    · simp
    · simp
    · intro p hp
      have : m * k ≤ p := by
        have := htake m le_rfl
        rw [← hl, List.take_length] at this
        rw [← hl]; omega
      refine ⟨?_, ?_⟩ <;>
      · rw [List.getElem?_mapIdx]
        simp only [show ¬ p < m * k by omega, if_false]
        exact Option.map_id'
  · intro req m n k a b c ja ia jb ib jc ic h
    unfold refCsrmultcsr
    rw [if_pos (by simpa using h)]

/-- Non-vacuity: A = (0 1; 0 0), B = (0 0; 1 0); the result is B*A, with the 1 in the lower right corner. -/
example : (do
    let D ← mulCsrCsr refCsrmultcsr (⟨.col, Dim.mk' 2 2, [some 1], [some 0], [some 0, some 0, some 1]⟩ : Sparse Int)
      ⟨.col, Dim.mk' 2 2, [some 1], [some 1], [some 0, some 1, some 1]⟩ (Sparse.empty .col)
    return (D.value, D.key, D.offset) : Res _).toOption =
    some ([some 0, some 0, some 0, some 1], [some 0, some 1, some 0, some 1], [some 0, some 2, some 4]) := by decide +kernel

end BB.Ext
