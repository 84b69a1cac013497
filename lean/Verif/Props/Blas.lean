import Verif.Model.Blas
import Verif.Lemmas.SparseCopy
import Verif.Lemmas.DenseOps
import Verif.Props.Dense
import Verif.Lemmas.Norm

/-!
# C46: calls of external BLAS routines; C58: choice of the multiplication interface
-/

namespace BB.Blas

open Finset

variable {R : Type}

theorem toI32_small {n : Nat} (h : n < 2 ^ 31) : toI32 n = n := by
  unfold toI32 Int.bmod
  have : ((n : Int) % (2 ^ 32 : Nat)) = n := by omega
  rw [this, if_pos (by omega)]

theorem toI32_neg {n : Nat} (h : 2 ^ 31 ≤ n) (h' : n < 2 ^ 32) : toI32 n < 0 := by
  unfold toI32 Int.bmod
  have : ((n : Int) % (2 ^ 32 : Nat)) = n := by omega
  rw [this, if_neg (by omega)]
  omega

/-! ### Conforming functions exist -/

/-- Fill the M×N window of leading dimension `ldc` cell by cell. -/
def gridFill (M N ldc : Nat) (F : Nat → Nat → Buf R → Res R) (c : Buf R) : Res (Buf R) :=
  loopN N (fun j c => loopN M (fun i c => do
    let x ← F i j c
    c.write (i + j * ldc) x) c) c

theorem cell_inj {ldc i j i' j' : Nat} (hi : i < ldc) (hi' : i' < ldc) (h : i + j * ldc = i' + j' * ldc) : i = i' ∧ j = j' := by
  have h1 := congrArg (· % ldc) h
  have h2 := congrArg (· / ldc) h
  simp only [Nat.add_mul_mod_self_right, Nat.mod_eq_of_lt hi, Nat.mod_eq_of_lt hi'] at h1
  simp only [Nat.add_mul_div_right _ _ (show 0 < ldc by omega), Nat.div_eq_of_lt hi, Nat.div_eq_of_lt hi', Nat.zero_add] at h2
  exact ⟨h1, h2⟩

theorem gridFill_sat {M N ldc : Nat} {F : Nat → Nat → Buf R → Res R} {c : Buf R} {v : Nat → Nat → R} (hld : M ≤ ldc)
    (hin : ∀ i j, i < M → j < N → i + j * ldc < c.length)
    (hF : ∀ i j, i < M → j < N → ∀ c' : Buf R, c'[i + j * ldc]? = c[i + j * ldc]? → F i j c' = .ok (v i j)) :
    ∃ c', gridFill M N ldc F c = .ok c' ∧ c'.length = c.length ∧
      (∀ i j, i < M → j < N → c'.read (i + j * ldc) = .ok (v i j)) ∧
      (∀ p, (∀ i j, i < M → j < N → p ≠ i + j * ldc) → c'[p]? = c[p]?) := by
  unfold gridFill
  let I : Nat → Nat → Buf R → Prop := fun nj ni d => d.length = c.length ∧
    (∀ i j, i < M → j < N → (j < nj ∨ (j = nj ∧ i < ni)) → d[i + j * ldc]? = some (some (v i j))) ∧
    (∀ p, (∀ i j, i < M → j < N → (j < nj ∨ (j = nj ∧ i < ni)) → p ≠ i + j * ldc) → d[p]? = c[p]?)
  have key : Sat (loopN N (fun j c => loopN M (fun i c => do
    let x ← F i j c
    c.write (i + j * ldc) x) c) c) (fun d => I N 0 d) := by
    refine Sat.loop (fun n d => I n 0 d) ⟨rfl, by omega, fun _ _ => rfl⟩ ?_
    intro j d hj hd
    refine Sat.mono (Sat.loop (fun n d => I j n d) hd ?_) ?_
    · rintro i e hi ⟨h1, h2, h3⟩
      have hc : F i j e = .ok (v i j) := by
        refine hF i j hi hj e (h3 _ ?_)
        intro i' j' hi' hj' hlt heq
        obtain ⟨rfl, rfl⟩ := cell_inj (by omega) (by omega) heq
        omega
      rw [hc, bind_ok', Buf.write_ok (by rw [h1]; exact hin i j hi hj)]
      refine Sat.ok ⟨by simp [h1], ?_, ?_⟩
      · intro i' j' hi' hj' hlt
        rw [List.getElem?_set]
        by_cases heq : i + j * ldc = i' + j' * ldc
        · obtain ⟨rfl, rfl⟩ := cell_inj (by omega) (by omega) heq
          rw [if_pos rfl, if_pos (by rw [h1]; exact hin _ _ hi hj)]
        · rw [if_neg heq]
          refine h2 i' j' hi' hj' ?_
          rcases hlt with h | ⟨rfl, h⟩
          · exact .inl h
          · refine .inr ⟨rfl, ?_⟩
            have : i ≠ i' := by rintro rfl; exact heq rfl
            omega
      · intro p hp
        rw [List.getElem?_set, if_neg (fun h => hp i j hi hj (.inr ⟨rfl, by omega⟩) h.symm)]
        refine h3 p (fun i' j' hi' hj' hlt => hp i' j' hi' hj' ?_)
        rcases hlt with h | ⟨rfl, h⟩
        · exact .inl h
        · exact .inr ⟨rfl, by omega⟩
    · rintro e ⟨h1, h2, h3⟩
      refine ⟨h1, fun i' j' hi' hj' hlt => h2 i' j' hi' hj' (by omega), fun p hp => h3 p (fun i' j' hi' hj' hlt => hp i' j' hi' hj' (by omega))⟩
  obtain ⟨c', e, h1, h2, h3⟩ := key
  refine ⟨c', e, h1, fun i j hi hj => ?_, fun p hp => h3 p (fun i j hi hj _ => hp i j hi hj)⟩
  rw [Buf.read_ok]
  exact h2 i j hi hj (.inl hj)

/-- One element of the product. -/
def dot [Semiring R] (K lda ldb : Nat) (a b : Buf R) (i j : Nat) : Res R :=
  loopN K (fun l s => do
    let x ← a.read (i + l * lda)
    let y ← b.read (l + j * ldb)
    return s + x * y) 0

open Classical in
/-- The textbook gemm. -/
noncomputable def refGemm [Semiring R] : Gemm R := fun M N K lda ldb ldc alpha beta a b c =>
  if legal M N K lda ldb ldc then
    gridFill M.toNat N.toNat ldc.toNat (fun i j c => do
      let s ← dot K.toNat lda.toNat ldb.toNat a b i j
      if beta = 0 then return alpha * s + 0
      else do
        let c0 ← c.read (i + j * ldc.toNat)
        return alpha * s + beta * c0) c
  else .ok c

/-- The contract is satisfiable. -/
theorem refGemm_conforms [Semiring R] : (refGemm (R := R)).Conforms := by
  classical
  constructor
  · intro M N K lda ldb ldc alpha beta a b c f g h hl hA hB hC
    unfold refGemm
    rw [if_pos hl]
    simp only [Int.toNat_natCast]
    refine gridFill_sat (v := fun i j => alpha * (∑ l ∈ range K, f i l * g l j) + if beta = 0 then 0 else beta * h i j) ?_
      (fun i j hi hj => (hC i j hi hj).1) ?_
    · unfold legal at hl; omega
    · intro i j hi hj c' hc'
      have hd : dot K lda ldb a b i j = .ok (∑ l ∈ range K, f i l * g l j) := by
        unfold dot
        obtain ⟨s, e, hs⟩ := Sat.loop (n := K) (f := fun l s => do
          let x ← a.read (i + l * lda)
          let y ← b.read (l + j * ldb)
          return s + x * y) (s := (0 : R)) (fun n s => s = ∑ l ∈ range n, f i l * g l j) (by simp) (by
            rintro l s hl' rfl
            simp only [hA i l hi hl', hB l j hl' hj, bind_ok', pure_ok']
            exact Sat.ok (Finset.sum_range_succ _ _).symm)
        rw [e, hs]
      rw [hd, bind_ok']
      by_cases hb : beta = 0
      · simp only [hb, if_true]; rfl
      · simp only [hb, if_false]
        have := (hC i j hi hj).2 hb
        rw [Buf.read_ok, ← hc', ← Buf.read_ok] at this
        rw [this]; rfl
  · intro M N K lda ldb ldc alpha beta a b c hl
    unfold refGemm
    rw [if_neg hl]

/-! ### C46 -/

/-- The product functor with shapes that fit into `int`. -/
theorem mul_sat [Semiring R] {impl : Gemm R} (hg : impl.Conforms) (A B C : Dense R) (m k n : Nat) (f g : Nat → Nat → R)
    (hA : A.Is m k f) (hB : B.Is k n g) (hAo : A.ori = .col) (hBo : B.ori = .col) (hCo : C.ori = .col)
    (hm : m < 2 ^ 31) (hk : k < 2 ^ 31) (hn : n < 2 ^ 31) (hne : 0 < k ∨ m = 0 ∨ n = 0) :
    ∃ D, mul impl A B C = .ok D ∧ D.ori = .col ∧ D.Is m n (fun i j => ∑ l ∈ range k, f i l * g l j) := by
  unfold mul
  simp only [hA.rows, hA.cols, hB.rows, hB.cols, beq_self_eq_true, assertThat, if_true, bind_ok',
    toI32_small hm, toI32_small hk, toI32_small hn]
  have hlen : (C.resize m n).data.length = m * n := Dense.length_resizeBuf _ _
  by_cases hl : legal m n k m k m
  · obtain ⟨c', e, h1, h2, -⟩ := hg.computes m n k m k m 1 0 A.data B.data (C.resize m n).data f g (fun _ _ => 0) hl
      (fun i l hi hl' => by
        have := hA.read hi hl'
        simpa [View.plain, View.pos, hAo, hA.view_rows] using this)
      (fun l j hl' hj => by
        have := hB.read hl' hj
        simpa [View.plain, View.pos, hBo, hB.view_rows] using this)
      (fun i j hi hj => ⟨by
        rw [hlen]
        calc i + j * m < m + j * m := by omega
          _ = (j + 1) * m := by ring
          _ ≤ n * m := Nat.mul_le_mul_right _ hj
          _ = m * n := Nat.mul_comm _ _, fun h => absurd rfl h⟩)
    rw [e, bind_ok']
    refine ⟨_, rfl, hCo, ?_⟩
    refine Dense.is_of_cells rfl rfl rfl (h1.trans hlen) ?_
    intro i j hi hj
    have := h2 i j hi hj
    rw [Buf.read_ok] at this
    simpa [Dense.view, View.plain, View.pos, Dense.resize, hCo, Dim.mk'] using this
  · -- an illegal leading dimension: only possible without elements
    rw [hg.rejects _ _ _ _ _ _ _ _ _ _ _ hl, bind_ok']
    refine ⟨_, rfl, hCo, Dense.is_of_cells rfl rfl rfl hlen ?_⟩
    intro i j hi hj
    exfalso
    apply hl
    simp only [View.plain, Dense.resize, Dim.mk'] at hi hj
    unfold legal; omega

/-- C46: for column-major operands with dimensions that fit into the BLAS integer type and a non-empty inner dimension
(or an empty result), every conforming gemm called by the library computes exactly A*B into the freshly sized result,
whatever the result object held before.  (Outside the claim: inner dimension 0, where it is false, `C63_gemm_no_inner_is_wrong`, and
larger dimensions, `C46_large_is_wrong`.) -/
theorem C46_gemm [Semiring R] (impl : Gemm R) (hg : impl.Conforms) (A B C : Dense R) (m k n : Nat) (f g : Nat → Nat → R)
    (hA : A.Is m k f) (hB : B.Is k n g) (hAo : A.ori = .col) (hBo : B.ori = .col) (hCo : C.ori = .col)
    (hm : m < 2 ^ 31) (hk : k < 2 ^ 31) (hn : n < 2 ^ 31) (hne : 0 < k ∨ m = 0 ∨ n = 0) :
    ∃ D, mul impl A B C = .ok D ∧ D.ori = .col ∧ D.Is m n (fun i j => ∑ l ∈ range k, f i l * g l j) :=
  mul_sat hg A B C m k n f g hA hB hAo hBo hCo hm hk hn hne

/-- The elements of a new matrix are uninitialised. -/
theorem unset_get {m n i j : Nat} (hi : i < m) (hj : j < n) : ((Dense.empty (R := R) .col).resize m n).get i j = .error .ub := by
  have hpos : m * n ≠ 0 := Nat.mul_ne_zero (by omega) (by omega)
  unfold Dense.get
  rw [View.get_eq (by exact hi) (by exact hj)]
  have : ((Dense.empty (R := R) .col).resize m n).data = List.replicate (m * n) none := by
    unfold Dense.resize Dense.empty Dense.resizeBuf
    simp only [List.length_nil, if_neg (Ne.symm hpos)]
    rfl
  rw [this]
  unfold Buf.read
  rw [List.getElem?_replicate]
  split <;> rename_i h
  · split at h <;> simp at h
  · rfl

/-- C46: operands that do not match are rejected before anything is written. -/
theorem C46_mismatch_asserts [Semiring R] (impl : Gemm R) (A B C : Dense R) (h : A.dim.cols ≠ B.dim.rows) :
    mul impl A B C = .error .assertFail := by
  unfold mul assertThat
  simp [h]

/-- C63, negative: without inner dimension the product should be 0, but the leading dimension 0 passed for B is not
legal: gemm reports an error and the elements of the result (new here) stay uninitialised. -/
theorem C63_gemm_no_inner_is_wrong [Semiring R] (impl : Gemm R) (hg : impl.Conforms) (A B : Dense R) (m n : Nat) (f g : Nat → Nat → R)
    (hA : A.Is m 0 f) (hB : B.Is 0 n g) :
    ∃ D, mul impl A B (Dense.empty .col) = .ok D ∧ D.dim.rows = m ∧ D.dim.cols = n ∧
      ∀ i j, i < m → j < n → D.get i j = .error .ub := by
  unfold mul
  simp only [hA.rows, hA.cols, hB.rows, hB.cols, beq_self_eq_true, assertThat, if_true, bind_ok']
  rw [hg.rejects _ _ _ _ _ _ _ _ _ _ _ (by unfold legal; rw [toI32_small (n := 0) (by decide)]; omega), bind_ok']
  refine ⟨_, rfl, rfl, rfl, ?_⟩
  exact fun i j hi hj => unset_get hi hj

/-- C46, negative: from 2^31 rows on (below 2^32) the number of rows becomes negative, gemm reports an error and the
result stays uninitialised. -/
theorem C46_large_is_wrong [Semiring R] (impl : Gemm R) (hg : impl.Conforms) (A B : Dense R) (m k n : Nat) (f g : Nat → Nat → R)
    (hA : A.Is m k f) (hB : B.Is k n g) (hm : 2 ^ 31 ≤ m) (hm' : m < 2 ^ 32) :
    ∃ D, mul impl A B (Dense.empty .col) = .ok D ∧ D.dim.rows = m ∧ D.dim.cols = n ∧
      ∀ i j, i < m → j < n → D.get i j = .error .ub := by
  unfold mul
  simp only [hA.rows, hA.cols, hB.rows, hB.cols, beq_self_eq_true, assertThat, if_true, bind_ok']
  have hneg := toI32_neg hm hm'
  rw [hg.rejects _ _ _ _ _ _ _ _ _ _ _ (by unfold legal; omega), bind_ok']
  refine ⟨_, rfl, rfl, rfl, ?_⟩
  exact fun i j hi hj => unset_get hi hj

/-- Non-vacuity: a conforming gemm and a 2×3 by 3×2 product. -/
example : ∃ D, mul refGemm (Dense.ofFn .col 2 3 (fun i j => (10 * i + j : Int))) (Dense.ofFn .col 3 2 (fun i j => (i - j : Int))) (Dense.empty .col) = .ok D ∧
    D.Is 2 2 (fun i j => ∑ l ∈ range 3, (10 * i + l : Int) * (l - j)) := by
  obtain ⟨D, h, -, hD⟩ := C46_gemm refGemm refGemm_conforms _ _ (Dense.empty .col) 2 3 2 _ _
    (Dense.ofFn_is .col 2 3 (fun i j => (10 * i + j : Int))) (Dense.ofFn_is .col 3 2 (fun i j => (i - j : Int))) rfl rfl rfl
    (by decide) (by decide) (by decide) (by decide)
  exact ⟨D, h, hD⟩

/-- … and an instance of the negative theorem: 2×0 by 0×2. -/
example : ∃ D, mul (refGemm (R := Int)) (Dense.ofFn .col 2 0 (fun _ _ => 0)) (Dense.ofFn .col 0 2 (fun _ _ => 0)) (Dense.empty .col) = .ok D ∧
    D.get 1 1 = .error .ub := by
  obtain ⟨D, h, -, -, hD⟩ := C63_gemm_no_inner_is_wrong (refGemm (R := Int)) refGemm_conforms _ _ 2 2 _ _
    (Dense.ofFn_is .col 2 0 (fun _ _ => 0)) (Dense.ofFn_is .col 0 2 (fun _ _ => 0))
  exact ⟨D, h, hD 1 1 (by decide) (by decide)⟩

/-! ### Sparse times dense by MKL -/

/-- One element of the textbook csrmm. -/
def csrDot [Semiring R] (val : Buf R) (indx pntrb pntre : Buf Int) (ldb : Nat) (b : Buf R) (i j : Nat) : Res R := do
  let p0 ← pntrb.read 0
  let pb ← pntrb.read i
  let pe ← pntre.read i
  loopN (pe - pb).toNat (fun t s => do
    let k ← indx.read ((pb - p0).toNat + t)
    let x ← val.read ((pb - p0).toNat + t)
    let y ← b.read ((k - 1).toNat + j * ldb)
    return s + x * y) 0

def refCsrmm [Semiring R] : Csrmm R := fun M N _K ldb ldc alpha _beta val indx pntrb pntre b c =>
  gridFill M.toNat N.toNat ldc.toNat (fun i j _ => do
    let s ← csrDot val indx pntrb pntre ldb.toNat b i j
    return alpha * s) c

/-- The contract is satisfiable. -/
theorem refCsrmm_conforms [Semiring R] : (refCsrmm (R := R)).Conforms := by
  constructor
  intro M N K ldb ldc alpha val indx pntrb pntre b c L g hL hbd hM hK hldb hldc hv hp hb hc
  unfold refCsrmm
  simp only [Int.toNat_natCast]
  refine gridFill_sat (v := fun i j => alpha * ((L.getD i []).map fun e => e.2 * g e.1 j).sum) hldc hc ?_
  intro i j hi hj c' _
  have hrun : L[i]? = some (L.getD i []) := by
    rw [List.getD, List.getElem?_eq_getElem (by omega)]; rfl
  generalize L.getD i [] = run at hrun
  have hmem : run ∈ L := List.mem_of_getElem? hrun
  have hlen := take_succ_flatten_length L i run hrun
  have : csrDot val indx pntrb pntre ldb b i j = .ok ((run.map fun e => e.2 * g e.1 j).sum) := by
    unfold csrDot
    have h0 := (hp 0 hM).1
    simp only [List.take_zero, List.flatten_nil, List.length_nil] at h0
    rw [h0, bind_ok', (hp i hi).1, bind_ok', (hp i hi).2, bind_ok']
    have e1 : ((((L.take (i + 1)).flatten.length : Int) + 1) - (((L.take i).flatten.length : Int) + 1)).toNat = run.length := by omega
    have e2 : ((((L.take i).flatten.length : Int) + 1) - (((0 : Nat) : Int) + 1)).toNat = (L.take i).flatten.length := by omega
    rw [e1, e2]
    obtain ⟨s, e, hs⟩ := Sat.loop (n := run.length) (f := fun t s => do
      let k ← indx.read ((L.take i).flatten.length + t)
      let x ← val.read ((L.take i).flatten.length + t)
      let y ← b.read ((k - 1).toNat + j * ldb)
      return s + x * y) (s := (0 : R)) (fun n s => s = ((run.take n).map fun e => e.2 * g e.1 j).sum) (by simp) (by
        rintro t s ht rfl
        have hget : run[t]? = some run[t] := List.getElem?_eq_getElem ht
        obtain ⟨h1, h2⟩ := hv _ _ (flatten_getElem? L i t run run[t] hrun hget)
        have h3 := hb run[t].1 j (hbd run hmem _ (List.getElem_mem ht)) hj
        simp only [h1, h2, bind_ok', Int.add_sub_cancel, Int.toNat_natCast, h3, pure_ok']
        refine Sat.ok ?_
        rw [List.take_add_one, hget]
        simp only [Option.toList_some, List.map_append, List.map_cons, List.map_nil, List.sum_append, List.sum_singleton])
    rw [e, hs, List.take_length]
  rw [this]; rfl

/-- C46, sparse times dense by MKL: for a column-major sparse matrix that stores exactly what it reports (at least one
element) and a column-major dense matrix, every conforming csrmm called with the one-based copies of the index arrays
computes A*B.  (Outside the claim: sparse matrices with spare cells or nothing stored, see C55.) -/
theorem C46_csrmm [Semiring R] (impl : Csrmm R) (hg : impl.Conforms) (A : Sparse R) (B C : Dense R) (m k n : Nat) (f g : Nat → Nat → R)
    (hA : A.Is m k f) (ht : A.Tight) (hB : B.Is k n g) (hAo : A.ori = .col) (hBo : B.ori = .col) (hCo : C.ori = .col)
    (hm : m < 2 ^ 31) (hk : k < 2 ^ 31) (hn : n < 2 ^ 31) (hnz : A.nnz ≠ 0) (hnz' : A.nnz + 1 < 2 ^ 31) :
    ∃ D, mulCsr impl A B C = .ok D ∧ D.ori = .col ∧ D.Is m n (fun i j => ∑ l ∈ range k, f i l * g l j) := by
  obtain ⟨L, hL, hf⟩ := hA
  have ht' : A.nnz = L.flatten.length := by
    obtain ⟨n, h1, h2⟩ := ht
    rw [List.getLast?_eq_getElem?, hL.offsLen, Nat.add_sub_cancel, hL.offs _ (Nat.le_refl _), List.take_length] at h1
    injection h1 with h1
    injection h1 with h1
    omega
  -- something is stored, so there are rows and columns
  obtain ⟨hm0, hk0⟩ : 0 < m ∧ 0 < k := by
    have hpos : 0 < L.flatten.length := by omega
    obtain ⟨e, he⟩ := List.exists_mem_of_length_pos hpos
    obtain ⟨run, hr, he'⟩ := List.mem_flatten.1 he
    have h1 := hL.bound run hr e he'
    have h2 := List.length_pos_of_mem hr
    have h3 := hL.runs
    rw [hAo] at h1 h3
    simp only [Ori.majorIx, Ori.minorIx] at h1 h3
    omega
  obtain ⟨U, hU, hUo, hUn, L', hL', hUt, hf'⟩ := Sparse.convert_sat id rfl .row hL ht' (.inr ⟨hAo, hm0, hnz⟩)
  obtain ⟨i1, i2, i3⟩ := hL'.init hUt
  have hlen : (C.resize m n).data.length = m * n := Dense.length_resizeBuf _ _
  have hrows : L'.length = m := by rw [hL'.runs, hUo]; rfl
  have hflat : L'.flatten.length + 1 < 2 ^ 31 := by rw [← hUt, hUn]; exact hnz'
  have hbound : ∀ run ∈ L', ∀ e ∈ run, e.1 < k := by
    intro run hr e he
    have := hL'.bound run hr e he
    rw [hUo] at this
    exact this
  have htake : ∀ i, (L'.take i).flatten.length ≤ L'.flatten.length := by
    intro i
    conv => rhs; rw [← List.take_append_drop i L', List.flatten_append, List.length_append]
    omega
  have hoff : ∀ i, i ≤ m → Buf.read (U.offset.map (Option.map fun k => toI32 (k + 1))) i = .ok ((L'.take i).flatten.length + 1 : Int) := by
    intro i hi
    rw [Buf.read_ok, List.getElem?_map, hL'.offs i (by omega)]
    simp only [Option.map_some]
    rw [toI32_small (by have := htake i; omega)]
    rfl
  unfold mulCsr
  simp only [hL.rows, hL.cols, hB.rows, hB.cols, beq_self_eq_true, assertThat, if_true, bind_ok', hU,
    convertBuf_eq _ i2, convertBuf_eq _ i3, toI32_small hm, toI32_small hk, toI32_small hn]
  obtain ⟨c', e, h1, h2, -⟩ := hg.computes m n k k m 1 U.value (U.key.map (Option.map fun k => toI32 (k + 1)))
    (U.offset.map (Option.map fun k => toI32 (k + 1))) ((U.offset.map (Option.map fun k => toI32 (k + 1))).drop 1) B.data (C.resize m n).data
    L' g hrows hbound hm0 hk0 (Nat.le_refl _) (Nat.le_refl _)
    (by
      intro p e he
      obtain ⟨c1, c2⟩ := hL'.cells p e he
      refine ⟨Buf.read_ok.2 c2, ?_⟩
      rw [Buf.read_ok, List.getElem?_map, c1]
      obtain ⟨q, run, t, hq, he', -⟩ := flatten_locate L' p e he
      simp only [Option.map_some]
      rw [toI32_small (by have := hbound run (List.mem_of_getElem? hq) e (List.mem_of_getElem? he'); omega)]
      rfl)
    (by
      intro i hi
      refine ⟨hoff i (by omega), ?_⟩
      have := hoff (i + 1) (by omega)
      rw [Buf.read_ok] at this ⊢
      rw [List.getElem?_drop, Nat.add_comm 1 i]
      exact this)
    (fun l j hl' hj => by
      have := hB.read hl' hj
      simpa [View.plain, View.pos, hBo, hB.view_rows] using this)
    (fun i j hi hj => by
      rw [hlen]
      calc i + j * m < m + j * m := by omega
        _ = (j + 1) * m := by ring
        _ ≤ n * m := Nat.mul_le_mul_right _ hj
        _ = m * n := Nat.mul_comm _ _)
  rw [e, bind_ok']
  refine ⟨_, rfl, hCo, ?_⟩
  refine Dense.is_of_cells rfl rfl rfl (h1.trans hlen) ?_
  intro i j hi hj
  have hi' : i < m := hi
  have hj' : j < n := hj
  have := h2 i j hi hj
  rw [Buf.read_ok] at this
  have hmem : L'.getD i [] ∈ L' := by
    rw [List.getD, List.getElem?_eq_getElem (by omega)]; exact List.getElem_mem _
  rw [Sparse.run_sum' (fun l => g l j) (hL'.sorted _ hmem) (hbound _ hmem), one_mul] at this
  have hval : ∑ l ∈ range k, entryAt (L'.getD i []) l * g l j = ∑ l ∈ range k, f i l * g l j := by
    refine Finset.sum_congr rfl fun l hl => ?_
    have hl' := Finset.mem_range.1 hl
    have a1 := hf' i l hi' hl'
    have a2 := hf i l hi' hl'
    simp only [id] at a1
    rw [← a2] at a1
    rw [← a1]; rfl
  rw [hval] at this
  simpa [Dense.view, View.plain, View.pos, Dense.resize, hCo, Dim.mk'] using this

/-- Non-vacuity: a 2×3 sparse matrix with two stored elements. -/
example : (do
    let D ← mulCsr refCsrmm (⟨.col, Dim.mk' 2 3, [some 7, some 5], [some 1, some 0], [some 0, some 1, some 2, some 2]⟩ : Sparse Int)
      (Dense.ofFn .col 3 1 (fun i j => (10 * i + j + 1 : Int))) (Dense.empty .col)
    let x ← D.get 0 0
    let y ← D.get 1 0
    return (x, y) : Res (Int × Int)).toOption = some (55, 7) := by decide +kernel

/-! ### C58 -/

/-- Two matrix objects that denote the same matrix in the same orientation are equal. -/
theorem is_unique {D E : Dense R} {r c : Nat} {f : Nat → Nat → R} (hD : D.Is r c f) (hE : E.Is r c f) (ho : D.ori = E.ori) : D = E := by
  have h1 := hD.data_eq
  have h2 := hE.data_eq
  obtain ⟨o, ⟨d1, d2, d3⟩, d⟩ := D
  obtain ⟨o', ⟨e1, e2, e3⟩, e⟩ := E
  have a1 := hD.rows; have a2 := hD.cols; have a3 := hD.size
  have b1 := hE.rows; have b2 := hE.cols; have b3 := hE.size
  simp only at *
  subst ho a1 a2 a3 b1 b2 b3
  rw [h1, h2]

/-- C58: in exact arithmetic the interface the policy selects (native code, OpenBLAS or Intel MKL) does not change the
product of two column-major matrices.  (Outside the claim: inner dimension 0 and 2^31 rows or more, where the BLAS interfaces
fail, see C46; mixed precision, `C71_mixed_is_wrong`.) -/
theorem C58_interface_independent [Semiring R] (cfg cfg' : Config) (impl impl' : Gemm R) (hg : impl.Conforms) (hg' : impl'.Conforms)
    (A B C C' : Dense R) (m k n : Nat) (f g : Nat → Nat → R)
    (hA : A.Is m k f) (hB : B.Is k n g) (hAo : A.ori = .col) (hBo : B.ori = .col) (hCo : C.ori = .col) (hCo' : C'.ori = .col)
    (hm : m < 2 ^ 31) (hk : k < 2 ^ 31) (hn : n < 2 ^ 31) (hne : 0 < k) :
    ∃ D, best cfg impl A B C = .ok D ∧ best cfg' impl' A B C' = .ok D ∧ D.Is m n (fun i j => ∑ l ∈ range k, f i l * g l j) := by
  have key : ∀ (cfg : Config) (impl : Gemm R), impl.Conforms → ∀ C : Dense R, C.ori = .col →
      ∃ D, best cfg impl A B C = .ok D ∧ D.ori = .col ∧ D.Is m n (fun i j => ∑ l ∈ range k, f i l * g l j) := by
    intro cfg impl hg C hCo
    cases cfg with
    | native =>
      obtain ⟨D, h, ho, hD⟩ := C21_native_product A B C m k n f g hA hB hAo hBo hCo
      exact ⟨D, h, ho, hD.congr (fun i j _ _ => dotSeq_eq_sum f g k i j)⟩
    | intelMKL => exact mul_sat hg A B C m k n f g hA hB hAo hBo hCo hm hk hn (.inl hne)
    | openBLAS => exact mul_sat hg A B C m k n f g hA hB hAo hBo hCo hm hk hn (.inl hne)
  obtain ⟨D, h1, h2, h3⟩ := key cfg impl hg C hCo
  obtain ⟨D', h1', h2', h3'⟩ := key cfg' impl' hg' C' hCo'
  have : D' = D := is_unique h3' h3 (h2'.trans h2.symm)
  exact ⟨D, h1, this ▸ h1', h3⟩

/-- C71, what mixed products compute with Intel MKL: the double operand is rounded to float first and the sum is a float
sum. -/
theorem C71_float_double_partial [Semiring R] {S : Type} (toFloat : S → R) (toDouble : R → S) (impl : Gemm R) (hg : impl.Conforms)
    (A : Dense R) (B : Dense S) (m k n : Nat) (f : Nat → Nat → R) (g : Nat → Nat → S)
    (hA : A.Is m k f) (hB : B.Is k n g) (hAo : A.ori = .col) (hBo : B.ori = .col)
    (hm : m < 2 ^ 31) (hk : k < 2 ^ 31) (hn : n < 2 ^ 31) (hne : 0 < k) :
    ∃ D, bestFloatDouble toFloat toDouble impl A B = .ok D ∧ D.Is m n (fun i j => toDouble (∑ l ∈ range k, f i l * toFloat (g l j))) := by
  unfold bestFloatDouble
  obtain ⟨fB, h1, ho1, hi1⟩ := Dense.convert_sat toFloat B.ori hB
  obtain ⟨fC, h2, ho2, hi2⟩ := mul_sat hg A fB (Dense.empty A.ori) m k n f _ hA hi1 hAo (ho1.trans hBo) hAo hm hk hn (.inl hne)
  obtain ⟨D, h3, -, hi3⟩ := Dense.convert_sat toDouble fC.ori hi2
  rw [h1, bind_ok', h2, bind_ok', h3]
  exact ⟨D, rfl, hi3⟩

theorem C71_double_float_partial [Semiring R] {S : Type} (toFloat : S → R) (toDouble : R → S) (impl : Gemm R) (hg : impl.Conforms)
    (A : Dense S) (B : Dense R) (m k n : Nat) (f : Nat → Nat → S) (g : Nat → Nat → R)
    (hA : A.Is m k f) (hB : B.Is k n g) (hAo : A.ori = .col) (hBo : B.ori = .col)
    (hm : m < 2 ^ 31) (hk : k < 2 ^ 31) (hn : n < 2 ^ 31) (hne : 0 < k) :
    ∃ D, bestDoubleFloat toFloat toDouble impl A B = .ok D ∧ D.Is m n (fun i j => toDouble (∑ l ∈ range k, toFloat (f i l) * g l j)) := by
  unfold bestDoubleFloat
  obtain ⟨fA, h1, ho1, hi1⟩ := Dense.convert_sat toFloat A.ori hA
  have ho1' := ho1.trans hAo
  obtain ⟨fC, h2, ho2, hi2⟩ := mul_sat hg fA B (Dense.empty fA.ori) m k n _ g hi1 hB ho1' hBo ho1' hm hk hn (.inl hne)
  obtain ⟨D, h3, -, hi3⟩ := Dense.convert_sat toDouble fC.ori hi2
  rw [h1, bind_ok', h2, bind_ok', h3]
  exact ⟨D, rfl, hi3⟩

/-- C71, negative: whatever double value `x` is not a float, the product of the 1×1 float matrix 1 and the double matrix
`x` is not `x` with Intel MKL (native code computes it in double). -/
theorem C71_mixed_is_wrong [Semiring R] {S : Type} (toFloat : S → R) (toDouble : R → S) (impl : Gemm R) (hg : impl.Conforms)
    (x : S) (hx : toDouble (toFloat x) ≠ x) :
    ∃ D y, bestFloatDouble toFloat toDouble impl (Dense.ofFn .col 1 1 (fun _ _ => 1)) (Dense.ofFn .col 1 1 (fun _ _ => x)) = .ok D ∧
      D.get 0 0 = .ok y ∧ y ≠ x := by
  obtain ⟨D, h, hD⟩ := C71_float_double_partial toFloat toDouble impl hg _ _ 1 1 1 _ _ (Dense.ofFn_is .col 1 1 (fun _ _ => (1 : R)))
    (Dense.ofFn_is .col 1 1 (fun _ _ => x)) rfl rfl (by decide) (by decide) (by decide) (by decide)
  refine ⟨D, _, h, hD.elems 0 0 (by decide) (by decide), ?_⟩
  simpa using hx

/-- Non-vacuity: rounding a number of eighths to whole numbers. -/
example : ∃ D y, bestFloatDouble (fun x : Int => x / 8) (fun x : Int => x * 8) refGemm (Dense.ofFn .col 1 1 (fun _ _ => 1))
    (Dense.ofFn .col 1 1 (fun _ _ => 9)) = .ok D ∧ D.get 0 0 = .ok y ∧ y ≠ 9 :=
  C71_mixed_is_wrong _ _ _ refGemm_conforms 9 (by decide)

end BB.Blas
