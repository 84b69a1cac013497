import Verif.Props.Blas
import Verif.Props.Layout
import Verif.Props.Compare
import Verif.Props.Checker
import Verif.Props.Serialize
import Verif.Props.FileIO
import Verif.Props.Storage
import Verif.Props.Tracker
import Verif.Props.MatrixSets

/-!
# Properties that cut across the operations: C59, C61 – C67, C69, C70

Each of these is false of the code in general; the theorems named `…_is_wrong`, `…_is_ub` etc. in the other files are
the counterexamples.  The theorems here say for which part of the domain the claim holds.
-/

namespace BB

variable {R : Type}

/-! ### C59 -/

/-- C59 for outer views of full height (all rows of a range of columns): any window of such a view reads and writes
exactly the elements of the original matrix at the summed offsets.  (Missing: outer views with fewer rows than the
matrix, where the claim is false, `C59_nested_view_is_wrong`.) -/
theorem C59_view_of_view_partial (r c : Nat) (b : Buf R) (hb : b.length = r * c) (n1 c1 : Nat) (h1 : c1 + n1 ≤ c)
    (nr nc r2 c2 : Nat) (hr : r2 + nr ≤ r) (hc : c2 + nc ≤ n1) :
    let M := View.plain .col r c
    let W := (M.sub r n1 0 c1).sub nr nc r2 c2
    (∀ i j, i < nr → j < nc → W.get b i j = M.get b (r2 + i) (c1 + (c2 + j))) ∧
    (∀ i j x, i < nr → j < nc → ∃ b', W.set b i j x = .ok b' ∧ b'.length = b.length ∧
      M.get b' (r2 + i) (c1 + (c2 + j)) = .ok x ∧
      ∀ k l, k < r → l < c → ¬ (k = r2 + i ∧ l = c1 + (c2 + j)) → M.get b' k l = M.get b k l) := by
  intro M W
  have hM : M.Fits b.length := by rw [hb]; exact View.plain_fits .col r c
  have hpos : ∀ i j, W.base + W.pos i j = M.base + M.pos (r2 + i) (c1 + (c2 + j)) := by
    intro i j
    simp only [W, M, View.sub, View.plain, View.pos]
    ring
  have hget : ∀ (b : Buf R) i j, i < nr → j < nc → W.get b i j = M.get b (r2 + i) (c1 + (c2 + j)) := by
    intro b i j hi hj
    rw [View.get_eq (v := W) hi hj, View.get_eq (v := M) (show r2 + i < r by omega) (show c1 + (c2 + j) < c by omega), hpos]
  refine ⟨fun i j hi hj => hget b i j hi hj, fun i j x hi hj => ?_⟩
  obtain ⟨b', e, hl, h⟩ := C02_writes_exact M b hM [(r2 + i, c1 + (c2 + j), x)] (by
    intro w hw
    simp only [List.mem_singleton] at hw
    subst hw
    exact ⟨show r2 + i < r by omega, show c1 + (c2 + j) < c by omega⟩)
  have e' : W.set b i j x = .ok b' := by
    rw [View.set_eq (v := W) hi hj, hpos, ← View.set_eq (v := M) (show r2 + i < r by omega) (show c1 + (c2 + j) < c by omega)]
    simp only [writes] at e
    revert e
    cases M.set b (r2 + i) (c1 + (c2 + j)) x with
    | error x => intro e; cases e
    | ok y => intro e; exact e
  refine ⟨b', e', hl, ?_, fun k l hk hl' hne => ?_⟩
  · rw [h _ _ (show r2 + i < r by omega) (show c1 + (c2 + j) < c by omega)]
    simp
  · rw [h k l hk hl']
    have : ¬ (r2 + i = k ∧ c1 + (c2 + j) = l) := fun ⟨a, b⟩ => hne ⟨a.symm, b.symm⟩
    simp [this]

/-! ### C61 -/

/-- C61: a moved-from storage that was assigned to (from an owner) can be resized again to any size.  (Missing: resizing
it directly, `C61_moved_from_cannot_resize`, and self-moves, `C61_self_move_loses_contents`.) -/
theorem C61_resize_after_assignment_partial (w : Own.World R) (hw : Own.Reach w) (x y n : Nat) (p : Own.Obj)
    (hx : w.obj x = some ⟨none, 0, false⟩) (hy : w.obj y = some p) (hp : p.own = true) :
    ∃ w' w'', Own.step w (.assign x y) = .ok w' ∧ w'.contents x = w.contents y ∧ Own.step w' (.resize x n) = .ok w'' ∧
      ∃ o, w''.obj x = some o ∧ o.size = n ∧ o.own = true := by
  obtain ⟨w', e, -, hc, -⟩ := C07_assign_equal w hw x y _ p hx hy hp
  have hw' : Own.Reach w' := Own.Reach.step hw (by simp [Own.Adm, hx, hy]) e
  have hown : ∃ o, w'.obj x = some o ∧ o.own = true := by
    have hxy : x ≠ y := by
      rintro rfl
      rw [hx] at hy
      cases hy
      cases hp
    simp only [Own.step, Own.World.get, hx, hy, bind_ok', if_neg hxy, Own.World.release, hp, if_true,
      Bool.false_eq_true, if_false] at e
    cases hcs : w.cells p with
    | error z => rw [hcs] at e; cases e
    | ok cs =>
      rw [hcs] at e
      simp only [bind_ok', pure_ok', Except.ok.injEq] at e
      subst e
      exact ⟨⟨some w.next, p.size, true⟩, by simp [Own.World.setObj, Own.upd], rfl⟩
  obtain ⟨o, ho, hoo⟩ := hown
  by_cases hs : o.size = n
  · refine ⟨w', w', e, hc, ?_, o, ho, hs, hoo⟩
    simp only [Own.step, Own.World.get, ho, bind_ok', hs, if_true, pure_ok']
  · rcases Own.step_inv (op := .resize x n) hw'.inv (by simp [Own.Adm, ho]) with ⟨w'', e', -⟩ | ⟨x', z, o', h, h1, h2, -⟩
    · refine ⟨w', w'', e, hc, e', ?_⟩
      simp only [Own.step, Own.World.get, ho, bind_ok', if_neg hs, hoo, not_true, if_false] at e'
      cases hf : w'.free o.data with
      | error z => rw [hf] at e'; cases e'
      | ok w1 =>
        rw [hf] at e'
        simp only [bind_ok', pure_ok', Except.ok.injEq] at e'
        subst e'
        exact ⟨⟨some w1.next, n, true⟩, by simp [Own.World.setObj, Own.upd], rfl, rfl⟩
    · cases h
      rw [ho] at h1
      cases h1
      rw [hoo] at h2
      cases h2

/-! ### C62 -/

/-- A matrix has only one norm of each kind. -/
theorem isNorm_unique {q : NormKind} {r c : Nat} {f : Nat → Nat → ℝ} {x y : ℝ} (hx : IsNorm q r c f x) (hy : IsNorm q r c f y) :
    x = y := by
  cases q with
  | one => exact hx.trans hy.symm
  | two => exact (pow_left_inj₀ hx.1 hy.1 two_ne_zero).1 (hx.2.trans hy.2.symm)
  | max =>
    obtain ⟨bx, ax⟩ := hx
    obtain ⟨hy, ay⟩ := hy
    rcases ax with ⟨z, rfl⟩ | ⟨i, j, hi, hj, rfl⟩
    · rcases ay with ⟨-, rfl⟩ | ⟨i, j, hi, hj, rfl⟩
      · rfl
      · exact absurd z (Nat.mul_pos (by omega) (by omega)).ne'
    · rcases ay with ⟨z, rfl⟩ | ⟨i', j', hi', hj', rfl⟩
      · exact absurd z (Nat.mul_pos (by omega) (by omega)).ne'
      · exact le_antisymm (hy i j hi hj) (bx i' j' hi' hj')

/-- C62 for the operations that honour the orientation: whichever orientation the operands have, conversion to a dense
matrix, transposition followed by conversion, the cursor product, significance counts and the three norms give the same
objects.  (Missing: the operations for which the claim is
false, see the theorems `C62_…_is_wrong` and `C62_…_is_ub`.) -/
theorem C62_orientation_independent_partial (A A' B B' : Dense ℝ) (m k n : Nat) (f g : Nat → Nat → ℝ)
    (hA : A.Is m k f) (hA' : A'.Is m k f) (hB : B.Is k n g) (hB' : B'.Is k n g) (o : Ori) (C C' : Dense ℝ) (hC : C.ori = C'.ori) :
    (∀ {T : Type} (cvt : ℝ → T), A.convert cvt o = A'.convert cvt o) ∧
    (∃ T T' D, A.transpose = .ok T ∧ A'.transpose = .ok T' ∧ T.convert id o = .ok D ∧ T'.convert id o = .ok D) ∧
    (Dense.mulCursor A.view A.data B.view B.data C = Dense.mulCursor A'.view A'.data B'.view B'.data C') ∧
    (∀ chk : Checker ℝ, A.countSig chk = A'.countSig chk) ∧
    (∀ q, ∃ x, (SMat.dense A).norm q = .ok x ∧ (SMat.dense A').norm q = .ok x) := by
  refine ⟨?_, ?_, ?_, ?_, ?_⟩
  · intro T cvt
    obtain ⟨D, e, ho, h⟩ := Dense.convert_sat cvt o hA
    obtain ⟨D', e', ho', h'⟩ := Dense.convert_sat cvt o hA'
    rw [e, e', Blas.is_unique h h' (ho.trans ho'.symm)]
  · obtain ⟨T, e, -, h⟩ := Dense.transpose_sat hA
    obtain ⟨T', e', -, h'⟩ := Dense.transpose_sat hA'
    obtain ⟨D, e1, ho1, h1⟩ := Dense.convert_sat id o h
    obtain ⟨D', e2, ho2, h2⟩ := Dense.convert_sat id o h'
    refine ⟨T, T', D, e, e', e1, ?_⟩
    rw [e2, Blas.is_unique h2 h1 (ho2.trans ho1.symm)]
  · obtain ⟨D, e, ho, h⟩ := C22_cursor_product_plain A B C m k n f g hA hB
    obtain ⟨D', e', ho', h'⟩ := C22_cursor_product_plain A' B' C' m k n f g hA' hB'
    rw [e, e', Blas.is_unique h h' (by rw [ho, ho', hC])]
  · intro chk
    rw [C32_dense_count chk A m k f hA, C32_dense_count chk A' m k f hA']
  · intro q
    obtain ⟨x, e, h⟩ := C35_dense q A m k f hA
    obtain ⟨x', e', h'⟩ := C35_dense q A' m k f hA'
    exact ⟨x, e, by rw [e', isNorm_unique h' h]⟩

/-- C62 for compressed matrices: the conversion to a dense matrix does not depend on their orientation. -/
theorem C62_sparse_to_dense_partial [Zero R] (S S' : Sparse R) (r c : Nat) (f : Nat → Nat → R) (hS : S.Is r c f) (hS' : S'.Is r c f)
    (o : Ori) : ∃ D, S.toDense id o = .ok D ∧ S'.toDense id o = .ok D ∧ D.Is r c f := by
  obtain ⟨D, e, h1, h2⟩ := C11_sparse_to_dense id rfl o S r c f hS
  obtain ⟨D', e', h1', h2'⟩ := C11_sparse_to_dense id rfl o S' r c f hS'
  exact ⟨D, e, by rw [e', Blas.is_unique h2' h2 (h1'.trans h1.symm)], h2⟩

/-- Non-vacuity: a 2×3 matrix in both orientations. -/
example (f : Nat → Nat → ℝ) : (Dense.ofFn .col 2 3 f).Is 2 3 f ∧ (Dense.ofFn .row 2 3 f).Is 2 3 f ∧
    (Dense.ofFn .col 2 3 f).ori ≠ (Dense.ofFn .row 2 3 f).ori :=
  ⟨Dense.ofFn_is .col 2 3 f, Dense.ofFn_is .row 2 3 f, show Ori.col ≠ Ori.row by decide⟩

/-! ### C63 -/

/-- C63: a default constructed dense matrix has no rows, no columns and no elements. -/
theorem C63_default_constructed (o : Ori) (f : Nat → Nat → R) : (Dense.empty o : Dense R).ori = o ∧ (Dense.empty o : Dense R).Is 0 0 f :=
  ⟨rfl, rfl, rfl, rfl, rfl, fun _ _ h => absurd h (Nat.not_lt_zero _)⟩

/-- C63 for the operations that are defined for degenerate shapes: the products with an inner dimension 0 are zero
matrices, and conversion, transposition, sums, the way to a sparse matrix and back work if there are no rows or no columns.
(Missing: the operations for which the claim is false, see the theorems named `C63_…`.) -/
theorem C63_degenerate_partial [NonUnitalNonAssocSemiring R] (A B C : Dense R) (m n : Nat) (f g : Nat → Nat → R) (hAo : A.ori = .col)
    (hBo : B.ori = .col) (hCo : C.ori = .col) :
    (A.Is m 0 f → B.Is 0 n g →
      (∃ D, Dense.mulGeneral A B C = .ok D ∧ D.Is m n (fun _ _ => 0)) ∧
      (∃ D, Dense.mulCursor A.view A.data B.view B.data C = .ok D ∧ D.Is m n (fun _ _ => 0))) ∧
    (m * n = 0 → A.Is m n f → B.Is m n g →
      (∀ o, ∃ D, A.convert id o = .ok D ∧ D.Is m n f) ∧ (∃ D, A.transpose = .ok D ∧ D.Is n m f) ∧
      (∃ D, Dense.binop (· + ·) A B C = .ok D ∧ D.Is m n f) ∧
      (∀ chk o o', ∃ S D, Sparse.ofDense chk id o A = .ok S ∧ S.nnz = 0 ∧ S.toDense id o' = .ok D ∧ D.Is m n f)) := by
  constructor
  · intro hA hB
    constructor
    · obtain ⟨D, e, h⟩ := C21_native_product_sum A B C m 0 n f g hA hB hAo hBo hCo
      exact ⟨D, e, h.congr (by intros; simp)⟩
    · obtain ⟨D, e, -, h⟩ := C22_cursor_product_plain A B C m 0 n f g hA hB
      exact ⟨D, e, h.congr (by intros; simp)⟩
  · intro h0 hA hB
    have no : ∀ {i j}, i < m → j < n → False := fun hi hj => (Nat.mul_pos (by omega : 0 < m) (by omega : 0 < n)).ne' h0
    refine ⟨fun o => ?_, ?_, ?_, fun chk o o' => ?_⟩
    · obtain ⟨D, e, -, h⟩ := C09_dense_conversion id o A m n f hA
      exact ⟨D, e, h⟩
    · obtain ⟨D, e, -, h⟩ := C10_transpose A m n f hA
      exact ⟨D, e, h.congr (fun i j hi hj => (no hj hi).elim)⟩
    · obtain ⟨D, e, -, h⟩ := C16_dense_sum (· + ·) A B C m n f g hA hB (hBo.trans hAo.symm) (hCo.trans hAo.symm)
      exact ⟨D, e, h.congr (fun i j hi hj => (no hi hj).elim)⟩
    · obtain ⟨S, D, e, e', -, h⟩ := C14_round_trip chk o o' A m n f hA hAo
      obtain ⟨S', L, e2, -, -, h3, -⟩ := C12_dense_to_sparse chk id o A m n f hA hAo
      rw [e] at e2
      cases e2
      refine ⟨S, D, e, ?_, e', h.congr (fun i j hi hj => (no hi hj).elim)⟩
      rw [h3]
      refine Finset.sum_eq_zero (fun i hi => Finset.sum_eq_zero (fun j hj => ?_))
      exact (no (Finset.mem_range.1 hi) (Finset.mem_range.1 hj)).elim

/-- Non-vacuity: 2×0 times 0×3. -/
example : (Dense.ofFn .col 2 0 (fun _ _ => (7 : Int))).Is 2 0 (fun _ _ => 7) ∧ (Dense.ofFn .col 0 3 (fun _ _ => (7 : Int))).Is 0 3 (fun _ _ => 7) :=
  ⟨Dense.ofFn_is _ _ _ _, Dense.ofFn_is _ _ _ _⟩

/-! ### C64 -/

/-- The compressed matrices obtained from column-major dense matrices by any number of conversions (of the element type,
and of the orientation of column-major ones with a row and a stored element) and transpositions (likewise). -/
inductive Sparse.Produced [Zero R] : Sparse R → Prop
  | ofDense {chk : R → Bool} {cvt : R → R} {o : Ori} {A : Dense R} {S : Sparse R} (r c : Nat) (f : Nat → Nat → R)
      (hA : A.Is r c f) (ho : A.ori = .col) (e : Sparse.ofDense chk cvt o A = .ok S) : Produced S
  | convert {cvt : R → R} {o : Ori} {S U : Sparse R} (h0 : cvt 0 = 0) (h : Produced S)
      (ho : S.ori = o ∨ (S.ori = .col ∧ 0 < S.dim.rows ∧ S.nnz ≠ 0)) (e : S.convert cvt o = .ok U) : Produced U
  | transpose {S T : Sparse R} (h : Produced S) (ho : S.ori = .col) (hr : 0 < S.dim.rows) (hn : S.nnz ≠ 0)
      (e : S.transpose = .ok T) : Produced T

theorem Sparse.Valid.tight {S : Sparse R} {r c : Nat} {L : List (List (Nat × R))} (hL : S.Valid r c L) :
    S.Tight ↔ S.nnz = L.flatten.length := by
  constructor
  · rintro ⟨n, h1, h2⟩
    rw [List.getLast?_eq_getElem?, hL.offsLen, Nat.add_sub_cancel, hL.offs _ (Nat.le_refl _), List.take_length] at h1
    injection h1 with h1
    injection h1 with h1
    omega
  · intro h
    refine ⟨_, ?_, h⟩
    rw [List.getLast?_eq_getElem?, hL.offsLen, Nat.add_sub_cancel, hL.offs _ (Nat.le_refl _), List.take_length]

/-- C64 for the compressed matrices that any history of conversions and transpositions produces: they are structurally
valid, `nnz()` is the number of elements stored in the runs, every reported element is initialised, and so converting
to a dense matrix, converting the element type and counting accepted elements are all defined.  (Missing: sums,
products, and transposes of matrices that store nothing, for which the claim is false: `C64_sum_counts_garbage`,
`C64_product_counts_garbage`, `C64_transpose_counts_garbage`.) -/
theorem C64_stored_elements_partial [Zero R] (S : Sparse R) (hS : S.Produced) :
    ∃ r c L, S.Valid r c L ∧ S.nnz = L.flatten.length ∧ (∀ x ∈ S.value, x ≠ none) ∧ (∀ x ∈ S.key, x ≠ none) ∧
      (∀ o, ∃ D, S.toDense id o = .ok D) ∧ (∃ U, S.convert id S.ori = .ok U ∧ U.nnz = S.nnz) ∧
      (∀ chk, ∃ n, Sparse.countBuf chk S.value = .ok n ∧ n ≤ S.nnz) := by
  have key : ∃ r c f, S.Is r c f ∧ S.Tight := by
    induction hS with
    | @ofDense chk cvt o A S r c f hA ho e =>
      obtain ⟨S', L, e', h1, h2, -, h4, -⟩ := C12_dense_to_sparse chk cvt o A r c f hA ho
      rw [e] at e'
      cases e'
      exact ⟨r, c, _, ⟨L, h2, fun i j _ _ => rfl⟩, h2.tight.2 h4⟩
    | @convert cvt o S U h0 h ho e ih =>
      obtain ⟨r, c, f, hf, ht⟩ := ih
      obtain ⟨U', e', -, -, h3, h4⟩ := C55_sparse_conversion cvt h0 o S r c f hf ht (by
        rw [hf.rows] at ho
        exact ho)
      rw [e] at e'
      cases e'
      exact ⟨r, c, _, h4, h3⟩
    | @transpose S T h ho hr hn e ih =>
      obtain ⟨r, c, f, ⟨L, hL, hf⟩, ht⟩ := ih
      obtain ⟨T', e', h1, h2, h3⟩ := Sparse.transpose_sat hL (by rw [ho]; rfl) (by rw [← hL.rows]; exact hr)
      rw [e] at e'
      cases e'
      rw [if_neg hn] at h2
      refine ⟨c, r, _, ⟨_, h3, fun i j _ _ => rfl⟩, h3.tight.2 ?_⟩
      have h5 : (Sparse.trans L r).flatten.length = L.flatten.length := by
        have := Sparse.trans_take L (K := r) (k := r) (Nat.le_refl _)
        rw [List.take_of_length_le (by simp [Sparse.trans])] at this
        have tot := Sparse.trq_total (L := L) (K := r) (by
          intro run hr e he
          have := hL.bound run hr e he
          rw [ho] at this
          exact this) L.length (Nat.le_refl _)
        rw [this]
        unfold Sparse.trOff
        rw [List.take_length] at tot
        exact tot
      rw [h5, Sparse.nnz, h2]
      exact hL.tight.1 ht
  obtain ⟨r, c, f, ⟨L, hL, hf⟩, ht⟩ := key
  have hn := hL.tight.1 ht
  obtain ⟨i1, i2, -⟩ := hL.init hn
  refine ⟨r, c, L, hL, hn, i1, i2, fun o => ?_, ?_, fun chk => ?_⟩
  · obtain ⟨D, e, -⟩ := C11_sparse_to_dense id rfl o S r c f ⟨L, hL, hf⟩
    exact ⟨D, e⟩
  · obtain ⟨U, e, -, h, -⟩ := C55_sparse_conversion id rfl S.ori S r c f ⟨L, hL, hf⟩ ht (Or.inl rfl)
    exact ⟨U, e, h⟩
  · have hread : ∀ t, t < S.value.length → ∃ x, S.value.read t = .ok x := by
      intro t ht
      cases hx : S.value[t] with
      | none => exact absurd hx (i1 _ (List.getElem_mem ht))
      | some v => exact ⟨v, by simp [Buf.read, List.getElem?_eq_getElem ht, hx]⟩
    unfold Sparse.countBuf
    obtain ⟨n, e, h⟩ := Sat.raw (n := S.value.length) (s := 0) (f := fun p n => do
      let x ← S.value.read p
      return if chk x then n + 1 else n) (fun k n => n ≤ k) (Nat.le_refl _) (by
        intro i k hi hk
        obtain ⟨x, hx⟩ := hread i hi
        rw [hx]
        refine ⟨_, rfl, ?_⟩
        split <;> omega)
    exact ⟨n, e, h⟩

/-- Non-vacuity: a dense matrix, converted, transposed and scaled. -/
example : let S : Sparse Int := ⟨.col, Dim.mk' 2 3, [some 1, some 2], [some 1, some 1], [some 0, some 0, some 1, some 2]⟩
    let T : Sparse Int := ⟨.col, Dim.mk' 3 2, [some 1, some 2], [some 1, some 2], [some 0, some 0, some 2]⟩
    let U : Sparse Int := ⟨.row, Dim.mk' 3 2, [some 2, some 4], [some 1, some 1], [some 0, some 0, some 1, some 2]⟩
    S.Produced ∧ S.transpose = .ok T ∧ T.convert (fun x => 2 * x) .row = .ok U ∧ U.Produced := by
  intro S T U
  have hS : S.Produced := .ofDense (chk := fun x => decide (x ≠ 0)) (cvt := id) (o := .col)
    (A := Dense.ofFn .col 2 3 (fun i j => ((i * j : Nat) : Int))) 2 3 _ (Dense.ofFn_is .col 2 3 _) rfl rfl
  have eT : S.transpose = .ok T := by rfl
  have hT : T.Produced := .transpose hS rfl (by decide) (by decide) eT
  have eU : T.convert (fun x => 2 * x) .row = .ok U := by rfl
  exact ⟨hS, eT, eU, .convert (cvt := fun x => 2 * x) (o := .row) (by decide) hT (Or.inr ⟨rfl, by decide, by decide⟩) eU⟩

/-! ### C65 -/

/-- The pairs of kinds whose difference is right: a sparse matrix minus a dense one and a zero matrix minus anything else
are not among them. -/
def SubtractionKinds (A B : SMat R) : Prop :=
  (A.isSparse = true → B.isDense = false) ∧ (A.isZero = true → B.isZero = true)

/-- C65 for seven of the nine pairs of one-part kinds, and in-place operations on a dense matrix (any right operand) and
with a zero matrix on the right (any left operand).  (Missing: the other pairs, for which the claim is false, see the
theorems named `C65_…`; two-part operands are in `C20_…`.) -/
theorem C65_difference_partial [AddCommGroup R] (A B : SMat R) (r c : Nat) (f g : Nat → Nat → R) (hA : A.Is r c f) (hB : B.Is r c g) :
    (SubtractionKinds A B → ∃ C, SMat.binop (· - ·) (- ·) A B = .ok C ∧ C.Is r c (fun i j => f i j - g i j)) ∧
    (A.isDense = true → ∃ C, SMat.binassign (· + ·) A B = .ok C ∧ C.isDense = true ∧ C.Is r c (fun i j => f i j + g i j)) ∧
    (A.isDense = true → ∃ C, SMat.binassign (· - ·) A B = .ok C ∧ C.isDense = true ∧ C.Is r c (fun i j => f i j - g i j)) ∧
    (B.isZero = true → SMat.binassign (· + ·) A B = .ok A ∧ SMat.binassign (· - ·) A B = .ok A) := by
  refine ⟨fun h => ?_, fun h => ?_, fun h => ?_, fun h => ?_⟩
  · exact SMat.binop_sub_sat hA hB h
  · cases A with
    | dense A =>
      obtain ⟨C, e, D, rfl, h⟩ := SMat.binassign_dense_sat (· + ·) add_zero hA hB
      exact ⟨_, e, rfl, h⟩
    | sparse A => cases h
    | zero d => cases h
  · cases A with
    | dense A =>
      obtain ⟨C, e, D, rfl, h⟩ := SMat.binassign_dense_sat (· - ·) sub_zero hA hB
      exact ⟨_, e, rfl, h⟩
    | sparse A => cases h
    | zero d => cases h
  · cases B with
    | zero d =>
      exact ⟨SMat.binassign_zero _ (hA.rows.trans hB.rows.symm) (hA.cols.trans hB.cols.symm),
        SMat.binassign_zero _ (hA.rows.trans hB.rows.symm) (hA.cols.trans hB.cols.symm)⟩
    | dense A => cases h
    | sparse A => cases h

/-! ### C66 -/

theorem loadElems_length (n : Nat) : ∀ (i : Nat) (b : Buf R) (ar : Archive R), (loadElems n i b ar).1.length = b.length := by
  induction n with
  | zero => intro i b ar; rfl
  | succ n ih =>
    intro i b ar
    match ar with
    | [] => rfl
    | .size _ :: _ => rfl
    | .elem v :: ar => rw [loadElems, ih, List.length_set]

/-- C66 for loading: if the archive ends before anything was read the target is untouched, and if it ends inside the
elements the target has the new dimensions and a full-size array, so that it can be assigned, resized, loaded again
and destroyed.  (Missing: archives that end between the first and the fourth number, `C66_truncated_load_is_inconsistent`.) -/
theorem C66_truncated_load_partial (A B : Dense R) (r c : Nat) (f : Nat → Nat → R) (hA : A.Is r c f) (ar : Archive R)
    (hs : A.save = .ok ar) :
    (B.load (ar.take 0)).1 = B ∧
    ∀ n, 4 ≤ n → (B.load (ar.take n)).1.dim = A.dim ∧ (B.load (ar.take n)).1.data.length = r * c := by
  obtain ⟨l, hl, hlen⟩ := hA.exists_data
  have har : ar = .size A.dim.rows :: .size A.dim.cols :: .size A.dim.fullSize :: .size l.length :: l.map Tok.elem := by
    have : A.save = .ok (.size A.dim.rows :: .size A.dim.cols :: .size A.dim.fullSize :: .size l.length :: l.map Tok.elem) := by
      unfold Dense.save; rw [hl, saveElems_map]; simp
    exact (Except.ok.inj (hs.symm.trans this))
  subst har
  refine ⟨rfl, fun n hn => ?_⟩
  obtain ⟨n, rfl⟩ : ∃ k, n = k + 4 := ⟨n - 4, by omega⟩
  simp only [List.take_succ_cons, Dense.load]
  exact ⟨trivial, by rw [loadElems_length]; simp [Buf.alloc, hlen]⟩

namespace FileIO

theorem writeAt_length {b b' : Buf R} {p : Nat} {vs : List R} (h : writeAt b p vs = .ok b') : b'.length = b.length := by
  induction vs generalizing b p with
  | nil => cases h; rfl
  | cons v vs ih =>
    rw [writeAt, Buf.write] at h
    split at h
    · rw [bind_ok'] at h
      rw [ih h, List.length_set]
    · cases h

theorem readBody_length {s : Settings} {data : List R} {b b' : Buf R} (h : readBody s data b = .ok b') : b'.length = b.length := by
  unfold readBody at h
  dsimp only at h
  split at h
  · exact writeAt_length h
  · have key : ∀ n (x y : Stream R × Buf R × Nat), loopN n (fun _ => readColumn s) x = .ok y → y.2.1.length = x.2.1.length := by
      intro n
      induction n with
      | zero => intro x y e; cases e; rfl
      | succ n ih =>
        intro x y e
        rw [loopN] at e
        cases e1 : loopN n (fun _ => readColumn s) x with
        | error z => rw [e1] at e; cases e
        | ok z =>
          rw [e1] at e
          simp only [Except.bind, readColumn] at e
          cases e2 : writeAt z.2.1 z.2.2 (z.1.read s.nbRows).2 with
          | error q => rw [e2] at e; cases e
          | ok q =>
            rw [e2] at e
            simp only [bind_ok', pure_ok', Except.ok.injEq] at e
            subst e
            exact (writeAt_length e2).trans (ih x z e1)
    cases e1 : loopN s.nbCols (fun _ => readColumn s) ((⟨data, 0, false⟩ : Stream R).skip (s.colOffset * s.rowLD + s.rowOffset), b, 0) with
    | error z => rw [e1] at h; cases h
    | ok z =>
      rw [e1] at h
      simp only [bind_ok', pure_ok', Except.ok.injEq] at h
      subst h
      exact key _ _ _ e1

/-- C66 for reading files: however reading a window ends – rejected, file missing, file too short, success – the target
has the requested dimensions and an array of matching size, so that it can be used further (its elements may be
indeterminate, `C66_rejected_window_destroys_target`). -/
theorem C66_file_target_partial (s : Settings) (file : Option (List R)) (A : Dense R) :
    let B := (readWindow s file A).1
    B.dim = Dim.mk' s.nbRows s.nbCols ∧ B.data.length = s.nbRows * s.nbCols ∧ B.ori = A.ori := by
  have h0 : (A.resize s.nbRows s.nbCols).data.length = s.nbRows * s.nbCols := by simp [Dense.resize, Dense.length_resizeBuf]
  unfold readWindow
  dsimp only
  split
  · exact ⟨rfl, h0, rfl⟩
  split
  · exact ⟨rfl, h0, rfl⟩
  cases file with
  | none => exact ⟨rfl, h0, rfl⟩
  | some data =>
    dsimp only
    cases e : readBody s data (A.resize s.nbRows s.nbCols).data with
    | error z => exact ⟨rfl, h0, rfl⟩
    | ok b => exact ⟨rfl, (readBody_length e).trans h0, rfl⟩

/-- C70 for the entry points that check their input: a window outside the leading dimensions (sums representable), a
missing file, and a file shorter than the matrix to import are all reported by an exception.  (Missing: overflowing
windows, short files in window reads and unknown configuration entries, see the theorems named `C70_…`.) -/
theorem C70_reported_partial (s : Settings) (file : Option (List R)) (A : Dense R) (r c : Nat) (data : List R) :
    (¬ s.Fits → s.nbRows + s.rowOffset < 2 ^ 64 → s.nbCols + s.colOffset < 2 ^ 64 → ∃ m, (readWindow s file A).2 = .error (.throw m)) ∧
    (∃ m, (readWindow s none A).2 = .error (.throw m)) ∧
    (∃ m, importFile r c (none : Option (List R)) = .error (.throw m)) ∧
    (data.length < r * c → ∃ m, importFile r c (some data) = .error (.throw m)) := by
  refine ⟨fun h h1 h2 => ⟨_, by rw [C42_rejected s file A h ⟨h1, h2⟩]⟩, ?_, ⟨_, (C42_importer r c data).2.2⟩,
    fun h => ⟨_, (C42_importer r c data).2.1 h⟩⟩
  unfold readWindow
  dsimp only
  split
  · exact ⟨_, rfl⟩
  · split
    · exact ⟨_, rfl⟩
    · exact ⟨_, rfl⟩

end FileIO

/-- C70 for configurations: copying a set that was not defined before is reported by an exception, whatever follows. -/
theorem C70_unknown_source_partial [Zero R] (asserts : Bool) (name source : String) (ls : List (Provider.Leaf R)) (s : Provider.Sets R)
    (rest : List (String × List (Provider.Leaf R))) (h : s source = none) :
    Provider.build asserts s ((name, .equalTo source :: ls) :: rest) = .error (.throw "out_of_range") := by
  simp only [Provider.build, Provider.leaves, Provider.leaf, h, bind_error']

/-! ### C67 -/

theorem bufEqual_nat {b1 b2 : Buf Nat} (l1 l2 : List Nat) (h1 : b1 = l1.map some) (h2 : b2 = l2.map some) :
    bufEqual (0 : Int) 0 (b1.map (Option.map Nat.cast)) (b2.map (Option.map Nat.cast)) = .ok (decide (l1 = l2)) := by
  subst h1 h2
  unfold bufEqual
  by_cases hl : l1.length = l2.length
  · rw [if_neg (by simpa using hl)]
    have e : ∀ l : List Nat, (l.map some).map (Option.map (Nat.cast : Nat → Int)) = (l.map (Nat.cast : Nat → Int)).map some := by
      intro l; simp
    rw [e, e]
    obtain ⟨b, hb, hi⟩ := equalLoop_map (0 : Int) 0 (l1.map Nat.cast) (l2.map Nat.cast) (by simpa using hl)
    rw [hb]
    congr 1
    rw [Bool.eq_iff_iff, hi, decide_eq_true_iff]
    constructor
    · intro h
      apply List.ext_getElem hl
      intro t h1 h2
      have := h t (l1[t] : Int) (l2[t] : Int) (by simp [h1]) (by simp [h2])
      rw [max_self, abs_nonpos_iff, sub_eq_zero] at this
      exact_mod_cast this
    · rintro rfl t x y hx hy
      rw [hx] at hy
      cases hy
      simp
  · rw [if_pos (by simpa using hl)]
    congr 1
    rw [eq_comm, decide_eq_false_iff_not]
    rintro rfl
    exact hl rfl

theorem Sparse.Valid.arrays {S : Sparse R} {r c : Nat} {L : List (List (Nat × R))} (h : S.Valid r c L) (ht : S.nnz = L.flatten.length) :
    S.key = (L.flatten.map Prod.fst).map some ∧ S.value = (L.flatten.map Prod.snd).map some ∧
    S.offset = ((List.range (L.length + 1)).map (fun q => (L.take q).flatten.length)).map some := by
  refine ⟨?_, ?_, ?_⟩
  · apply List.ext_getElem?
    intro t
    by_cases hlt : t < L.flatten.length
    · rw [(h.cells t _ (List.getElem?_eq_getElem hlt)).1]
      simp only [List.getElem?_map, List.getElem?_eq_getElem hlt, Option.map_some]
    · rw [List.getElem?_eq_none (by rw [h.keyLen, ← Sparse.nnz, ht]; omega), List.getElem?_eq_none (by simp only [List.length_map]; omega)]
  · apply List.ext_getElem?
    intro t
    by_cases hlt : t < L.flatten.length
    · rw [(h.cells t _ (List.getElem?_eq_getElem hlt)).2]
      simp only [List.getElem?_map, List.getElem?_eq_getElem hlt, Option.map_some]
    · rw [List.getElem?_eq_none (by rw [← Sparse.nnz, ht]; omega), List.getElem?_eq_none (by simp only [List.length_map]; omega)]
  · apply List.ext_getElem?
    intro t
    by_cases hlt : t < L.length + 1
    · rw [h.offs t (by omega)]
      simp only [List.getElem?_map, List.getElem?_range hlt, Option.map_some]
    · rw [List.getElem?_eq_none (by rw [h.offsLen]; omega), List.getElem?_eq_none (by simp; omega)]

/-- Two compressed matrices store elements at the same places, with values that differ by at most `d`. -/
def SameStored [LinearOrder R] [AddCommGroup R] (d : R) (L L' : List (List (Nat × R))) : Prop :=
  List.Forall₂ (List.Forall₂ (fun e e' => e.1 = e'.1 ∧ |e.2 - e'.2| ≤ d)) L L'

theorem forall₂_append_split {α β : Type} {P : α → β → Prop} {a a2 : List α} {b b2 : List β} (h : List.Forall₂ P (a ++ a2) (b ++ b2))
    (hl : a.length = b.length) : List.Forall₂ P a b ∧ List.Forall₂ P a2 b2 := by
  induction a generalizing b with
  | nil =>
    cases b with
    | nil => exact ⟨.nil, h⟩
    | cons _ _ => simp at hl
  | cons x a ih =>
    cases b with
    | nil => simp at hl
    | cons y b =>
      simp only [List.cons_append, List.forall₂_cons] at h
      obtain ⟨h1, h2⟩ := ih h.2 (by simpa using hl)
      exact ⟨.cons h.1 h1, h2⟩

theorem sameStored_iff [LinearOrder R] [AddCommGroup R] (d : R) (L L' : List (List (Nat × R))) (hlen : L.length = L'.length) :
    SameStored d L L' ↔ (∀ q, q ≤ L.length → (L.take q).flatten.length = (L'.take q).flatten.length) ∧
      List.Forall₂ (fun e e' => e.1 = e'.1 ∧ |e.2 - e'.2| ≤ d) L.flatten L'.flatten := by
  induction L generalizing L' with
  | nil =>
    cases L' with
    | nil => simp [SameStored]
    | cons _ _ => simp at hlen
  | cons run L ih =>
    cases L' with
    | nil => simp at hlen
    | cons run' L' =>
      have ih := ih L' (by simpa using hlen)
      unfold SameStored at ih ⊢
      rw [List.forall₂_cons]
      constructor
      · rintro ⟨h1, h2⟩
        obtain ⟨h3, h4⟩ := ih.1 h2
        refine ⟨fun q hq => ?_, ?_⟩
        · cases q with
          | zero => simp
          | succ q =>
            simp only [List.take_succ_cons, List.flatten_cons, List.length_append]
            rw [h3 q (by simpa using hq), h1.length_eq]
        · simp only [List.flatten_cons]
          exact List.rel_append h1 h4
      · rintro ⟨h1, h2⟩
        have hrun : run.length = run'.length := by
          have := h1 1 (by simp)
          simpa using this
        simp only [List.flatten_cons] at h2
        have hsplit := forall₂_append_split h2 hrun
        refine ⟨hsplit.1, ih.2 ⟨fun q hq => ?_, hsplit.2⟩⟩
        have := h1 (q + 1) (by simpa using hq)
        simp only [List.take_succ_cons, List.flatten_cons, List.length_append] at this
        omega

/-- C67 for compressed matrices of equal dimensions and orientation that store exactly what they report: `equal` never faults
and holds exactly if the same places are stored and all values agree within the accuracy of the less accurate element
type.  (Missing: matrices of different dimensions, `C67_ignores_dimensions`; matrices with spare cells.) -/
theorem C67_equal_partial [LinearOrder R] [AddCommGroup R] (a1 a2 : R) (A B : Sparse R) (r c : Nat) (L L' : List (List (Nat × R)))
    (hA : A.Valid r c L) (hB : B.Valid r c L') (ho : A.ori = B.ori) (tA : A.nnz = L.flatten.length) (tB : B.nnz = L'.flatten.length) :
    ∃ b, A.equal a1 a2 B = .ok b ∧ (b = true ↔ SameStored (max a1 a2) L L') := by
  obtain ⟨k1, v1, o1⟩ := hA.arrays tA
  obtain ⟨k2, v2, o2⟩ := hB.arrays tB
  have hlen : L.length = L'.length := by rw [hA.runs, hB.runs, ho]
  have hoff : ((List.range (L.length + 1)).map (fun q => (L.take q).flatten.length) = (List.range (L'.length + 1)).map (fun q => (L'.take q).flatten.length)) ↔
      ∀ q, q ≤ L.length → (L.take q).flatten.length = (L'.take q).flatten.length := by
    rw [← hlen]
    constructor
    · intro h q hq
      have := congrArg (fun l => l[q]?) h
      simp only [List.getElem?_map, List.getElem?_range (show q < L.length + 1 by omega), Option.map_some, Option.some.injEq] at this
      exact this
    · intro h
      apply List.map_congr_left
      intro q hq
      exact h q (by have := List.mem_range.1 hq; omega)
  rw [sameStored_iff _ _ _ hlen, ← hoff]
  unfold Sparse.equal
  rw [bufEqual_nat _ _ o1 o2, bufEqual_nat _ _ k1 k2]
  simp only [bind_ok']
  by_cases h1 : ((List.range (L.length + 1)).map (fun q => (L.take q).flatten.length) = (List.range (L'.length + 1)).map (fun q => (L'.take q).flatten.length))
  · have hfl : L.flatten.length = L'.flatten.length := by
      have := hoff.1 h1 L.length (Nat.le_refl _)
      rw [List.take_length, hlen, List.take_length] at this
      exact this
    rw [decide_eq_true h1, if_pos rfl]
    by_cases h2 : L.flatten.map Prod.fst = L'.flatten.map Prod.fst
    · rw [decide_eq_true h2, if_pos rfl, v1, v2]
      unfold bufEqual
      rw [if_neg (by simp only [List.length_map]; exact not_not.2 hfl)]
      obtain ⟨b, hb, hi⟩ := equalLoop_map a1 a2 (L.flatten.map Prod.snd) (L'.flatten.map Prod.snd) (by simp only [List.length_map]; exact hfl)
      refine ⟨b, hb, hi.trans ?_⟩
      constructor
      · intro h
        refine ⟨h1, List.forall₂_iff_get.2 ⟨hfl, fun t ht ht' => ⟨?_, ?_⟩⟩⟩
        · have := congrArg (fun l => l[t]?) h2
          simp only [List.getElem?_map, List.getElem?_eq_getElem ht, List.getElem?_eq_getElem ht', Option.map_some, Option.some.injEq] at this
          exact this
        · exact h t _ _ (by rw [List.getElem?_map, List.getElem?_eq_getElem ht]; rfl) (by rw [List.getElem?_map, List.getElem?_eq_getElem ht']; rfl)
      · rintro ⟨-, h⟩ t x y hx hy
        obtain ⟨-, h⟩ := List.forall₂_iff_get.1 h
        have ht : t < L.flatten.length := by
          by_contra hn
          rw [List.getElem?_eq_none (by simp only [List.length_map]; omega)] at hx
          cases hx
        have ht' : t < L'.flatten.length := by omega
        rw [List.getElem?_map, List.getElem?_eq_getElem ht] at hx
        rw [List.getElem?_map, List.getElem?_eq_getElem ht'] at hy
        cases hx
        cases hy
        exact (h t ht ht').2
    · rw [decide_eq_false h2, if_neg (by simp)]
      refine ⟨false, rfl, ⟨fun h => (nomatch h), fun ⟨_, h⟩ => absurd ?_ h2⟩⟩
      obtain ⟨hl, h⟩ := List.forall₂_iff_get.1 h
      apply List.ext_getElem (by simp only [List.length_map]; exact hl)
      intro t h1 h2
      rw [List.length_map] at h1 h2
      simp only [List.getElem_map]
      exact (h t h1 h2).1
  · rw [decide_eq_false h1, if_neg (by simp)]
    exact ⟨false, rfl, ⟨fun h => (nomatch h), fun ⟨h, _⟩ => absurd h h1⟩⟩

/-- Non-vacuity: two matrices that store 7 and 8, and 5 and 5, at the same places; equal for accuracy 1, not for 0. -/
example : let A : Sparse Int := ⟨.col, Dim.mk' 2 3, [some 7, some 5], [some 1, some 0], [some 0, some 1, some 2, some 2]⟩
    let B : Sparse Int := ⟨.col, Dim.mk' 2 3, [some 8, some 5], [some 1, some 0], [some 0, some 1, some 2, some 2]⟩
    A.equal 1 0 B = .ok true ∧ A.equal 0 0 B = .ok false := by decide +kernel

/-! ### C69 -/

/-- C69 for builds with assertions or with exceptions: parts of different dimensions are rejected by the constructor of a
two-part matrix, and unknown names and values by the enum parser.  (Missing: builds with neither, for which the claim is
false: `C69_multiple_mismatch_is_accepted`, `C69_enum_parser_is_ub`, `C69_too_wide_band_is_ub`.) -/
theorem C69_checked_builds_partial (b : Build) (hb : b ≠ .release) :
    (∀ X1 X2 : SMat R, ¬ (X1.rows = X2.rows ∧ X1.cols = X2.cols) → ∃ e, Multi.new b (some X1) (some X2) = .error e ∧ e ≠ .ub) ∧
    (∀ {T : Type} [DecidableEq T] (l : List (String × T)) (s : String) (e : T),
      ((∀ x ∈ l, x.1 ≠ s) → (EnumParser.register l).parse b s = .error .assertFail) ∧
      ((∀ x ∈ l, x.2 ≠ e) → (EnumParser.register l).name b e = .error .assertFail)) := by
  refine ⟨fun X1 X2 h => ?_, fun l s e => EnumParser.C52_unknown_rejected b hb l s e⟩
  unfold Multi.new Multi.check
  dsimp only
  by_cases h1 : X1.rows = X2.rows
  · have h2 : X1.cols ≠ X2.cols := fun h2 => h ⟨h1, h2⟩
    rw [if_neg (by simpa using h1), if_pos h2]
    cases b with
    | debug => exact ⟨_, rfl, by simp⟩
    | exception => exact ⟨_, rfl, by simp⟩
    | release => exact absurd rfl hb
  · rw [if_pos h1]
    cases b with
    | debug => exact ⟨_, rfl, by simp⟩
    | exception => exact ⟨_, rfl, by simp⟩
    | release => exact absurd rfl hb

end BB
