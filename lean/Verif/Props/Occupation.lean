import Verif.Model.Occupation
import Verif.Props.Checker
import Verif.Props.Sparse
import Verif.Props.Norm

/-! C138: comparisons of occupation and norm with a limit. -/

namespace BB.Occ

open scoped BigOperators

variable {R : Type}

/-- Specification: the number of elements of the r×c matrix `f` that the checker accepts. -/
def accepted [LinearOrder R] [AddGroup R] (k : Checker R) (r c : Nat) (f : Nat → Nat → R) : Nat :=
  ∑ i ∈ Finset.range r, ∑ j ∈ Finset.range c, if k.accepts (f i j) = true then 1 else 0

variable [Field R] [LinearOrder R] [IsStrictOrderedRing R]

theorem share (n s : Nat) (v : R) (hs : 0 < s) : ((n : R) / (s : R) > v ↔ v * s < n) ∧ ((n : R) / (s : R) < v ↔ (n : R) < v * s) := by
  have : (0 : R) < s := by exact_mod_cast hs
  exact ⟨lt_div_iff₀ this, div_lt_iff₀ this⟩

/-- C138, dense matrices: the occupation is larger (smaller) than `v` exactly if more (fewer) than `v * rows * columns` elements are accepted; of an
empty matrix it is neither. -/
theorem C138_dense (k : Checker R) (A : Dense R) (r c : Nat) (f : Nat → Nat → R) (hA : A.Is r c f) (v : R) :
    ∃ l s, denseLarger A v k = .ok l ∧ denseSmaller A v k = .ok s ∧
      (l = true ↔ 0 < r * c ∧ v * (r * c : Nat) < accepted k r c f) ∧ (s = true ↔ 0 < r * c ∧ (accepted k r c f : R) < v * (r * c : Nat)) := by
  have hn := C32_dense_count k A r c f hA
  unfold denseLarger denseSmaller Dense.occupation
  simp only [hn, bind_ok', pure_ok', hA.size]
  refine ⟨_, _, rfl, rfl, ?_, ?_⟩ <;> unfold occupationOf <;> by_cases h : r * c = 0
  · simp [h, gtNaN]
  · rw [if_neg h]
    simp only [gtNaN, decide_eq_true_eq, Nat.pos_of_ne_zero h, true_and]
    exact (share _ _ v (Nat.pos_of_ne_zero h)).1
  · simp [h, ltNaN]
  · rw [if_neg h]
    simp only [ltNaN, decide_eq_true_eq, Nat.pos_of_ne_zero h, true_and]
    exact (share _ _ v (Nat.pos_of_ne_zero h)).2

omit [IsStrictOrderedRing R] in
theorem pick_countP {p q : R → Bool} (h : ∀ x, p x = true → q x = true) (g : Nat → Nat → R) (M n : Nat) :
    (Sparse.pick q id g M n).countP (fun e => p e.2) = (Sparse.pick p id g M n).length := by
  unfold Sparse.pick
  generalize List.range M = l
  simp only [id]
  induction l with
  | nil => rfl
  | cons m l ih =>
    rw [List.filterMap_cons, List.filterMap_cons]
    by_cases hp : p (g n m) = true
    · simp [hp, h _ hp, ih]
    · by_cases hq : q (g n m) = true
      · simp [hp, hq, ih]
      · simp [hp, hq, ih]

omit [IsStrictOrderedRing R] in
theorem picks_countP {p q : R → Bool} (h : ∀ x, p x = true → q x = true) (g : Nat → Nat → R) (M N : Nat) :
    (Sparse.picks q id g M N).flatten.countP (fun e => p e.2) = (Sparse.picks p id g M N).flatten.length := by
  unfold Sparse.picks
  generalize List.range N = l
  induction l with
  | nil => rfl
  | cons n l ih => simp only [List.map_cons, List.flatten_cons, List.countP_append, List.length_append, ih, pick_countP h]

/-- C138, sparse matrices that were made from dense ones: the answers are those of the dense matrix, if the checker accepts only elements that were
kept.  (Missing: checkers that accept elements that are not stored, `C138_sparse_zero_counterexample`; sums and products of sparse matrices,
`C64_spare_cells_occupation_is_ub`; row-major sources, C62.) -/
theorem C138_sparse_partial (k : Checker R) (keep : R → Bool) (hk : ∀ x, k.accepts x = true → keep x = true) (o : Ori) (A : Dense R) (r c : Nat)
    (f : Nat → Nat → R) (hA : A.Is r c f) (ho : A.ori = .col) (v : R) :
    ∃ S, Sparse.ofDense keep id o A = .ok S ∧ sparseLarger S v k = denseLarger A v k ∧ sparseSmaller S v k = denseSmaller A v k := by
  obtain ⟨S, e, h1, h2, h3⟩ := Sparse.ofDense_sat keep id o hA ho
  refine ⟨S, e, ?_⟩
  have hc := C32_sparse_count k S r c _ h3 (by rw [h2, Sparse.picks_count])
  rw [picks_countP hk, Sparse.picks_count] at hc
  have hd := C32_dense_count k A r c f hA
  have hcd : S.countSig k = A.countSig k := hc.trans hd.symm
  unfold sparseLarger sparseSmaller denseLarger denseSmaller Sparse.occupation Dense.occupation
  rw [hcd, h3.size, hA.size]
  exact ⟨rfl, rfl⟩

/-- C138, zero matrices: the answers are those of a dense matrix of zeros, for every threshold that a checker can have.  (Missing: empty matrices, which are
neither larger nor smaller if they are dense.) -/
theorem C138_zero_partial (A : Dense R) (r c : Nat) (hA : A.Is r c (fun _ _ => 0)) (h0 : 0 < r * c) (v t : R) (ht : 0 ≤ t) :
    denseLarger A v (.above t) = .ok (zeroLarger v t) ∧ denseSmaller A v (.above t) = .ok (zeroSmaller v t) := by
  obtain ⟨l, s, e1, e2, h1, h2⟩ := C138_dense (.above t) A r c _ hA v
  have ha : accepted (Checker.above t) r c (fun _ _ => (0 : R)) = 0 := by
    unfold accepted
    have : (Checker.above t).accepts (0 : R) = false := by
      show decide (|(0 : R)| > t) = false
      simp [ht]
    simp [this]
  rw [ha] at h1 h2
  have hs : (0 : R) < ((r * c : Nat) : R) := by exact_mod_cast h0
  rw [e1, e2]
  refine ⟨congrArg _ ?_, congrArg _ ?_⟩
  · rw [Bool.eq_iff_iff, h1]
    simp only [h0, true_and, zeroLarger, decide_eq_true_eq, Nat.cast_zero, gt_iff_lt]
    exact ⟨fun h => by_contra fun hv => absurd h (not_lt.2 (mul_nonneg (not_lt.1 hv) hs.le)), fun h => mul_neg_of_neg_of_pos h hs⟩
  · rw [Bool.eq_iff_iff, h2]
    simp only [h0, true_and, zeroSmaller, decide_eq_true_eq, Nat.cast_zero]
    exact mul_pos_iff_of_pos_right hs

/-- C138: never both, and neither exactly if the share is the limit or the matrix is empty. -/
theorem C138_exclusive (k : Checker R) (A : Dense R) (r c : Nat) (f : Nat → Nat → R) (hA : A.Is r c f) (v : R) :
    ¬ (denseLarger A v k = .ok true ∧ denseSmaller A v k = .ok true) ∧
    (denseLarger A v k = .ok false ∧ denseSmaller A v k = .ok false ↔ r * c = 0 ∨ (accepted k r c f : R) = v * (r * c : Nat)) := by
  obtain ⟨l, s, e1, e2, h1, h2⟩ := C138_dense k A r c f hA v
  rw [e1, e2]
  simp only [Except.ok.injEq]
  constructor
  · rintro ⟨rfl, rfl⟩
    exact lt_asymm (h1.1 rfl).2 (h2.1 rfl).2
  · rw [← Bool.not_eq_true, ← Bool.not_eq_true, h1, h2]
    rcases Nat.eq_zero_or_pos (r * c) with h | h
    · simp [h]
    · simp only [h, true_and, not_lt, Nat.ne_of_gt h, false_or]
      exact ⟨fun ⟨a, b⟩ => le_antisymm a b, fun e => ⟨e.le, e.ge⟩⟩

/-- C138, norms: a norm that can be computed is compared as it is. -/
theorem C138_norm (kind : NormKind) (M : Mat ℝ) (r c : Nat) (f : Nat → Nat → ℝ) (hM : M.Is r c f) (hk : Normable kind M) (v : ℝ) :
    ∃ x l s, IsNorm kind r c f x ∧ normLarger (M.norm kind) v = .ok l ∧ normSmaller (M.norm kind) v = .ok s ∧
      (l = true ↔ v < x) ∧ (s = true ↔ x < v) := by
  obtain ⟨x, e, hx⟩ := C35_norm_partial kind M r c f hM hk
  exact ⟨x, decide (x > v), decide (x < v), hx, by simp [normLarger, e], by simp [normSmaller, e], by simp, by simp⟩

theorem of_toOption {α : Type} {x : Res α} {a : α} (h : x.toOption = some a) : x = .ok a := by
  cases x with
  | error e => cases h
  | ok b => cases h; rfl

/-- C138 (negation): a sparse matrix does not count the zeros that it does not store. -/
theorem C138_sparse_zero_counterexample :
    (do
      let S ← Sparse.ofDense (fun x : ℚ => decide (x ≠ 0)) id .col (Dense.ofFn .col 2 2 fun i j => if i = j then (1 : ℚ) else 0)
      sparseLarger S (1/4) (.inIn 0 (1/2))) = .ok false ∧
    denseLarger (Dense.ofFn .col 2 2 fun i j => if i = j then (1 : ℚ) else 0) (1/4) (.inIn 0 (1/2)) = .ok true := by
  exact ⟨of_toOption (by decide +kernel), of_toOption (by decide +kernel)⟩

/-- C138 (negation): an empty zero matrix is smaller than every positive limit, an empty dense matrix is not. -/
theorem C138_empty_counterexample :
    zeroSmaller (1 : ℚ) 0 = true ∧ denseSmaller (Dense.ofFn .col 0 3 fun _ _ => (0 : ℚ)) 1 (.above 0) = .ok false := by
  exact ⟨rfl, of_toOption (by decide +kernel)⟩

omit [Field R] [LinearOrder R] [IsStrictOrderedRing R] in
/-- C138 (negation): two-part matrices do not answer; if failures are compiled to nothing, every answer is "not larger". -/
theorem C138_two_part_counterexample (M : Mat R) (v t : R) :
    twoLarger .debug M v t = .error .assertFail ∧ (∃ m, twoLarger .exception M v t = .error (.throw m)) ∧ twoLarger .release M v t = .ok false ∧
    twoNormLarger .debug M v = .error .assertFail ∧ (∃ m, twoNormLarger .exception M v = .error (.throw m)) ∧ twoNormLarger .release M v = .ok false :=
  ⟨rfl, ⟨_, rfl⟩, rfl, rfl, ⟨_, rfl⟩, rfl⟩

/-- The hypotheses are met: three of four elements of (0 5; 3 8) are larger than 2. -/
example : (Dense.ofFn .col 2 2 fun i j => 3 * (i : ℚ) + 5 * j).Is 2 2 (fun i j => 3 * (i : ℚ) + 5 * j) ∧
    denseLarger (Dense.ofFn .col 2 2 fun i j => 3 * (i : ℚ) + 5 * j) (1/2) (.above 2) = .ok true ∧
    denseLarger (Dense.ofFn .col 2 2 fun i j => 3 * (i : ℚ) + 5 * j) (3/4) (.above 2) = .ok false ∧
    denseSmaller (Dense.ofFn .col 2 2 fun i j => 3 * (i : ℚ) + 5 * j) (3/4) (.above 2) = .ok false :=
  ⟨Dense.ofFn_is .., of_toOption (by decide +kernel), of_toOption (by decide +kernel), of_toOption (by decide +kernel)⟩

end BB.Occ
