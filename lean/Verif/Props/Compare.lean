import Verif.Model.Compare
import Verif.Lemmas.Norm
import Verif.Props.Norm

/-!
# C45 (error statistics) and C48 (approximate equality)
-/

namespace BB

variable {R : Type}

/-! ### C48 -/

theorem closeTo_iff [LinearOrder R] [AddCommGroup R] (a1 a2 x y : R) : closeTo a1 a2 x y = true ↔ |x - y| ≤ max a1 a2 := by
  simp [closeTo, absv, abs]

theorem equalLoop_close [LE R] [DecidableLE R] [Max R] [Sub R] [HasAbs R] (a1 a2 : R) (l1 l2 : List R) (h : l1.length = l2.length) :
    ∃ b, equalLoop a1 a2 (l1.map some) (l2.map some) = .ok b ∧
      (b = true ↔ ∀ (t : Nat) (x y : R), l1[t]? = some x → l2[t]? = some y → closeTo a1 a2 x y = true) := by
  induction l1 generalizing l2 with
  | nil => exact ⟨true, rfl, by simp⟩
  | cons x l1 ih =>
    cases l2 with
    | nil => simp at h
    | cons y l2 =>
      obtain ⟨b, hb, hi⟩ := ih l2 (by simpa using h)
      simp only [List.map_cons, equalLoop]
      by_cases hc : closeTo a1 a2 x y = true
      · refine ⟨b, by rw [if_pos hc]; exact hb, hi.trans ⟨fun h t u v hu hv => ?_, fun h t u v hu hv => h (t + 1) u v hu hv⟩⟩
        cases t with
        | zero => simp at hu hv; subst hu hv; exact hc
        | succ t => exact h t u v hu hv
      · refine ⟨false, by rw [if_neg hc], ?_⟩
        constructor
        · intro h; cases h
        · intro h
          exact absurd (h 0 x y rfl rfl) hc

theorem equalLoop_map [LinearOrder R] [AddCommGroup R] (a1 a2 : R) (l1 l2 : List R) (h : l1.length = l2.length) :
    ∃ b, equalLoop a1 a2 (l1.map some) (l2.map some) = .ok b ∧
      (b = true ↔ ∀ (t : Nat) (x y : R), l1[t]? = some x → l2[t]? = some y → |x - y| ≤ max a1 a2) := by
  simpa only [closeTo_iff] using equalLoop_close a1 a2 l1 l2 h

/-- `equal` of dense matrices of the same orientation holds exactly if the dimensions agree and the comparison accepts all pairs. -/
theorem dense_equal_close [LE R] [DecidableLE R] [Max R] [Sub R] [HasAbs R] (a1 a2 : R) (A B : Dense R) (r c r' c' : Nat) (f g : Nat → Nat → R)
    (hA : A.Is r c f) (hB : B.Is r' c' g) (ho : A.ori = B.ori) :
    ∃ b, A.equal a1 a2 B = .ok b ∧
      (b = true ↔ r = r' ∧ c = c' ∧ ∀ i j, i < r → j < c → closeTo a1 a2 (f i j) (g i j) = true) := by
  unfold Dense.equal bufEqual
  by_cases hl : r * c = r' * c'
  · rw [if_neg (by rw [hA.alloc, hB.alloc]; simpa using hl), hA.data_eq, hB.data_eq]
    obtain ⟨b, hb, hi⟩ := equalLoop_close a1 a2
      ((List.range (r * c)).map (fun t => f (Dense.unpos A.ori r c t).1 (Dense.unpos A.ori r c t).2))
      ((List.range (r' * c')).map (fun t => g (Dense.unpos B.ori r' c' t).1 (Dense.unpos B.ori r' c' t).2)) (by simp [hl])
    rw [hb]
    simp only [bind_ok', hA.rows, hA.cols, hB.rows, hB.cols]
    cases b with
    | false =>
      refine ⟨false, rfl, ⟨fun h => (nomatch h), fun ⟨h1, h2, h3⟩ => ?_⟩⟩
      subst h1 h2
      refine hi.2 ?_
      intro t x y hx hy
      have ht : t < r * c := by
        by_contra hn
        rw [List.getElem?_eq_none (by simp; omega)] at hx; cases hx
      simp only [List.getElem?_map, List.getElem?_range ht, Option.map_some, Option.some.injEq] at hx hy
      subst hx hy
      rw [← ho]
      exact h3 _ _ (unpos_lt A.ori ht).1 (unpos_lt A.ori ht).2
    | true =>
      refine ⟨_, rfl, ?_⟩
      simp only [Bool.and_eq_true, beq_iff_eq]
      constructor
      · rintro ⟨h1, h2⟩
        subst h1 h2
        refine ⟨rfl, rfl, fun i j hi' hj' => ?_⟩
        obtain ⟨t, ht, e⟩ := unpos_surj A.ori hi' hj'
        have := hi.1 rfl t (f i j) (g i j)
        refine this ?_ ?_
        · simp only [List.getElem?_map, List.getElem?_range ht, Option.map_some, e]
        · simp only [List.getElem?_map, List.getElem?_range ht, Option.map_some, ← ho, e]
      · rintro ⟨h1, h2, -⟩
        exact ⟨h1, h2⟩
  · rw [if_pos (by rw [hA.alloc, hB.alloc]; exact hl)]
    refine ⟨false, rfl, ⟨fun h => (nomatch h), fun ⟨h1, h2, h3⟩ => ?_⟩⟩
    subst h1 h2
    exact absurd rfl hl

/-- C48: for dense matrices of the same orientation `equal` never faults and holds exactly if the dimensions agree
and all corresponding elements differ by at most the accuracy of the less accurate element type.  (Outside the claim:
different orientations, `C62_equal_is_wrong`; sparse matrices, `C67_ignores_dimensions`.) -/
theorem C48_dense [LinearOrder R] [AddCommGroup R] (a1 a2 : R) (A B : Dense R) (r c r' c' : Nat) (f g : Nat → Nat → R)
    (hA : A.Is r c f) (hB : B.Is r' c' g) (ho : A.ori = B.ori) :
    ∃ b, A.equal a1 a2 B = .ok b ∧
      (b = true ↔ r = r' ∧ c = c' ∧ ∀ i j, i < r → j < c → |f i j - g i j| ≤ max a1 a2) := by
  simpa only [closeTo_iff] using dense_equal_close a1 a2 A B r c r' c' f g hA hB ho

/-- C48: `equal` is reflexive and symmetric on such matrices. -/
theorem C48_reflexive_symmetric [LinearOrder R] [AddCommGroup R] [IsOrderedAddMonoid R] (a1 a2 : R) (h0 : 0 ≤ a1) (A B : Dense R)
    (r c r' c' : Nat) (f g : Nat → Nat → R)
    (hA : A.Is r c f) (hB : B.Is r' c' g) (ho : A.ori = B.ori) :
    A.equal a1 a1 A = .ok true ∧ A.equal a1 a2 B = B.equal a2 a1 A := by
  constructor
  · obtain ⟨b, hb, hi⟩ := C48_dense a1 a1 A A r c r c f f hA hA rfl
    rw [hb, hi.2 ⟨rfl, rfl, fun i j _ _ => by simpa using h0⟩]
  · obtain ⟨b, hb, hi⟩ := C48_dense a1 a2 A B r c r' c' f g hA hB ho
    obtain ⟨b', hb', hi'⟩ := C48_dense a2 a1 B A r' c' r c g f hB hA ho.symm
    rw [hb, hb']
    congr 1
    rw [Bool.eq_iff_iff, hi, hi']
    constructor
    · rintro ⟨rfl, rfl, h⟩
      exact ⟨rfl, rfl, fun i j hi hj => by rw [abs_sub_comm, max_comm]; exact h i j hi hj⟩
    · rintro ⟨rfl, rfl, h⟩
      exact ⟨rfl, rfl, fun i j hi hj => by rw [abs_sub_comm, max_comm]; exact h i j hi hj⟩

/-- C62, negative: with different orientations the arrays are compared, not the elements.  Two matrices that agree
in every element are not equal, and two that differ are. -/
theorem C62_equal_is_wrong :
    let f : Nat → Nat → Int := fun i j => 2 * i + j
    let g : Nat → Nat → Int := fun i j => i + 2 * j
    (Dense.ofFn .col 2 2 f).equal 0 0 (Dense.ofFn .row 2 2 f) = .ok false ∧
    (Dense.ofFn .col 2 2 f).equal 0 0 (Dense.ofFn .row 2 2 g) = .ok true ∧ f 0 1 ≠ g 0 1 := by
  decide +kernel

/-- C67, negative: `equal` of sparse matrices ignores the number of rows (columns for row-major). -/
theorem C67_ignores_dimensions (S : Sparse Int) (d : Dim) (hv : ∀ x ∈ S.value, x ≠ none) (hk : ∀ x ∈ S.key, x ≠ none)
    (ho : ∀ x ∈ S.offset, x ≠ none) : S.equal 0 0 { S with dim := d } = .ok true := by
  have key : ∀ b : Buf Int, (∀ x ∈ b, x ≠ none) → bufEqual (0 : Int) 0 b b = .ok true := by
    intro b hb
    unfold bufEqual
    rw [if_neg (by simp)]
    induction b with
    | nil => rfl
    | cons x b ih =>
      cases x with
      | none => exact absurd rfl (hb none (by simp))
      | some v =>
        rw [equalLoop, if_pos (by simp [closeTo_iff])]
        exact ih (fun x hx => hb x (by simp [hx]))
  have lift : ∀ b : Buf Nat, (∀ x ∈ b, x ≠ none) → ∀ x ∈ b.map (Option.map (Nat.cast : Nat → Int)), x ≠ none := by
    intro b hb x hx
    obtain ⟨y, hy, rfl⟩ := List.mem_map.1 hx
    cases y with
    | none => exact absurd rfl (hb none hy)
    | some v => simp
  unfold Sparse.equal
  simp only [key _ (lift _ ho), key _ (lift _ hk), bind_ok', if_true]
  exact key _ hv

/-- C48, negative: `operator ==` compares addresses (C114).  What `equal` does with an element
that was never written: undefined. -/
theorem C48_uninitialised_is_ub : (Dense.new (R := Int) .col 1 1).equal 0 0 (Dense.new .col 1 1) = .error .ub := rfl

/-- Zero matrices: exactly equal dimensions. -/
theorem C48_zero (a b : Dim) : Zero.equal a b = true ↔ a.rows = b.rows ∧ a.cols = b.cols := by
  simp [Zero.equal, Dim.beq]

/-- Non-vacuity, with a tolerance: 5 and 6 differ by no more than 1, 5 and 7 do. -/
example : (Dense.ofFn .col 1 2 (fun _ j => (5 + j : Int))).equal 1 0 (Dense.ofFn .col 1 2 (fun _ _ => 6)) = .ok true ∧
    (Dense.ofFn .col 1 2 (fun _ j => (5 + 2 * j : Int))).equal 1 0 (Dense.ofFn .col 1 2 (fun _ _ => 5)) = .ok false := by
  decide +kernel

/-! ### C45 -/

theorem foldBuf2_map {V : Type} (step : V → R → R → V) (n : Nat) (F G : Nat → R) (s : V) :
    foldBuf2 step (((List.range n).map F).map some) (((List.range n).map G).map some) s
      = .ok ((List.range n).foldl (fun s t => step s (F t) (G t)) s) := by
  unfold foldBuf2
  obtain ⟨v, e, hv⟩ := Sat.raw (n := (((List.range n).map F).map some).length) (f := fun p s => do
    let x ← Buf.read (((List.range n).map F).map some) p
    let y ← Buf.read (((List.range n).map G).map some) p
    return step s x y) (s := s)
    (fun k v => v = (List.range k).foldl (fun s t => step s (F t) (G t)) s) (by simp) (by
      rintro i v hi rfl
      have hi' : i < n := by simpa using hi
      refine Sat.read (v := F i) (Buf.read_ok.2 (by simp [hi'])) (Sat.read (v := G i) (Buf.read_ok.2 (by simp [hi'])) (Sat.pure ?_))
      rw [List.range_succ, List.foldl_append]
      rfl)
  rw [e, hv]
  simp

/-- The list of differences, in storage order, covers the difference matrix. -/
theorem covers_diff (o : Ori) (r c : Nat) (f g : Nat → Nat → ℝ) :
    Covers ((List.range (r * c)).map (fun t => f (Dense.unpos o r c t).1 (Dense.unpos o r c t).2 - g (Dense.unpos o r c t).1 (Dense.unpos o r c t).2))
      r c (fun i j => f i j - g i j) := by
  refine ⟨?_, ?_, ?_⟩
  · intro h _
    rw [List.map_map, list_sum_range]
    exact sum_unpos o r c (fun i j => h (f i j - g i j))
  · intro x hx
    obtain ⟨t, ht, rfl⟩ := List.mem_map.1 hx
    have := unpos_lt o (List.mem_range.1 ht)
    exact ⟨_, _, this.1, this.2, rfl⟩
  · intro i j hi hj
    obtain ⟨t, ht, e⟩ := unpos_surj o hi hj
    exact .inr (List.mem_map.2 ⟨t, List.mem_range.2 ht, by rw [e]⟩)

/-- C45, maximal deviation: for dense matrices of equal size and orientation the result is an upper bound of all
|A(i,j) - B(i,j)| that is attained (0 for empty matrices), and it is zero exactly if the matrices agree.
(Outside the claim: different orientations, `C62_error_statistics_is_wrong`.) -/
theorem C45_max (A B : Dense ℝ) (r c : Nat) (f g : Nat → Nat → ℝ) (hA : A.Is r c f) (hB : B.Is r c g) (ho : A.ori = B.ori) :
    ∃ m, A.maxDeviation B = .ok m ∧ (∀ i j, i < r → j < c → |f i j - g i j| ≤ m) ∧
      ((r * c = 0 ∧ m = 0) ∨ ∃ i j, i < r ∧ j < c ∧ |f i j - g i j| = m) ∧
      (m = 0 ↔ ∀ i j, i < r → j < c → f i j = g i j) := by
  unfold Dense.maxDeviation
  rw [hA.data_eq, hB.data_eq, foldBuf2_map, ← ho]
  obtain ⟨x, hx, hn⟩ := (covers_diff A.ori r c f g).norm .max
  have hx' : x = (List.range (r * c)).foldl (fun s t => max s |f (Dense.unpos A.ori r c t).1 (Dense.unpos A.ori r c t).2 - g (Dense.unpos A.ori r c t).1 (Dense.unpos A.ori r c t).2|) 0 := by
    rw [normBuf, foldBuf_map, List.foldl_map] at hx
    exact (Except.ok.inj hx).symm
  refine ⟨x, by rw [hx'], hn.1, hn.2, ?_⟩
  rw [(C35_laws .max r c _ x hn).2.1]
  exact ⟨fun h i j hi hj => sub_eq_zero.1 (h i j hi hj), fun h i j hi hj => sub_eq_zero.2 (h i j hi hj)⟩

/-- C45, root mean square deviation: for non-empty dense matrices of equal size and orientation the result is the
non-negative number whose square is the mean of the squared differences; it is zero exactly if the matrices agree,
and never larger than the maximal deviation.  (Outside the claim: empty matrices, `C63_rms_of_empty_is_nan`; different orientations,
`C62_error_statistics_is_wrong`.) -/
theorem C45_rms (A B : Dense ℝ) (r c : Nat) (f g : Nat → Nat → ℝ) (hA : A.Is r c f) (hB : B.Is r c g) (ho : A.ori = B.ori)
    (hne : 0 < r * c) :
    ∃ x, A.rmsDeviation B = .ok (some x) ∧ 0 ≤ x ∧
      x ^ 2 = (∑ i ∈ Finset.range r, ∑ j ∈ Finset.range c, (f i j - g i j) ^ 2) / ((r * c : Nat) : ℝ) ∧
      (x = 0 ↔ ∀ i j, i < r → j < c → f i j = g i j) ∧
      ∀ m, A.maxDeviation B = .ok m → x ≤ m := by
  have hpos : (0 : ℝ) < ((r * c : Nat) : ℝ) := by exact_mod_cast hne
  have hsum : ∑ i ∈ Finset.range r, ∑ j ∈ Finset.range c, (f i j - g i j) ^ 2 =
      (List.range (r * c)).foldl (fun s t => s + (f (Dense.unpos A.ori r c t).1 (Dense.unpos A.ori r c t).2 - g (Dense.unpos A.ori r c t).1 (Dense.unpos A.ori r c t).2) ^ 2) 0 := by
    rw [← sum_unpos A.ori r c (fun i j => (f i j - g i j) ^ 2), ← list_sum_range]
    generalize List.range (r * c) = l
    rw [List.sum_eq_foldl, List.foldl_map]
  have hnn : 0 ≤ ∑ i ∈ Finset.range r, ∑ j ∈ Finset.range c, (f i j - g i j) ^ 2 :=
    Finset.sum_nonneg fun i _ => Finset.sum_nonneg fun j _ => sq_nonneg _
  have heq : A.rmsDeviation B = .ok (some (Real.sqrt ((∑ i ∈ Finset.range r, ∑ j ∈ Finset.range c, (f i j - g i j) ^ 2) / ((r * c : Nat) : ℝ)))) := by
    unfold Dense.rmsDeviation
    rw [hA.data_eq, hB.data_eq, foldBuf2_map, ← ho, ← hsum, hA.rows, hA.cols]
    simp only [bind_ok', pure_ok', if_neg (Nat.ne_of_gt hne)]
  have hsq : Real.sqrt ((∑ i ∈ Finset.range r, ∑ j ∈ Finset.range c, (f i j - g i j) ^ 2) / ((r * c : Nat) : ℝ)) ^ 2 =
      (∑ i ∈ Finset.range r, ∑ j ∈ Finset.range c, (f i j - g i j) ^ 2) / ((r * c : Nat) : ℝ) :=
    Real.sq_sqrt (div_nonneg hnn hpos.le)
  refine ⟨_, heq, Real.sqrt_nonneg _, hsq, ?_, ?_⟩
  · rw [Real.sqrt_eq_zero (div_nonneg hnn hpos.le), div_eq_zero_iff, or_iff_left hpos.ne']
    rw [Finset.sum_eq_zero_iff_of_nonneg (fun i _ => Finset.sum_nonneg fun j _ => sq_nonneg _)]
    constructor
    · intro h i j hi hj
      have h1 := h i (Finset.mem_range.2 hi)
      rw [Finset.sum_eq_zero_iff_of_nonneg (fun j _ => sq_nonneg _)] at h1
      exact sub_eq_zero.1 (pow_eq_zero_iff (two_ne_zero) |>.1 (h1 j (Finset.mem_range.2 hj)))
    · intro h i hi
      refine Finset.sum_eq_zero fun j hj => ?_
      rw [h i j (Finset.mem_range.1 hi) (Finset.mem_range.1 hj), sub_self, zero_pow two_ne_zero]
  · intro m hm
    obtain ⟨m', hm', hb, -, -⟩ := C45_max A B r c f g hA hB ho
    rw [hm] at hm'; cases hm'
    have hm0 : 0 ≤ m := by
      have hr : 0 < r := Nat.pos_of_mul_pos_right hne
      have hc : 0 < c := Nat.pos_of_mul_pos_left hne
      exact le_trans (abs_nonneg _) (hb 0 0 hr hc)
    refine Real.sqrt_le_iff.2 ⟨hm0, ?_⟩
    rw [div_le_iff₀ hpos]
    calc _ ≤ ∑ i ∈ Finset.range r, ∑ j ∈ Finset.range c, m ^ 2 :=
          Finset.sum_le_sum fun i hi => Finset.sum_le_sum fun j hj => by
            rw [← sq_abs]
            exact pow_le_pow_left₀ (abs_nonneg _) (hb i j (Finset.mem_range.1 hi) (Finset.mem_range.1 hj)) 2
      _ = m ^ 2 * ((r * c : Nat) : ℝ) := by simp; ring

/-- C63, negative: the root mean square deviation of empty matrices, which agree, is not zero but NaN. -/
theorem C63_rms_of_empty_is_nan (A B : Dense ℝ) (r c : Nat) (f g : Nat → Nat → ℝ) (hA : A.Is r c f) (hB : B.Is r c g)
    (he : r * c = 0) : A.rmsDeviation B = .ok none := by
  unfold Dense.rmsDeviation
  rw [hA.data_eq, hB.data_eq, foldBuf2_map, hA.rows, hA.cols]
  simp only [bind_ok', pure_ok', if_pos he]

/-- C62, negative: with different orientations the storages are compared.  Two 2×2 matrices that agree in every
element have the maximal deviation 1. -/
theorem C62_error_statistics_is_wrong :
    let f : Nat → Nat → ℝ := fun i j => 2 * i + j
    (Dense.ofFn .col 2 2 f).maxDeviation (Dense.ofFn .row 2 2 f) = .ok 1 := by
  intro f
  unfold Dense.maxDeviation
  rw [(Dense.ofFn_is .col 2 2 f).data_eq, (Dense.ofFn_is .row 2 2 f).data_eq, foldBuf2_map]
  simp [f, Dense.ofFn, Dense.unpos, List.range_succ]
  norm_num

/-- C45, negative: a smaller second matrix is read outside its array. -/
theorem C45_size_mismatch_is_ub (x : ℝ) : (Dense.ofFn .col 1 1 (fun _ _ => x)).maxDeviation (Dense.empty .col) = .error .ub := rfl

end BB
