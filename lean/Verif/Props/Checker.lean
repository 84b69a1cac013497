import Verif.Model.Checker
import Verif.Lemmas.Mat
import Verif.Lemmas.SparseTrans
import Mathlib.Algebra.Order.Ring.Rat

/-!
# Properties C29–C32: value checkers and occupation
-/

namespace BB

variable {R : Type}

@[simp] theorem absv_eq_abs [LinearOrder R] [AddGroup R] (v : R) : absv v = |v| := rfl

/-! ### C29 -/

/-- C29, acceptance: each checker accepts exactly the values whose absolute value lies in its interval. -/
theorem C29_accepts_interval [LinearOrder R] [AddGroup R] (t lo hi v : R) :
    ((Checker.above t).accepts v = true ↔ t < |v|) ∧
    ((Checker.exIn lo hi).accepts v = true ↔ lo < |v| ∧ |v| ≤ hi) ∧
    ((Checker.inIn lo hi).accepts v = true ↔ lo ≤ |v| ∧ |v| ≤ hi) ∧
    ((Checker.exEx lo hi).accepts v = true ↔ lo < |v| ∧ |v| < hi) := by
  simp only [Checker.accepts, Bool.and_eq_true, decide_eq_true_iff, gt_iff_lt, ge_iff_le]
  exact ⟨Iff.rfl, Iff.rfl, Iff.rfl, Iff.rfl⟩

/-- C29, constructors: construction succeeds exactly for ranges with non-negative thresholds that contain
some value; otherwise it throws. -/
theorem C29_constructor [Field R] [LinearOrder R] [IsStrictOrderedRing R] (t lo hi : R) :
    (Checker.mkAbove t = .ok (.above t) ↔ 0 ≤ t) ∧
    (Checker.mkExIn lo hi = .ok (.exIn lo hi) ↔ 0 ≤ lo ∧ 0 ≤ hi ∧ ∃ v : R, lo < |v| ∧ |v| ≤ hi) ∧
    (Checker.mkInIn lo hi = .ok (.inIn lo hi) ↔ 0 ≤ lo ∧ 0 ≤ hi ∧ ∃ v : R, lo ≤ |v| ∧ |v| ≤ hi) ∧
    (Checker.mkExEx lo hi = .ok (.exEx lo hi) ↔ 0 ≤ lo ∧ 0 ≤ hi ∧ ∃ v : R, lo < |v| ∧ |v| < hi) := by
  refine ⟨?_, ?_, ?_, ?_⟩
  · unfold Checker.mkAbove
    by_cases h : t < 0
    · simp [h, not_le.2 h]
    · simp [h, not_lt.1 h]
  · unfold Checker.mkExIn
    by_cases h : lo < 0
    · simp [h, not_le.2 h]
    · by_cases h' : hi < 0
      · simp [h, h', not_le.2 h']
      · have h := not_lt.1 h
        have h' := not_lt.1 h'
        by_cases h2 : lo ≥ hi
        · rw [if_neg (not_lt.2 h), if_neg (not_lt.2 h'), if_pos h2]
          refine iff_of_false (fun e => by cases e) (fun ⟨_, _, v, h3, h4⟩ => ?_)
          exact absurd (lt_of_lt_of_le h3 h4) (not_lt.2 h2)
        · simp only [not_lt.2 h, not_lt.2 h', if_false, h2, true_iff]
          exact ⟨h, h', hi, by rw [abs_of_nonneg h']; exact ⟨not_le.1 h2, le_refl _⟩⟩
  · unfold Checker.mkInIn
    by_cases h : lo < 0
    · simp [h, not_le.2 h]
    · by_cases h' : hi < 0
      · simp [h, h', not_le.2 h']
      · have h := not_lt.1 h
        have h' := not_lt.1 h'
        by_cases h2 : lo > hi
        · rw [if_neg (not_lt.2 h), if_neg (not_lt.2 h'), if_pos h2]
          refine iff_of_false (fun e => by cases e) (fun ⟨_, _, v, h3, h4⟩ => ?_)
          exact absurd (le_trans h3 h4) (not_le.2 h2)
        · simp only [not_lt.2 h, not_lt.2 h', if_false, h2, true_iff]
          exact ⟨h, h', hi, by rw [abs_of_nonneg h']; exact ⟨not_lt.1 h2, le_refl _⟩⟩
  · unfold Checker.mkExEx
    by_cases h : lo < 0
    · simp [h, not_le.2 h]
    · by_cases h' : hi < 0
      · simp [h, h', not_le.2 h']
      · have h := not_lt.1 h
        have h' := not_lt.1 h'
        by_cases h2 : lo ≥ hi
        · rw [if_neg (not_lt.2 h), if_neg (not_lt.2 h'), if_pos h2]
          refine iff_of_false (fun e => by cases e) (fun ⟨_, _, v, h3, h4⟩ => ?_)
          exact absurd (lt_trans h3 h4) (not_lt.2 h2)
        · simp only [not_lt.2 h, not_lt.2 h', if_false, h2, true_iff]
          obtain ⟨v, hv1, hv2⟩ := exists_between (not_le.1 h2)
          exact ⟨h, h', v, by rw [abs_of_nonneg (h.trans hv1.le)]; exact ⟨hv1, hv2⟩⟩

/-- C29: what a rejected construction does: it throws, it never yields a checker. -/
theorem C29_constructor_throws [Field R] [LinearOrder R] (t lo hi : R) :
    (t < 0 → ∃ s, Checker.mkAbove t = .error (.throw s)) ∧
    (lo < 0 ∨ hi < 0 ∨ hi ≤ lo → ∃ s, Checker.mkExIn lo hi = .error (.throw s)) ∧
    (lo < 0 ∨ hi < 0 ∨ hi < lo → ∃ s, Checker.mkInIn lo hi = .error (.throw s)) ∧
    (lo < 0 ∨ hi < 0 ∨ hi ≤ lo → ∃ s, Checker.mkExEx lo hi = .error (.throw s)) := by
  refine ⟨fun h => ⟨_, by simp only [Checker.mkAbove, h, if_true]; rfl⟩, ?_, ?_, ?_⟩
  all_goals
    intro h
    by_cases h1 : lo < 0
    · exact ⟨_, by simp only [Checker.mkExIn, Checker.mkInIn, Checker.mkExEx, h1, if_true]; rfl⟩
    · by_cases h2 : hi < 0
      · exact ⟨_, by simp only [Checker.mkExIn, Checker.mkInIn, Checker.mkExEx, h1, h2, if_true, if_false]; rfl⟩
      · have h3 := (h.resolve_left h1).resolve_left h2
        exact ⟨_, by simp only [Checker.mkExIn, Checker.mkInIn, Checker.mkExEx, h1, h2, ge_iff_le, gt_iff_lt, h3, if_true, if_false]; rfl⟩

example : Checker.mkExIn (1 : Int) 3 = .ok (.exIn 1 3) ∧ (Checker.exIn (1 : Int) 3).accepts (-3) = true ∧
    (Checker.exIn (1 : Int) 3).accepts 1 = false := by decide

/-! ### C30 -/

/-- C30: for `sigD ≤ sigF` (in particular `<`), a value with |v| > sigD is accepted by exactly one of the
checkers (> sigF) and (sigD, sigF], a value with |v| ≤ sigD by neither. -/
theorem C30_exactly_one [LinearOrder R] [AddGroup R] (sigD sigF v : R) (h : sigD ≤ sigF) :
    (sigD < |v| → xor ((Checker.above sigF).accepts v) ((Checker.exIn sigD sigF).accepts v) = true) ∧
    (|v| ≤ sigD → (Checker.above sigF).accepts v = false ∧ (Checker.exIn sigD sigF).accepts v = false) := by
  constructor
  · intro hv
    by_cases h2 : sigF < |v|
    · simp [Checker.accepts, h2, not_le.2 h2]
    · simp [Checker.accepts, h2, hv, not_lt.1 h2]
  · intro hv
    simp [Checker.accepts, not_lt.2 hv, not_lt.2 (hv.trans h)]

/-- C30, whole matrices: splitting a column-major dense matrix into the two sparse parts, combining them to
a two-part matrix and converting it back gives each element with |v| > sigD and 0 for the others: nothing
is lost or duplicated. -/
theorem C30_split_sums_to_thresholded [LinearOrder R] [AddGroup R] (sigD sigF : R) (hs : sigD ≤ sigF)
    (A : Dense R) (r c : Nat) (f : Nat → Nat → R) (hA : A.Is r c f) (ho : A.ori = .col) :
    ∃ S1 S2 X D, Sparse.ofDense (Checker.above sigF).accepts id .col A = .ok S1 ∧
      Sparse.ofDense (Checker.exIn sigD sigF).accepts id .col A = .ok S2 ∧
      Mat.mkTwo (.sparse S1) (.sparse S2) = .ok X ∧ X.toDense = .ok D ∧
      D.Is r c (fun i j => if sigD < |f i j| then f i j else 0) := by
  have part : ∀ k : Checker R, ∃ S, Sparse.ofDense k.accepts id .col A = .ok S ∧ S.ori = .col ∧
      S.Is r c (fun i j => if k.accepts (f i j) then f i j else 0) := by
    intro k
    obtain ⟨S, L, e, h1, h2, -, -, h3⟩ := C12_dense_to_sparse k.accepts id .col A r c f hA ho
    refine ⟨S, e, h1, L, h2, ?_⟩
    intro i j hi hj
    rw [h1]
    have hrun : j < L.length := by rw [h2.runs, h1]; exact hj
    have hmem : L.getD j [] ∈ L := by
      rw [List.getD_eq_getElem?_getD, List.getElem?_eq_getElem hrun]; exact List.getElem_mem hrun
    have hsort := h2.sorted _ hmem
    have key := h3 i j hi hj
    simp only [Ori.majorIx, Ori.minorIx] at key ⊢
    beta_reduce
    by_cases hk : k.accepts (f i j) = true
    · rw [if_pos hk]
      have hin := (key (f i j)).2 ⟨hk, rfl⟩
      unfold entryAt
      cases hfd : (L.getD j []).find? (fun e => e.1 == i) with
      | none =>
        have := List.find?_eq_none.1 hfd _ hin
        simp at this
      | some e =>
        have h4 := List.find?_some hfd
        have h5 := List.mem_of_find?_eq_some hfd
        have h6 : e.1 = i := by simpa using h4
        have := (key e.2).1 (by rw [← h6]; exact h5)
        exact this.2.symm
    · rw [if_neg hk]
      unfold entryAt
      cases hfd : (L.getD j []).find? (fun e => e.1 == i) with
      | none => rfl
      | some e =>
        have h4 := List.find?_some hfd
        have h5 := List.mem_of_find?_eq_some hfd
        have h6 : e.1 = i := by simpa using h4
        have := (key e.2).1 (by rw [← h6]; exact h5)
        exact absurd this.1 hk
  obtain ⟨S1, e1, o1, i1⟩ := part (.above sigF)
  obtain ⟨S2, e2, o2, i2⟩ := part (.exIn sigD sigF)
  have hX : (Mat.two (.sparse S1) (.sparse S2)).Is r c (fun i j => if sigD < |f i j| then f i j else 0) := by
    refine ⟨_, _, ⟨i1, o1⟩, ⟨i2, o2⟩, ?_⟩
    intro i j _ _
    by_cases h1 : sigF < |f i j|
    · simp [Checker.accepts, h1, lt_of_le_of_lt hs h1, not_le.2 h1]
    · by_cases h2 : sigD < |f i j|
      · simp [Checker.accepts, h1, h2, not_lt.1 h1]
      · simp [Checker.accepts, h1, h2]
  obtain ⟨D, e, h1, -⟩ := Mat.toDense_sat hX
  refine ⟨S1, S2, .two (.sparse S1) (.sparse S2), D, e1, e2, ?_, e, h1⟩
  simp [Mat.mkTwo, assertThat, SMat.rows, SMat.cols, i1.rows, i1.cols, i2.rows, i2.cols]

example : ∃ S1 S2 : Sparse Int, Sparse.ofDense (Checker.above 4).accepts id .col (Dense.ofFn .col 2 2 (fun i j => (3 * i + 5 * j : Int))) = .ok S1 ∧
    Sparse.ofDense (Checker.exIn 2 4).accepts id .col (Dense.ofFn .col 2 2 (fun i j => (3 * i + 5 * j : Int))) = .ok S2 ∧
    S1.value = [some 5, some 8] ∧ S2.value = [some 3] := ⟨_, _, rfl, rfl, rfl, rfl⟩

/-! ### C31 -/

theorem lexLt_irrefl [LinearOrder R] (l : List R) : lexLt l l = false := by
  induction l with
  | nil => rfl
  | cons a l ih => simp [lexLt, ih]

theorem lexLt_trans [LinearOrder R] (a b c : List R) (h1 : lexLt a b = true) (h2 : lexLt b c = true) :
    lexLt a c = true := by
  induction a generalizing b c with
  | nil => simp [lexLt] at h1
  | cons x a ih =>
    cases b with
    | nil => simp [lexLt] at h1
    | cons y b =>
      cases c with
      | nil => simp [lexLt] at h2
      | cons z c =>
        simp only [lexLt, Bool.or_eq_true, decide_eq_true_eq, Bool.and_eq_true, Bool.not_eq_true', decide_eq_false_iff_not, not_lt] at *
        rcases h1 with h1 | ⟨h1, h1'⟩
        · rcases h2 with h2 | ⟨h2, h2'⟩
          · exact Or.inl (h1.trans h2)
          · exact Or.inl (lt_of_lt_of_le h1 h2)
        · rcases h2 with h2 | ⟨h2, h2'⟩
          · exact Or.inl (lt_of_le_of_lt h1 h2)
          · exact Or.inr ⟨h1.trans h2, ih _ _ h1' h2'⟩

theorem lexLt_total [LinearOrder R] (a b : List R) (hl : a.length = b.length) (h1 : lexLt a b = false) (h2 : lexLt b a = false) :
    a = b := by
  induction a generalizing b with
  | nil => cases b with
    | nil => rfl
    | cons y b => simp at hl
  | cons x a ih =>
    cases b with
    | nil => simp at hl
    | cons y b =>
      simp only [lexLt, Bool.or_eq_false_iff, decide_eq_false_iff_not, not_lt, Bool.and_eq_false_iff, Bool.not_eq_false',
        decide_eq_true_eq] at h1 h2
      have hxy : x = y := le_antisymm h2.1 h1.1
      subst hxy
      have a1 := h1.2.resolve_left (lt_irrefl _)
      have a2 := h2.2.resolve_left (lt_irrefl _)
      rw [ih b (by simpa using hl) a1 a2]

/-- C31 for the checkers registered in `ValueCheckerTypeList` (threshold type `double`): the comparison
never misbehaves, is irreflexive and transitive, incomparability is transitive, and two checkers neither of
which is less than the other are the same checker, so they accept the same values.  (Outside the claim: checkers with
another threshold type, e.g. the `AbsoluteValueRangeChecker<float>` that is the default of
`Matrix<Sparse,float>`, see `C31_unregistered_is_ub`.) -/
theorem C31_strict_weak_order [LinearOrder R] [AddGroup R] (a b c : TChecker R) (ha : a.isDouble = true)
    (hb : b.isDouble = true) (hc : c.isDouble = true) :
    (∃ x, a.less b = .ok x) ∧ a.less a = .ok false ∧
    (a.less b = .ok true → b.less c = .ok true → a.less c = .ok true) ∧
    (a.less b = .ok false → b.less a = .ok false → b.less c = .ok false → c.less b = .ok false →
      a.less c = .ok false ∧ c.less a = .ok false) ∧
    (a.less b = .ok false → b.less a = .ok false → ∀ v, a.c.accepts v = b.c.accepts v) := by
  have blen : ∀ x y : Checker R, x.kind = y.kind → x.bounds.length = y.bounds.length := by
    intro x y; cases x <;> cases y <;> simp [Checker.kind, Checker.bounds]
  have binj : ∀ x y : Checker R, x.kind = y.kind → x.bounds = y.bounds → x = y := by
    intro x y; cases x <;> cases y <;> simp [Checker.kind, Checker.bounds]
  have form : ∀ x y : TChecker R, x.isDouble = true → y.isDouble = true →
      x.less y = .ok (decide (x.c.kind < y.c.kind) || (decide (x.c.kind = y.c.kind) && lexLt x.c.bounds y.c.bounds)) := by
    intro x y hx hy
    simp only [TChecker.less, TChecker.id, hx, hy, if_true, true_and]
    rcases lt_trichotomy x.c.kind y.c.kind with h | h | h
    · simp [h]
    · simp [h]
    · simp [h, Nat.ne_of_gt h, not_lt.2 h.le]
  have eqv : ∀ x y : TChecker R, x.isDouble = true → y.isDouble = true → x.less y = .ok false → y.less x = .ok false → x = y := by
    intro x y hx hy h1 h2
    rw [form x y hx hy] at h1
    rw [form y x hy hx] at h2
    injection h1 with h1
    injection h2 with h2
    simp only [Bool.or_eq_false_iff, decide_eq_false_iff_not, not_lt, Bool.and_eq_false_iff] at h1 h2
    have hk : x.c.kind = y.c.kind := le_antisymm h2.1 h1.1
    have h3 := h1.2.resolve_left (by simp [hk])
    have h4 := h2.2.resolve_left (by simp [hk])
    have := binj _ _ hk (lexLt_total _ _ (blen _ _ hk) h3 h4)
    cases x; cases y; simp_all
  have selfF : a.less a = .ok false := by rw [form a a ha ha]; simp [lexLt_irrefl]
  refine ⟨⟨_, form a b ha hb⟩, selfF, ?_, ?_, ?_⟩
  · rw [form a b ha hb, form b c hb hc, form a c ha hc]
    intro h1 h2
    injection h1 with h1
    injection h2 with h2
    congr 1
    simp only [Bool.or_eq_true, decide_eq_true_eq, Bool.and_eq_true] at *
    rcases h1 with h1 | ⟨h1, h1'⟩
    · rcases h2 with h2 | ⟨h2, h2'⟩
      · exact Or.inl (h1.trans h2)
      · exact Or.inl (by omega)
    · rcases h2 with h2 | ⟨h2, h2'⟩
      · exact Or.inl (by omega)
      · exact Or.inr ⟨by omega, lexLt_trans _ _ _ h1' h2'⟩
  · intro h1 h2 h3 h4
    obtain rfl := eqv a b ha hb h1 h2
    obtain rfl := eqv a c ha hc h3 h4
    exact ⟨selfF, selfF⟩
  · intro h1 h2
    obtain rfl := eqv a b ha hb h1 h2
    intro v; rfl

/-- C31, negative: checkers whose threshold type is not registered all share the id 4; comparing two of
different kinds reads through a wrong type. -/
theorem C31_unregistered_is_ub :
    TChecker.less (R := Int) ⟨false, .above 1⟩ ⟨false, .exIn 1 2⟩ = .error .ub := rfl

example : TChecker.less (R := Int) ⟨true, .exIn 1 2⟩ ⟨true, .exIn 1 3⟩ = .ok true ∧
    TChecker.less (R := Int) ⟨true, .exEx 1 2⟩ ⟨true, .above 7⟩ = .ok false := ⟨rfl, rfl⟩

/-! ### C32 -/

/-- C32, counts: the number of significant elements of a dense matrix is the number of index pairs whose
element is accepted. -/
theorem C32_dense_count [LinearOrder R] [AddGroup R] (chk : Checker R) (A : Dense R) (r c : Nat) (f : Nat → Nat → R) (hA : A.Is r c f) :
    A.countSig chk = .ok (∑ i ∈ Finset.range r, ∑ j ∈ Finset.range c, if chk.accepts (f i j) = true then 1 else 0) :=
  Sparse.count_dense chk.accepts hA

/-- C32, ratio: the occupation of a non-empty dense matrix is defined, is the number of accepted elements
divided by the number of elements, and lies in [0,1].  (Outside the claim: empty matrices, see
`C63_occupation_of_empty_is_nan`.) -/
theorem C32_dense_occupation [Field R] [LinearOrder R] [IsStrictOrderedRing R] (chk : Checker R) (A : Dense R) (r c : Nat)
    (f : Nat → Nat → R) (hA : A.Is r c f) (hr : 0 < r) (hc : 0 < c) :
    ∃ x n, A.occupation chk = .ok (some x) ∧ A.countSig chk = .ok n ∧ x = (n : R) / ((r * c : Nat) : R) ∧ 0 ≤ x ∧ x ≤ 1 := by
  have hn := C32_dense_count chk A r c f hA
  have hpos : 0 < r * c := Nat.mul_pos hr hc
  refine ⟨_, _, ?_, hn, rfl, ?_, ?_⟩
  · simp only [Dense.occupation, hn, bind_ok', occupationOf, hA.size, if_neg (Nat.ne_of_gt hpos)]
    rfl
  · exact div_nonneg (Nat.cast_nonneg _) (Nat.cast_nonneg _)
  · rw [div_le_one (by exact_mod_cast hpos)]
    have : (∑ i ∈ Finset.range r, ∑ j ∈ Finset.range c, if chk.accepts (f i j) = true then 1 else 0) ≤ r * c := by
      calc _ ≤ ∑ i ∈ Finset.range r, ∑ j ∈ Finset.range c, 1 :=
            Finset.sum_le_sum fun i _ => Finset.sum_le_sum fun j _ => by split <;> simp
        _ = r * c := by simp
    exact_mod_cast this

/-- C32, antitone: a larger threshold never gives a larger count or occupation. -/
theorem C32_antitone [Field R] [LinearOrder R] [IsStrictOrderedRing R] (t t' : R) (ht : t ≤ t') (A : Dense R) (r c : Nat)
    (f : Nat → Nat → R) (hA : A.Is r c f) (hr : 0 < r) (hc : 0 < c) :
    ∃ n n' x x', A.countSig (.above t) = .ok n ∧ A.countSig (.above t') = .ok n' ∧ n' ≤ n ∧
      A.occupation (.above t) = .ok (some x) ∧ A.occupation (.above t') = .ok (some x') ∧ x' ≤ x := by
  obtain ⟨x, n, e, hn, hx, -, -⟩ := C32_dense_occupation (.above t) A r c f hA hr hc
  obtain ⟨x', n', e', hn', hx', -, -⟩ := C32_dense_occupation (.above t') A r c f hA hr hc
  have hle : n' ≤ n := by
    have a := C32_dense_count (.above t) A r c f hA
    have b := C32_dense_count (.above t') A r c f hA
    rw [hn] at a; rw [hn'] at b
    injection a with a; injection b with b
    rw [a, b]
    refine Finset.sum_le_sum fun i _ => Finset.sum_le_sum fun j _ => ?_
    by_cases h : t' < |f i j|
    · simp [Checker.accepts, h, lt_of_le_of_lt ht h]
    · simp [Checker.accepts, h]
  refine ⟨n, n', x, x', hn, hn', hle, e, e', ?_⟩
  rw [hx, hx']
  exact div_le_div_of_nonneg_right (by exact_mod_cast hle) (Nat.cast_nonneg _)

/-- C32, sparse matrices whose value array holds exactly the stored elements (all made from dense ones): the
count is that of the stored values.  (Outside the claim: matrices with spare cells – results of sums and products –
for which counting reads uninitialised memory, see `C64_spare_cells_occupation_is_ub`.) -/
theorem C32_sparse_count [LinearOrder R] [AddGroup R] (chk : Checker R) (S : Sparse R) (r c : Nat) (L : List (List (Nat × R)))
    (hS : S.Valid r c L) (ht : S.value.length = L.flatten.length) :
    S.countSig chk = .ok (L.flatten.countP (fun e => chk.accepts e.2)) := by
  have hc : ∀ t, t < S.value.length → S.value.read t = .ok ((L.flatten.map Prod.snd).getD t 0) := by
    intro t h
    rw [Buf.read_ok]
    have h' : t < L.flatten.length := by omega
    have := (hS.cells t _ (List.getElem?_eq_getElem h')).2
    rw [this, List.getD_eq_getElem?_getD, List.getElem?_map, List.getElem?_eq_getElem h']
    rfl
  rw [Sparse.countSig, Sparse.countBuf_sat chk.accepts hc, ht]
  congr 1
  have gen : ∀ l : List (Nat × R), (∑ t ∈ Finset.range l.length, if chk.accepts ((l.map Prod.snd).getD t 0) = true then 1 else 0)
      = l.countP (fun e => chk.accepts e.2) := by
    intro l
    induction l using List.reverseRecOn with
    | nil => rfl
    | append_singleton l e ih =>
      rw [List.length_append, List.length_singleton, Finset.sum_range_succ, List.countP_append, ← ih]
      congr 1
      · refine Finset.sum_congr rfl fun t ht => ?_
        have : t < l.length := Finset.mem_range.1 ht
        simp [List.getD_eq_getElem?_getD, List.getElem?_append_left, this]
      · simp [List.getD_eq_getElem?_getD, List.countP_cons]
  exact gen _

/-- C63, negative: the occupation of an empty matrix is 0/0 = NaN, so "occupation ≤ t" is false for every t. -/
theorem C63_occupation_of_empty_is_nan [Field R] [LinearOrder R] [IsStrictOrderedRing R] (chk : Checker R) (A : Dense R) (r c : Nat)
    (f : Nat → Nat → R) (hA : A.Is r c f) (h0 : r = 0 ∨ c = 0) :
    A.occupation chk = .ok none ∧ ∀ t : R, leNaN (none : Option R) t = false := by
  have hz : r * c = 0 := by rcases h0 with h | h <;> simp [h]
  have hn := C32_dense_count chk A r c f hA
  constructor
  · simp [Dense.occupation, hn, bind_ok', occupationOf, hA.size, hz]
  · intro t; rfl

/-- C64, negative: counting the significant elements of a sum of sparse matrices reads uninitialised
cells. -/
theorem C64_spare_cells_occupation_is_ub :
    ∃ D, Sparse.binop (· + ·) id exSparse exSparse (Sparse.empty .col) = .ok D ∧
      D.countSig (.above (0 : Int)) = .error .ub := ⟨_, rfl, rfl⟩

example : Dense.occupation (Checker.above (2 : ℚ)) (Dense.ofFn .col 2 2 (fun i j => 3 * i + 5 * j)) = .ok (some (3/4)) := by
  have h : Dense.countSig (Checker.above (2 : ℚ)) (Dense.ofFn .col 2 2 (fun i j => 3 * i + 5 * j)) = .ok 3 := by
    rw [C32_dense_count _ _ 2 2 _ (Dense.ofFn_is ..)]
    simp [Finset.sum_range_succ, Checker.accepts]
    norm_num [abs_of_pos]
  simp only [Dense.occupation, h, bind_ok']
  rfl

end BB
