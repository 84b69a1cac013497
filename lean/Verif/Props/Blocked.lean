import Verif.Lemmas.BlockedMul
import Verif.Props.Converter
import Mathlib.Algebra.BigOperators.Ring.Finset
import Mathlib.Algebra.Order.BigOperators.Group.Finset
import Mathlib.Algebra.Order.BigOperators.Ring.Finset
import Mathlib.Tactic.Ring
import Mathlib.Tactic.Linarith

/-!
# C15, C27, C28: blocked matrices
-/

namespace BB

variable {R : Type}

/-- A partition into non-empty blocks whose sizes fit the machine types of the iterators. -/
structure Partition (rs cs : List Nat) : Prop where
  rowPos : ∀ x ∈ rs, 0 < x
  colPos : ∀ x ∈ cs, 0 < x
  rowsFit : rs.sum + 1 < 2 ^ 64
  colsFit : ∀ x ∈ cs, x < 2 ^ 31

section aux

theorem getD_mem {l : List Nat} {i : Nat} (hi : i < l.length) : l.getD i 0 ∈ l := by
  rw [List.getD_eq_getElem?_getD, List.getElem?_eq_getElem hi]
  exact List.getElem_mem hi

theorem block_is {A : Dense R} {rs cs : List Nat} {f : Nat → Nat → R} (hA : A.Is rs.sum cs.sum f) (ho : A.ori = .col)
    (hp : Partition rs cs) {i j : Nat} (hi : i < rs.length) (hj : j < cs.length) :
    (Src.sub A (rs.getD i 0) (cs.getD j 0) (offs rs i) (offs cs j)).Is (rs.getD i 0) (cs.getD j 0)
      (fun a b => f (offs rs i + a) (offs cs j + b)) :=
  ⟨rfl, rfl, hp.rowPos _ (getD_mem hi), hp.colPos _ (getD_mem hj), ho, _, _, f, hA, offs_le_sum rs hi, offs_le_sum cs hj, hp.rowsFit,
    hp.colsFit _ (getD_mem hj), fun _ _ _ _ => rfl⟩

end aux

/-- C15: for every partition of a dense matrix into non-empty blocks, if the thresholds allow no other type than
dense double, splitting it into blocks and converting the blocked matrix back yields the
original elements. -/
theorem C15_round_trip [Field R] [LinearOrder R] [IsStrictOrderedRing R] (b : Build) (rnd : R → R) (t : Settings R)
    (A : Dense R) (rs cs : List Nat) (f : Nat → Nat → R) (hA : A.Is rs.sum cs.sum f) (ho : A.ori = .col) (hp : Partition rs cs)
    (hD : 0 ≤ t.sigDouble) (hF : 0 ≤ t.sigSingle) (h1 : 1 ≤ t.denseDDouble) (h2 : 1 ≤ t.denseDSingle)
    (hdense : ∀ k, k ≠ Kind.denseD → t.occ k .double < 0) :
    ∃ B D, Blocked.generate b rnd t A rs cs = .ok B ∧ B.Is rs cs f ∧ B.toDense = .ok D ∧ D.Is rs.sum cs.sum f := by
  obtain ⟨B, e, G, hB, hG⟩ := Blocked.generate_sat b rnd t hA (fun x y => y = x) (by
    intro i j hi hj
    have hs := block_is hA ho hp hi hj
    have hr : 0 < rs.getD i 0 := hp.rowPos _ (getD_mem hi)
    have hc : 0 < cs.getD j 0 := hp.colPos _ (getD_mem hj)
    rcases C37_exec_if b (isConvertible t _) (Fulfils t _ _ _)
      (fun k => do return (k, ← convertTo rnd t (.sub A (rs.getD i 0) (cs.getD j 0) (offs rs i) (offs cs j)) k)) typeList (by simp [typeList])
      (fun k _ => isConvertible_eq hs hr hc hD hF k) with ⟨pre, k, post, e1, e2, e3, e4⟩ | ⟨h, -⟩
    · have hk : k = .denseD := by
        by_contra hne
        have := lt_of_le_of_lt e2.1 (hdense k hne)
        exact absurd this (not_lt.2 (div_nonneg (Nat.cast_nonneg _) (Nat.cast_nonneg _)))
      subst hk
      obtain ⟨D, eD, hD', oD⟩ := Src.toDense_sat (.above 0) id hs
      refine ⟨(.denseD, .one (.dense D)), ?_, _, ⟨hD', oD⟩, ?_⟩
      · rw [convertMatrix, e4]; simp only [convertTo, eD, bind_ok']; rfl
      · intro a b' _ _
        by_cases h : (0 : R) < |f (offs rs i + a) (offs cs j + b')|
        · simp [(above_acc _ _).2 h]
        · have h0 := abs_nonpos_iff.1 (not_lt.1 h)
          rw [h0]; simp
    · exfalso
      refine h .denseD (by simp [typeList]) ?_
      have hpos : 0 < rs.getD i 0 * cs.getD j 0 := Nat.mul_pos hr hc
      have : ∀ x : R, (countAbove x (rs.getD i 0) (cs.getD j 0) (fun a b => f (offs rs i + a) (offs cs j + b)) : R) /
          ((rs.getD i 0 * cs.getD j 0 : Nat) : R) ≤ 1 := by
        intro x
        rw [div_le_one (by exact_mod_cast hpos)]
        exact_mod_cast countAbove_le x _ _ _
      exact ⟨(this _).trans h1, (this _).trans h2⟩)
  have hBG : B.Is rs cs f := by
    refine { hB with blocks := fun i j hi hj => ?_ }
    obtain ⟨M, eM, hM⟩ := hB.blocks i j hi hj
    refine ⟨M, eM, hM.congr fun a b' ha hb' => ?_⟩
    have := offs_le_sum rs hi
    have := offs_le_sum cs hj
    exact hG _ _ (by omega) (by omega)
  obtain ⟨D, eD, -, hD'⟩ := Blocked.toDense_sat hBG
  exact ⟨B, D, e, hBG, eD, hD'⟩

/-- The hypotheses of `C15_round_trip` can be met: thresholds that disable all other types. -/
example : let t : Settings ℚ := ⟨1/10, 1/100, -1, -1, -1, -1, -1, -1, -1, -1, -1, -1, -1, -1, 1, 1⟩
    (0 ≤ t.sigDouble ∧ 0 ≤ t.sigSingle ∧ 1 ≤ t.denseDDouble ∧ 1 ≤ t.denseDSingle ∧ ∀ k, k ≠ Kind.denseD → t.occ k .double < 0) ∧
    Partition [2, 1, 3] [1, 4] ∧
    (Dense.ofFn .col 6 5 (fun i j => ((3 * i + j : Nat) : ℚ))).Is [2, 1, 3].sum [1, 4].sum (fun i j => ((3 * i + j : Nat) : ℚ)) := by
  refine ⟨⟨by norm_num, by norm_num, by norm_num, by norm_num, ?_⟩, ⟨by decide, by decide, by decide, by decide⟩, Dense.ofFn_is _ _ _ _⟩
  intro k hk
  cases k <;> first | exact absurd rfl hk | norm_num [Settings.occ]

/-- C27: the product of two blocked matrices whose inner partitions agree (with at least one inner block) is a blocked
matrix with the outer partitions that denotes the matrix product, whatever the runtime types of the
blocks; converting it to dense yields the product.  (Outside the claim: no inner block at all, see
`C63_blocked_no_inner_block_is_ub`.) -/
theorem C27_blocked_product [NonUnitalSemiring R] [DecidableEq R] (A B : Blocked R) (rs ks cs : List Nat) (f g : Nat → Nat → R)
    (hA : A.Is rs ks f) (hB : B.Is ks cs g) (hk : ks ≠ []) :
    ∃ C D, A.mul B = .ok C ∧ C.Is rs cs (fun i j => ∑ l ∈ Finset.range ks.sum, f i l * g l j) ∧
      C.toDense = .ok D ∧ D.Is rs.sum cs.sum (fun i j => ∑ l ∈ Finset.range ks.sum, f i l * g l j) := by
  obtain ⟨C, e, hC⟩ := Blocked.mul_sat hA hB hk
  obtain ⟨D, eD, -, hD⟩ := Blocked.toDense_sat hC
  exact ⟨C, D, e, hC, eD, hD⟩

/-- A blocked matrix of two blocks with different runtime types, a 1×1 dense and a 1×2 zero block. -/
def exBlocked : Blocked Int :=
  ⟨⟨.col, Dim.mk' 1 2, [some (.one (.dense (Dense.ofFn .col 1 1 (fun _ _ => 5)))), some (.one (.zero (Dim.mk' 1 2)))]⟩, 1, 3⟩

theorem exBlocked_is : exBlocked.Is [1] [1, 2] (fun _ j => if j = 0 then 5 else 0) := by
  refine ⟨rfl, rfl, rfl, rfl, rfl, rfl, ?_⟩
  intro i j hi hj
  simp only [List.length_cons, List.length_nil] at hi hj
  obtain rfl : i = 0 := by omega
  rcases j with _ | _ | j
  · refine ⟨_, rfl, Dense.Is.congr (Dense.ofFn_is _ _ _ _) ?_, rfl⟩
    intro a b _ hb
    have : b < 1 := hb
    obtain rfl : b = 0 := by omega
    rfl
  · refine ⟨_, rfl, rfl, rfl, ?_⟩
    intro a b _ _
    simp [offs]
  · omega

/-- C63, negative: multiplying an r×0 by a 0×c grid leaves null pointers in the
result, whose conversion to dense dereferences them. -/
theorem C63_blocked_no_inner_block_is_ub :
    ∃ A B : Blocked Int, A.Is [2] [] (fun _ _ => 0) ∧ B.Is [] [3] (fun _ _ => 0) ∧
      ∃ C, A.mul B = .ok C ∧ C.toDense = .error .ub := by
  refine ⟨⟨⟨.col, Dim.mk' 1 0, []⟩, 2, 0⟩, ⟨⟨.col, Dim.mk' 0 1, []⟩, 0, 3⟩, ⟨rfl, rfl, rfl, rfl, rfl, rfl, ?_⟩,
    ⟨rfl, rfl, rfl, rfl, rfl, rfl, ?_⟩, _, rfl, rfl⟩
  · intro i j _ hj; simp at hj
  · intro i j hi; simp at hi

/-- What blocking does to an element `v`: it is kept, or rounded to single precision (only where |v| is at most the
single-precision significance), or dropped, i.e. set to 0 (only there, too). -/
def Kept [LinearOrder R] [AddGroup R] (rnd : R → R) (t : Settings R) (v w : R) : Prop :=
  w = v ∨ (w = rnd v ∧ |v| ≤ t.sigSingle) ∨ (w = 0 ∧ |v| ≤ t.sigSingle)

/-- C28: for every pair of dense matrices, every partition of the rows of A, of the common dimension and of the
columns of B into non-empty blocks, and every threshold setting with the default policy for the types
that drop large elements, the pipeline blocks-multiply-unblock succeeds and yields the rows(A)×columns(B)
product Ã*B̃, where Ã and B̃ are A and B with each element kept, rounded or dropped under the
significance thresholds. -/
theorem C28_pipeline_partial [Field R] [LinearOrder R] [IsStrictOrderedRing R] (b : Build) (rnd : R → R) (hrnd : rnd 0 = 0) (t : Settings R)
    (A B : Dense R) (rs ks cs : List Nat) (f g : Nat → Nat → R)
    (hA : A.Is rs.sum ks.sum f) (hB : B.Is ks.sum cs.sum g) (hoA : A.ori = .col) (hoB : B.ori = .col)
    (hpA : Partition rs ks) (hpB : Partition ks cs) (hk : ks ≠ [])
    (hD : 0 ≤ t.sigDouble) (hDF : t.sigDouble < t.sigSingle) (h1 : 1 ≤ t.denseDDouble) (h2 : 1 ≤ t.denseDSingle)
    (hz : t.zeroDouble ≤ 0) (hsf : t.sparseFSingle ≤ 0) (hdf : t.denseFSingle ≤ 0) :
    ∃ BA BB BC D, ∃ f' g' : Nat → Nat → R, Blocked.generate b rnd t A rs ks = .ok BA ∧ Blocked.generate b rnd t B ks cs = .ok BB ∧
      BA.mul BB = .ok BC ∧ BC.toDense = .ok D ∧
      (∀ i l, i < rs.sum → l < ks.sum → Kept rnd t (f i l) (f' i l)) ∧
      (∀ l j, l < ks.sum → j < cs.sum → Kept rnd t (g l j) (g' l j)) ∧
      D.Is rs.sum cs.sum (fun i j => ∑ l ∈ Finset.range ks.sum, f' i l * g' l j) := by
  have step : ∀ (X : Dense R) (ps qs : List Nat) (h : Nat → Nat → R), X.Is ps.sum qs.sum h → X.ori = .col → Partition ps qs →
      ∃ BX, Blocked.generate b rnd t X ps qs = .ok BX ∧ ∃ G, BX.Is ps qs G ∧ ∀ i j, i < ps.sum → j < qs.sum → Kept rnd t (h i j) (G i j) := by
    intro X ps qs h hX ho hp
    refine Blocked.generate_sat b rnd t hX (Kept rnd t) ?_
    intro i j hi hj
    obtain ⟨k, M, D, g0, e, hM, -, -, hg⟩ := C36_error_bound_partial b rnd hrnd t X _ _ _ _ _ _ _ (block_is hX ho hp hi hj) hD hDF h1 h2 hz hsf hdf
    refine ⟨(k, M), e, g0, hM, ?_⟩
    intro a b' ha hb'
    rcases hg a b' ha hb' with h | h | ⟨h, h'⟩
    · exact .inl h
    · exact .inr (.inl h)
    · refine .inr (.inr ⟨h, h'.trans ?_⟩)
      split
      · exact le_refl _
      · exact hDF.le
  obtain ⟨BA, eA, f', iA, kA⟩ := step A rs ks f hA hoA hpA
  obtain ⟨BB, eB, g', iB, kB⟩ := step B ks cs g hB hoB hpB
  obtain ⟨BC, D, eC, -, eD, hDI⟩ := C27_blocked_product BA BB rs ks cs f' g' iA iB hk
  exact ⟨BA, BB, BC, D, f', g', eA, eB, eC, eD, kA, kB, hDI⟩

/-- C28, in numbers: without single-precision rounding the result differs from A*B at (i,j) by at most
σ·∑ₗ(|A(i,l)| + |B(l,j)|) with σ the single-precision significance threshold. -/
theorem C28_error_bound_partial [Field R] [LinearOrder R] [IsStrictOrderedRing R] (b : Build) (t : Settings R)
    (A B : Dense R) (rs ks cs : List Nat) (f g : Nat → Nat → R)
    (hA : A.Is rs.sum ks.sum f) (hB : B.Is ks.sum cs.sum g) (hoA : A.ori = .col) (hoB : B.ori = .col)
    (hpA : Partition rs ks) (hpB : Partition ks cs) (hk : ks ≠ [])
    (hD : 0 ≤ t.sigDouble) (hDF : t.sigDouble < t.sigSingle) (h1 : 1 ≤ t.denseDDouble) (h2 : 1 ≤ t.denseDSingle)
    (hz : t.zeroDouble ≤ 0) (hsf : t.sparseFSingle ≤ 0) (hdf : t.denseFSingle ≤ 0) :
    ∃ BA BB BC D h, Blocked.generate b id t A rs ks = .ok BA ∧ Blocked.generate b id t B ks cs = .ok BB ∧
      BA.mul BB = .ok BC ∧ BC.toDense = .ok D ∧ D.Is rs.sum cs.sum h ∧
      ∀ i j, i < rs.sum → j < cs.sum →
        |h i j - ∑ l ∈ Finset.range ks.sum, f i l * g l j| ≤ t.sigSingle * ∑ l ∈ Finset.range ks.sum, (|f i l| + |g l j|) := by
  obtain ⟨BA, BB, BC, D, f', g', eA, eB, eC, eD, kA, kB, hDI⟩ :=
    C28_pipeline_partial b id rfl t A B rs ks cs f g hA hB hoA hoB hpA hpB hk hD hDF h1 h2 hz hsf hdf
  refine ⟨BA, BB, BC, D, _, eA, eB, eC, eD, hDI, ?_⟩
  intro i j hi hj
  rw [← Finset.sum_sub_distrib, Finset.mul_sum]
  refine (Finset.abs_sum_le_sum_abs _ _).trans (Finset.sum_le_sum fun l hl => ?_)
  have hl := Finset.mem_range.1 hl
  have hσ : 0 ≤ t.sigSingle := hD.trans hDF.le
  have close : ∀ v w : R, Kept id t v w → |w - v| ≤ t.sigSingle ∧ |w| ≤ |v| := by
    intro v w h
    rcases h with rfl | ⟨rfl, -⟩ | ⟨rfl, h⟩
    · simp [hσ]
    · simp [hσ]
    · simp [h]
  obtain ⟨a1, -⟩ := close _ _ (kA i l hi hl)
  obtain ⟨b1, b2⟩ := close _ _ (kB l j hl hj)
  have e : f' i l * g' l j - f i l * g l j = (f' i l - f i l) * g' l j + f i l * (g' l j - g l j) := by ring
  rw [e]
  refine (abs_add_le _ _).trans ?_
  rw [abs_mul, abs_mul, mul_add]
  have c1 : |f' i l - f i l| * |g' l j| ≤ t.sigSingle * |g l j| := mul_le_mul a1 b2 (abs_nonneg _) hσ
  have c2 : |f i l| * |g' l j - g l j| ≤ t.sigSingle * |f i l| := by
    rw [mul_comm]; exact mul_le_mul_of_nonneg_right b1 (abs_nonneg _)
  linarith

/-- Blocking with the default occupation thresholds and both significance thresholds 0 keeps every element. -/
theorem generate_exact [Field R] [LinearOrder R] [IsStrictOrderedRing R] (b : Build) (rnd : R → R)
    (A : Dense R) (rs cs : List Nat) (f : Nat → Nat → R) (hA : A.Is rs.sum cs.sum f) (ho : A.ori = .col) (hp : Partition rs cs) :
    ∃ B, Blocked.generate b rnd (Settings.default 0 0) A rs cs = .ok B ∧ B.Is rs cs f := by
  have h01 : ∀ n m : Nat, (n : R) / (m : R) ≤ 0 → (0:R) < m → n = 0 := fun n m h hm => ratio_nonpos (by exact_mod_cast hm) (le_refl _) h
  obtain ⟨B, e, G, hB, hG⟩ := Blocked.generate_sat b rnd (Settings.default 0 0) hA (fun x y => y = x) (by
    intro i j hi hj
    have hs := block_is hA ho hp hi hj
    have hr : 0 < rs.getD i 0 := hp.rowPos _ (getD_mem hi)
    have hc : 0 < cs.getD j 0 := hp.colPos _ (getD_mem hj)
    have hpos : (0 : R) < ((rs.getD i 0 * cs.getD j 0 : Nat) : R) := by exact_mod_cast Nat.mul_pos hr hc
    rcases C37_exec_if b (isConvertible (Settings.default 0 0) _) (Fulfils (Settings.default 0 0) _ _ _)
      (fun k => do return (k, ← convertTo rnd (Settings.default 0 0) (.sub A (rs.getD i 0) (cs.getD j 0) (offs rs i) (offs cs j)) k)) typeList (by simp [typeList])
      (fun k _ => isConvertible_eq hs hr hc (le_refl _) (le_refl _) k) with ⟨pre, k, post, e1, e2, e3, e4⟩ | ⟨h, -⟩
    · have zero_of : (countAbove (0:R) (rs.getD i 0) (cs.getD j 0) (fun a b => f (offs rs i + a) (offs cs j + b)) : R) /
          ((rs.getD i 0 * cs.getD j 0 : Nat) : R) ≤ 0 → Fulfils (Settings.default (0:R) 0) (rs.getD i 0) (cs.getD j 0)
            (fun a b => f (offs rs i + a) (offs cs j + b)) .zero := fun h => ⟨h, h⟩
      have sparseD_of : (countAbove (0:R) (rs.getD i 0) (cs.getD j 0) (fun a b => f (offs rs i + a) (offs cs j + b)) : R) /
          ((rs.getD i 0 * cs.getD j 0 : Nat) : R) ≤ 1/5 → Fulfils (Settings.default (0:R) 0) (rs.getD i 0) (cs.getD j 0)
            (fun a b => f (offs rs i + a) (offs cs j + b)) .sparseD := fun h => ⟨h, h⟩
      have before : ∀ k', k' ∈ pre → ¬ Fulfils (Settings.default (0:R) 0) (rs.getD i 0) (cs.getD j 0) (fun a b => f (offs rs i + a) (offs cs j + b)) k' := e3
      have idx : ∀ k', typeList.idxOf k' < typeList.idxOf k → k' ∈ pre := by
        intro k' hlt
        by_contra hn
        have hmem : k ∉ pre := fun hm => e3 k hm e2
        rw [e1, List.idxOf_append_of_notMem hmem, List.idxOf_append_of_notMem hn, List.idxOf_cons_self] at hlt
        omega
      cases k with
      | zero =>
        refine ⟨(.zero, .one (.zero (Dim.mk' (rs.getD i 0) (cs.getD j 0)))), by rw [convertMatrix, e4]; rfl, fun _ _ => 0, ⟨rfl, rfl, fun _ _ _ _ => rfl⟩, ?_⟩
        intro a b' ha hb'
        have := countAbove_zero (h01 _ _ e2.1 hpos) ha hb'
        exact (abs_nonpos_iff.1 this).symm
      | sparseF => exact absurd (zero_of e2.2) (before _ (idx _ (by decide)))
      | denseF => exact absurd (zero_of e2.2) (before _ (idx _ (by decide)))
      | sparseD =>
        obtain ⟨S, eS, hS, oS⟩ := Src.toSparse_sat (.above (0:R)) id hs
        refine ⟨(.sparseD, .one (.sparse S)), ?_, _, ⟨hS, oS⟩, ?_⟩
        · rw [convertMatrix, e4]
          simp only [convertTo, Settings.sig, Settings.default, mkAbove_ok (le_refl _), eS, bind_ok']; rfl
        · intro a b' _ _
          by_cases h : (0 : R) < |f (offs rs i + a) (offs cs j + b')|
          · simp [(above_acc _ _).2 h]
          · have h0 := abs_nonpos_iff.1 (not_lt.1 h)
            rw [h0]; simp
      | multSS => exact absurd (sparseD_of e2.2) (before _ (idx _ (by decide)))
      | multSD => exact absurd (sparseD_of e2.2) (before _ (idx _ (by decide)))
      | denseD =>
        obtain ⟨D, eD, hD', oD⟩ := Src.toDense_sat (.above 0) id hs
        refine ⟨(.denseD, .one (.dense D)), ?_, _, ⟨hD', oD⟩, ?_⟩
        · rw [convertMatrix, e4]; simp only [convertTo, eD, bind_ok']; rfl
        · intro a b' _ _
          by_cases h : (0 : R) < |f (offs rs i + a) (offs cs j + b')|
          · simp [(above_acc _ _).2 h]
          · have h0 := abs_nonpos_iff.1 (not_lt.1 h)
            rw [h0]; simp
    · exfalso
      refine h .denseD (by simp [typeList]) ?_
      have : ∀ x : R, (countAbove x (rs.getD i 0) (cs.getD j 0) (fun a b => f (offs rs i + a) (offs cs j + b)) : R) /
          ((rs.getD i 0 * cs.getD j 0 : Nat) : R) ≤ 1 := by
        intro x
        rw [div_le_one hpos]
        exact_mod_cast countAbove_le x _ _ _
      exact ⟨this _, this _⟩)
  refine ⟨B, e, { hB with blocks := fun i j hi hj => ?_ }⟩
  obtain ⟨M, eM, hM⟩ := hB.blocks i j hi hj
  refine ⟨M, eM, hM.congr fun a b' ha hb' => ?_⟩
  have := offs_le_sum rs hi
  have := offs_le_sum cs hj
  exact hG _ _ (by omega) (by omega)

/-- C28, exact case: with both significance thresholds 0 and the default occupation thresholds, the pipeline returns
exactly A*B, for every partition and whatever `double → float` rounding does. -/
theorem C28_zero_thresholds_partial [Field R] [LinearOrder R] [IsStrictOrderedRing R] (b : Build) (rnd : R → R)
    (A B : Dense R) (rs ks cs : List Nat) (f g : Nat → Nat → R)
    (hA : A.Is rs.sum ks.sum f) (hB : B.Is ks.sum cs.sum g) (hoA : A.ori = .col) (hoB : B.ori = .col)
    (hpA : Partition rs ks) (hpB : Partition ks cs) (hk : ks ≠ []) :
    ∃ BA BB BC D, Blocked.generate b rnd (Settings.default 0 0) A rs ks = .ok BA ∧
      Blocked.generate b rnd (Settings.default 0 0) B ks cs = .ok BB ∧ BA.mul BB = .ok BC ∧ BC.toDense = .ok D ∧
      D.Is rs.sum cs.sum (fun i j => ∑ l ∈ Finset.range ks.sum, f i l * g l j) := by
  obtain ⟨BA, eA, iA⟩ := generate_exact b rnd A rs ks f hA hoA hpA
  obtain ⟨BB, eB, iB⟩ := generate_exact b rnd B ks cs g hB hoB hpB
  obtain ⟨BC, D, eC, -, eD, hDI⟩ := C27_blocked_product BA BB rs ks cs f g iA iB hk
  exact ⟨BA, BB, BC, D, eA, eB, eC, eD, hDI⟩

/-- C28, negative: with *all* thresholds (also the occupation thresholds) 0 no type qualifies for a block with
non-zero elements and the pipeline aborts. -/
theorem C28_all_zero_thresholds_fail :
    (Blocked.generate .debug id ⟨0, 0, 0, 0, 0, 0, 0, 0, 0, 0, 0, 0, 0, 0, 0, 0⟩ (Dense.ofFn .col 1 1 (fun _ _ => (1 : ℚ))) [1] [1]).isOk = false := by
  decide +kernel

example : Partition [2, 1] [3] ∧ Partition [3] [1, 1] := by
  constructor <;> constructor <;> decide

end BB
