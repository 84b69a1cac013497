import Verif.Lemmas.Float
import Verif.Props.Blocked

/-!
# C92 – C95: rounding arithmetic

No theorem here assumes that addition is associative or that multiplication distributes.
-/

namespace BB

variable {R : Type}

/-! ### C92: storage kinds do not influence the rounding -/

/-- C92: whatever the storage kinds of the operands, element (i,j) of the product is the left-to-right accumulation
`((0 + f i 0 * g 0 j) + f i 1 * g 1 j) + …` of rounded products. -/
theorem C92_product_order [Arith R] [DecidableEq R] (A B : SMat R) (m k n : Nat) (f g : Nat → Nat → R)
    (hA : A.Is m k f) (hB : B.Is k n g) :
    ∃ C, SMat.mul A B = .ok C ∧ C.Is m n (fun i j => dotSeq f g k i j) :=
  SMat.mul_seq hA hB

/-- C92: products of the same matrices stored in different ways agree in every element, exactly. -/
theorem C92_product_kinds [Arith R] [DecidableEq R] (A A' B B' : SMat R) (m k n : Nat) (f g : Nat → Nat → R)
    (hA : A.Is m k f) (hA' : A'.Is m k f) (hB : B.Is k n g) (hB' : B'.Is k n g) :
    ∃ C C' D D', SMat.mul A B = .ok C ∧ SMat.mul A' B' = .ok C' ∧ Mat.denseOf C = .ok D ∧ Mat.denseOf C' = .ok D' ∧
      (∀ i j, i < m → j < n → ∃ x, D.get i j = .ok x ∧ D'.get i j = .ok x) := by
  obtain ⟨C, e, hC⟩ := SMat.mul_seq hA hB
  obtain ⟨C', e', hC'⟩ := SMat.mul_seq hA' hB'
  obtain ⟨D, d, hD⟩ := Mat.denseOf_sat hC
  obtain ⟨D', d', hD'⟩ := Mat.denseOf_sat hC'
  exact ⟨C, C', D, D', e, e', d, d', fun i j hi hj => ⟨_, hD.1.elems i j hi hj, hD'.1.elems i j hi hj⟩⟩

/-- C92: sums of the same matrices stored in different ways agree in every element, exactly: each is the rounded sum of
the two elements. -/
theorem C92_sum_kinds [CommArith R] (A B : SMat R) (r c : Nat) (f g : Nat → Nat → R) (hA : A.Is r c f) (hB : B.Is r c g) :
    ∃ C D, SMat.binop (· + ·) id A B = .ok C ∧ Mat.denseOf C = .ok D ∧
      ∀ i j, i < r → j < c → D.get i j = .ok (f i j + g i j) := by
  obtain ⟨C, e, hC⟩ := SMat.binop_add_seq CommArith.add_comm' hA hB
  obtain ⟨D, d, hD⟩ := Mat.denseOf_sat hC
  exact ⟨C, D, e, d, hD.1.elems⟩

/-- The sums over the inner blocks, each accumulated from left to right, accumulated from left to right. -/
def blockDot [Zero R] [Add R] [Mul R] (f g : Nat → Nat → R) (ks : List Nat) (I J : Nat) : R :=
  (List.range ks.length).foldl (fun s q =>
    s + dotSeq (fun i x => f i (offs ks q + x)) (fun x j => g (offs ks q + x) j) (ks.getD q 0) I J) 0

/-- Every block is a dense, sparse or zero matrix, none has two parts. -/
def Blocked.Single (B : Blocked R) (nr nc : Nat) : Prop :=
  ∀ i j, i < nr → j < nc → ∃ S, B.grid.get i j = .ok (.one S)

/-- C92: the product of blocked matrices depends on the partition of the inner dimension but not on the kinds of the
blocks. -/
theorem C92_blocked_order [CommArith R] [DecidableEq R] (A B : Blocked R) (rs ks cs : List Nat) (f g : Nat → Nat → R)
    (hA : A.Is rs ks f) (hA1 : A.Single rs.length ks.length) (hB : B.Is ks cs g) (hB1 : B.Single ks.length cs.length)
    (hk : ks ≠ []) :
    ∃ C D, A.mul B = .ok C ∧ C.Is rs cs (blockDot f g ks) ∧ C.toDense = .ok D ∧ D.Is rs.sum cs.sum (blockDot f g ks) := by
  have hk0 : 0 < ks.length := List.length_pos_iff.2 hk
  let term : Nat → Nat → Nat → R := fun q I J =>
    dotSeq (fun i x => f i (offs ks q + x)) (fun x j => g (offs ks q + x) j) (ks.getD q 0) I J
  let part : Nat → Nat → Nat → R := fun l I J => (List.range l).foldl (fun s q => s + term q I J) 0
  have psucc : ∀ l I J, part (l+1) I J = part l I J + term l I J := by
    intro l I J; simp [part, List.range_succ]
  have gA : A.Grid rs.length ks.length (fun i l M => ∃ S, M = .one S ∧
      S.Is (rs.getD i 0) (ks.getD l 0) (fun a b => f (offs rs i + a) (offs ks l + b))) := by
    refine ⟨hA.ori, hA.rows, hA.cols, hA.alloc, fun i j hi hj => ?_⟩
    obtain ⟨M, e, hM⟩ := hA.blocks i j hi hj
    obtain ⟨S, e'⟩ := hA1 i j hi hj
    rw [e] at e'; cases e'
    exact ⟨_, e, S, rfl, hM⟩
  have gB : B.Grid ks.length cs.length (fun i l M => ∃ S, M = .one S ∧
      S.Is (ks.getD i 0) (cs.getD l 0) (fun a b => g (offs ks i + a) (offs cs l + b))) := by
    refine ⟨hB.ori, hB.rows, hB.cols, hB.alloc, fun i j hi hj => ?_⟩
    obtain ⟨M, e, hM⟩ := hB.blocks i j hi hj
    obtain ⟨S, e'⟩ := hB1 i j hi hj
    rw [e] at e'; cases e'
    exact ⟨_, e, S, rfl, hM⟩
  obtain ⟨C, e, hu1, hu2, hC⟩ := Blocked.mul_gen
    (fun i j l S => S.Is (rs.getD i 0) (cs.getD j 0) (fun a b => part l (offs rs i + a) (offs cs j + b))) gA gB hk0
    (by
      rintro i j _ _ hi hj ⟨SA, rfl, hSA⟩ ⟨SB, rfl, hSB⟩
      refine Sat.mono (SMat.mul_seq hSA hSB) fun P hP => SMat.Is.congr hP (fun a b _ _ => ?_)
      rw [psucc]
      show _ = 0 + _
      rw [zero_add]
      rfl)
    (by
      rintro i j l S _ _ hi hj hl hS ⟨SA, rfl, hSA⟩ ⟨SB, rfl, hSB⟩
      refine Sat.mono (SMat.mul_seq hSA hSB) fun P hP => ?_
      refine Sat.mono (SMat.binop_add_seq CommArith.add_comm' hS hP) fun T hT => SMat.Is.congr hT (fun a b _ _ => ?_)
      exact (psucc (l+1) _ _).symm)
  have hCI : C.Is rs cs (blockDot f g ks) := by
    refine ⟨hC.ori, hC.rows, hC.cols, hC.alloc, hu1.trans hA.ubRows, hu2.trans hB.ubCols, fun i j hi hj => ?_⟩
    obtain ⟨M, e, S, rfl, hS⟩ := hC.blocks i j hi hj
    exact ⟨_, e, hS⟩
  obtain ⟨D, eD, -, hD⟩ := Blocked.toDense_sat hCI
  exact ⟨C, D, e, hCI, eD, hD⟩

/-! ### C93: rounding errors of sums and products -/

/-- C93: the product of matrices of any storage kinds differs from the exact product of what they stand for by at most
((1+u)^k - 1) Σ |a||b|, where k is the inner dimension. -/
theorem C93_product_error [Arith R] [DecidableEq R] (val : R → ℚ) (u : ℚ) (hr : Rounding val u) (A B : SMat R) (m k n : Nat)
    (f g : Nat → Nat → R) (hA : A.Is m k f) (hB : B.Is k n g) :
    ∃ C F, SMat.mul A B = .ok C ∧ C.Is m n F ∧ ∀ i j, i < m → j < n →
      |val (F i j) - ∑ l ∈ Finset.range k, val (f i l) * val (g l j)|
        ≤ ((1 + u) ^ k - 1) * ∑ l ∈ Finset.range k, |val (f i l)| * |val (g l j)| := by
  obtain ⟨C, e, hC⟩ := SMat.mul_seq hA hB
  exact ⟨C, _, e, hC, fun i j _ _ => (Near.dot hr f g k i j).1⟩

/-- C93: a sum is rounded once. -/
theorem C93_sum_error [CommArith R] (val : R → ℚ) (u : ℚ) (hr : Rounding val u) (A B : SMat R) (r c : Nat)
    (f g : Nat → Nat → R) (hA : A.Is r c f) (hB : B.Is r c g) :
    ∃ C F, SMat.binop (· + ·) id A B = .ok C ∧ C.Is r c F ∧ ∀ i j, i < r → j < c →
      |val (F i j) - (val (f i j) + val (g i j))| ≤ u * |val (f i j) + val (g i j)| := by
  obtain ⟨C, e, hC⟩ := SMat.binop_add_seq CommArith.add_comm' hA hB
  exact ⟨C, _, e, hC, fun i j _ _ => hr.add _ _⟩

/-- What is needed of a block product for the accumulation of blocks. -/
theorem near_sum {u : ℚ} {K : Nat} {x : ℚ} {e w e' w' : Nat → ℚ} {n k : Nat} (hu : 0 ≤ u) (hn : n ≤ K)
    (h : Near u n x (∑ l ∈ Finset.range k, e l) (∑ l ∈ Finset.range k, w l))
    (he : ∀ l, l < k → e l = e' l) (hw : ∀ l, l < k → w l = w' l) :
    Near u K x (∑ l ∈ Finset.range k, e' l) (∑ l ∈ Finset.range k, w' l) := by
  rw [← Finset.sum_congr rfl (fun l hl => he l (Finset.mem_range.1 hl)), ← Finset.sum_congr rfl (fun l hl => hw l (Finset.mem_range.1 hl))]
  exact h.mono hu hn

/-- Products of one- and two-part matrices: up to three additions more. -/
theorem Mat.mul_near [CommArith R] [DecidableEq R] {val : R → ℚ} {u : ℚ} (hr : Rounding val u) {A B : Mat R} {m k n : Nat}
    {e w e' w' : Nat → Nat → ℚ} (hA : A.Stands val m k e w) (hB : B.Stands val k n e' w') :
    Sat (Mat.mul A B) (fun C => ∃ F, C.Is m n F ∧ ∀ i j, i < m → j < n →
      Near u (k + 3) (val (F i j)) (∑ l ∈ Finset.range k, e i l * e' l j) (∑ l ∈ Finset.range k, w i l * w' l j)) := by
  have hu := hr.nonneg
  cases A with
  | one A =>
    obtain ⟨f, hf, hfe⟩ := hA
    cases B with
    | one B =>
      obtain ⟨g, hg, hge⟩ := hB
      refine Sat.mono (SMat.mul_seq hf hg) fun C hC => ⟨_, hC, fun i j hi hj => ?_⟩
      refine near_sum hu (by omega : k ≤ k + 3) (Near.dot hr f g k i j) ?_ ?_ <;> intro l hl
      · rw [(hfe i l hi hl).1, (hge l j hl hj).1]
      · rw [(hfe i l hi hl).2, (hge l j hl hj).2]
    | two B1 B2 =>
      obtain ⟨g1, g2, hg1, hg2, hge⟩ := hB
      refine Sat.bind (SMat.mul_seq hf hg1) fun C1 hC1 => Sat.bind (SMat.mul_seq hf hg2) fun C2 hC2 => ?_
      refine Sat.mono (SMat.binop_add_seq CommArith.add_comm' hC1 hC2) fun C hC => ⟨_, hC, fun i j hi hj => ?_⟩
      have := Near.add hr (Near.dot hr f g1 k i j) (Near.dot hr f g2 k i j)
      rw [← Finset.sum_add_distrib, ← Finset.sum_add_distrib] at this
      refine near_sum hu (by omega : k + 1 ≤ k + 3) this ?_ ?_ <;> intro l hl
      · rw [(hfe i l hi hl).1, (hge l j hl hj).1]; ring
      · rw [(hfe i l hi hl).2, (hge l j hl hj).2]; ring
  | two A1 A2 =>
    obtain ⟨f1, f2, hf1, hf2, hfe⟩ := hA
    cases B with
    | one B =>
      obtain ⟨g, hg, hge⟩ := hB
      refine Sat.bind (SMat.mul_seq hf1 hg) fun C1 hC1 => Sat.bind (SMat.mul_seq hf2 hg) fun C2 hC2 => ?_
      refine Sat.mono (SMat.binop_add_seq CommArith.add_comm' hC1 hC2) fun C hC => ⟨_, hC, fun i j hi hj => ?_⟩
      have := Near.add hr (Near.dot hr f1 g k i j) (Near.dot hr f2 g k i j)
      rw [← Finset.sum_add_distrib, ← Finset.sum_add_distrib] at this
      refine near_sum hu (by omega : k + 1 ≤ k + 3) this ?_ ?_ <;> intro l hl
      · rw [(hfe i l hi hl).1, (hge l j hl hj).1]; ring
      · rw [(hfe i l hi hl).2, (hge l j hl hj).2]; ring
    | two B1 B2 =>
      obtain ⟨g1, g2, hg1, hg2, hge⟩ := hB
      refine Sat.bind (SMat.mul_seq hf1 hg1) fun C1 hC1 => Sat.bind (SMat.mul_seq hf1 hg2) fun C2 hC2 => ?_
      refine Sat.bind (SMat.binop_add_seq CommArith.add_comm' hC1 hC2) fun C3 hC3 => ?_
      refine Sat.bind (SMat.mul_seq hf2 hg1) fun C4 hC4 => ?_
      refine Sat.bind (SMat.binop_add_seq CommArith.add_comm' hC3 hC4) fun C5 hC5 => ?_
      refine Sat.bind (SMat.mul_seq hf2 hg2) fun C6 hC6 => ?_
      refine Sat.mono (SMat.binop_add_seq CommArith.add_comm' hC5 hC6) fun C hC => ⟨_, hC, fun i j hi hj => ?_⟩
      have n1 := Near.add hr (Near.dot hr f1 g1 k i j) (Near.dot hr f1 g2 k i j)
      have n2 := Near.add hr n1 ((Near.dot hr f2 g1 k i j).mono hu (by omega : k ≤ k + 1))
      have n3 := Near.add hr n2 ((Near.dot hr f2 g2 k i j).mono hu (by omega : k ≤ k + 1 + 1))
      simp only [← Finset.sum_add_distrib] at n3
      refine near_sum hu (le_refl (k + 3)) n3 ?_ ?_ <;> intro l hl
      · rw [(hfe i l hi hl).1, (hge l j hl hj).1]; ring
      · rw [(hfe i l hi hl).2, (hge l j hl hj).2]; ring

/-- C93 for operands of any kinds, two-part matrices included: the product differs from the exact product of what the
operands stand for by at most ((1+u)^(k+3) - 1) Σ |a||b|. -/
theorem C93_product_error_any [CommArith R] [DecidableEq R] (val : R → ℚ) (u : ℚ) (hr : Rounding val u) (A B : Mat R)
    (m k n : Nat) (e w e' w' : Nat → Nat → ℚ) (hA : A.Stands val m k e w) (hB : B.Stands val k n e' w') :
    ∃ C F, Mat.mul A B = .ok C ∧ C.Is m n F ∧ ∀ i j, i < m → j < n →
      |val (F i j) - ∑ l ∈ Finset.range k, e i l * e' l j|
        ≤ ((1 + u) ^ (k + 3) - 1) * ∑ l ∈ Finset.range k, w i l * w' l j := by
  obtain ⟨C, h, F, hC, hF⟩ := Mat.mul_near hr hA hB
  exact ⟨C, F, h, hC, fun i j hi hj => (hF i j hi hj).1⟩

/-! ### C94: rounding error of the blocked product -/

/-- C94: the product of two blocked matrices, converted to a dense matrix, differs from the exact product of what the
operands stand for by at most ((1+u)^(K+b+2) - 1) Σ |a||b|, where b is the number of inner blocks and K bounds their
sizes — whatever the runtime types of the blocks. -/
theorem C94_blocked_error [CommArith R] [DecidableEq R] (val : R → ℚ) (u : ℚ) (hr : Rounding val u) (A B : Blocked R)
    (rs ks cs : List Nat) (e w e' w' : Nat → Nat → ℚ) (hA : A.Stands val rs ks e w) (hB : B.Stands val ks cs e' w')
    (hk : ks ≠ []) (K : Nat) (hK : ∀ x ∈ ks, x ≤ K) :
    ∃ C D F, A.mul B = .ok C ∧ C.toDense = .ok D ∧ D.Is rs.sum cs.sum F ∧ ∀ i j, i < rs.sum → j < cs.sum →
      |val (F i j) - ∑ l ∈ Finset.range ks.sum, e i l * e' l j|
        ≤ ((1 + u) ^ (K + ks.length + 2) - 1) * ∑ l ∈ Finset.range ks.sum, w i l * w' l j := by
  have hu := hr.nonneg
  have hk0 : 0 < ks.length := List.length_pos_iff.2 hk
  have gA : A.Grid rs.length ks.length _ := ⟨hA.ori, hA.rows, hA.cols, hA.alloc, hA.blocks⟩
  have gB : B.Grid ks.length cs.length _ := ⟨hB.ori, hB.rows, hB.cols, hB.alloc, hB.blocks⟩
  have hKi : ∀ q, q < ks.length → ks.getD q 0 ≤ K := fun q hq => hK _ (getD_mem hq)
  have e1 : offs ks 1 = ks.getD 0 0 := by rw [show 1 = 0 + 1 from rfl, offs_succ ks hk0]; simp [offs]
  have e0 : offs ks 0 = 0 := by simp [offs]
  obtain ⟨C, eC, hu1, hu2, hC⟩ := Blocked.mul_gen
    (fun i j l S => ∃ F, S.Is (rs.getD i 0) (cs.getD j 0) F ∧ ∀ a b, a < rs.getD i 0 → b < cs.getD j 0 →
      Near u (K + 2 + l) (val (F a b)) (∑ x ∈ Finset.range (offs ks l), e (offs rs i + a) x * e' x (offs cs j + b))
        (∑ x ∈ Finset.range (offs ks l), w (offs rs i + a) x * w' x (offs cs j + b))) gA gB hk0
    (by
      intro i j MA MB hi hj iA iB
      refine Sat.mono (Mat.mul_near hr iA iB) ?_
      rintro P ⟨F, hP, hF⟩
      refine ⟨F, hP, fun a b ha hb => ?_⟩
      have := (hF a b ha hb).mono hu (show ks.getD 0 0 + 3 ≤ K + 2 + 1 by have := hKi 0 hk0; omega)
      simp only [e0, Nat.zero_add] at this
      rw [e1]
      exact this)
    (by
      rintro i j l S MA MB hi hj hl ⟨F, hS, hF⟩ iA iB
      refine Sat.mono (Mat.mul_near hr iA iB) ?_
      rintro P ⟨G, hP, hG⟩
      refine Sat.mono (SMat.binop_add_seq CommArith.add_comm' hS hP) fun T hT => ⟨_, hT, fun a b ha hb => ?_⟩
      have := Near.add hr (hF a b ha hb)
        ((hG a b ha hb).mono hu (show ks.getD (l+1) 0 + 3 ≤ K + 2 + (l + 1) by have := hKi (l+1) hl; omega))
      have e2 : offs ks (l + 2) = offs ks (l + 1) + ks.getD (l + 1) 0 := offs_succ ks hl
      rw [e2, Finset.sum_range_add, Finset.sum_range_add]
      exact this)
  -- the blocks denote the windows of one matrix
  have hG : ∀ i j, ∃ F : Nat → Nat → R, i < rs.length → j < cs.length →
      ∃ S, C.grid.get i j = .ok (.one S) ∧ S.Is (rs.getD i 0) (cs.getD j 0) F ∧ ∀ a b, a < rs.getD i 0 → b < cs.getD j 0 →
        Near u (K + 2 + ks.length) (val (F a b)) (∑ x ∈ Finset.range (offs ks ks.length), e (offs rs i + a) x * e' x (offs cs j + b))
        (∑ x ∈ Finset.range (offs ks ks.length), w (offs rs i + a) x * w' x (offs cs j + b)) := by
    intro i j
    by_cases h : i < rs.length ∧ j < cs.length
    · obtain ⟨M, eM, S, rfl, F, hS, hF⟩ := hC.blocks i j h.1 h.2
      exact ⟨F, fun _ _ => ⟨S, eM, hS, hF⟩⟩
    · exact ⟨fun _ _ => 0, fun h1 h2 => absurd ⟨h1, h2⟩ h⟩
  choose F hF using hG
  have hCI : C.Is rs cs (fun I J => F (loc rs I).1 (loc cs J).1 (loc rs I).2 (loc cs J).2) := by
    refine ⟨hC.ori, hC.rows, hC.cols, hC.alloc, hu1.trans hA.ubRows, hu2.trans hB.ubCols, fun i j hi hj => ?_⟩
    obtain ⟨S, eS, hS, -⟩ := hF i j hi hj
    refine ⟨_, eS, SMat.Is.congr hS (fun a b ha hb => ?_)⟩
    rw [loc_offs rs hi ha, loc_offs cs hj hb]
  obtain ⟨D, eD, -, hD⟩ := Blocked.toDense_sat hCI
  refine ⟨C, D, _, eC, eD, hD, fun I J hI hJ => ?_⟩
  obtain ⟨a1, a2, a3⟩ := loc_spec rs hI
  obtain ⟨b1, b2, b3⟩ := loc_spec cs hJ
  obtain ⟨S, -, -, hN⟩ := hF _ _ a1 b1
  have := (hN _ _ a2 b2).1
  rw [a3, b3, offs_length, show K + 2 + ks.length = K + ks.length + 2 by omega] at this
  exact this

/-! ### Binary floating point numbers -/

/-- C93: `double` and `float` numbers (53- and 24-bit significands, no overflow or underflow), rounded to nearest by any
rule for ties, have all the properties assumed in this file, with unit roundoff 2^-53 and 2^-24. -/
theorem C93_binary_floating_point (p : Nat) [NeZero p] (md : Mode) :
    Nonempty (CommArith (Fp p md)) ∧ Rounding (Fp.val (p := p) (md := md)) ((2 : ℚ) ^ (-(p : Int))) :=
  ⟨⟨inferInstance⟩, Fp.rounding⟩

/-- C93 for `double`: products of dense, sparse and zero matrices with inner dimension k. -/
theorem C93_double_product (A B : SMat (Fp 53 ieee)) (m k n : Nat) (f g : Nat → Nat → Fp 53 ieee)
    (hA : A.Is m k f) (hB : B.Is k n g) :
    ∃ C F, SMat.mul A B = .ok C ∧ C.Is m n F ∧ ∀ i j, i < m → j < n →
      |(F i j).val - ∑ l ∈ Finset.range k, (f i l).val * (g l j).val|
        ≤ ((1 + 1 / 2 ^ 53) ^ k - 1) * ∑ l ∈ Finset.range k, |(f i l).val| * |(g l j).val| := by
  obtain ⟨C, F, e, hC, hF⟩ := C93_product_error Fp.val _ Fp.rounding A B m k n f g hA hB
  refine ⟨C, F, e, hC, fun i j hi hj => ?_⟩
  have := hF i j hi hj
  rwa [show (2 : ℚ) ^ (-((53 : Nat) : Int)) = 1 / 2 ^ 53 by rw [zpow_neg, zpow_natCast, one_div]] at this

/-- Numbers with two significant bits: 1, 2, 3, 4, 6, 8, 12, …; used in examples. -/
abbrev F2 := Fp 2 ieee

/-- `x` as such a number. -/
def f2 (x : ℚ) : F2 := Fp.of x

/-- Addition really rounds and is not associative. -/
example : (f2 4 + f2 1 + f2 1).val = 4 ∧ (f2 4 + (f2 1 + f2 1)).val = 6 := by decide +kernel

/-- The same matrix stored dense and sparse: the products with a vector agree although they are rounded. -/
example : ∃ C C' : SMat F2, ∃ D D' : Dense F2,
    SMat.mul (.dense (Dense.ofFn .col 1 3 (fun _ j => if j = 1 then 0 else f2 3))) (.dense (Dense.ofFn .col 3 1 (fun i _ => f2 (i + 3)))) = .ok C ∧
    SMat.mul (.sparse ⟨.col, Dim.mk' 1 3, [some (f2 3), some (f2 3)], [some 0, some 0], [some 0, some 1, some 1, some 2]⟩)
      (.dense (Dense.ofFn .col 3 1 (fun i _ => f2 (i + 3)))) = .ok C' ∧
    Mat.denseOf C = .ok D ∧ Mat.denseOf C' = .ok D' ∧ D.get 0 0 = .ok (f2 16) ∧ D'.get 0 0 = .ok (f2 16) :=
  ⟨_, _, _, _, by rfl, by rfl, by rfl, by rfl, by decide +kernel, by decide +kernel⟩

/-! ### C95: blocked against unblocked -/

/-- A blocked matrix without two-part blocks stands for the values of its elements. -/
theorem Blocked.Is.stands [Zero R] [Add R] (val : R → ℚ) {B : Blocked R} {rs cs : List Nat} {f : Nat → Nat → R}
    (h : B.Is rs cs f) (h1 : B.Single rs.length cs.length) :
    B.Stands val rs cs (fun i j => val (f i j)) (fun i j => |val (f i j)|) := by
  refine ⟨h.ori, h.rows, h.cols, h.alloc, h.ubRows, h.ubCols, fun i j hi hj => ?_⟩
  obtain ⟨M, e, hM⟩ := h.blocks i j hi hj
  obtain ⟨S, e'⟩ := h1 i j hi hj
  rw [e] at e'; cases e'
  exact ⟨_, e, _, hM, fun a b _ _ => ⟨rfl, rfl⟩⟩

/-- C95 in part: blocking the operands changes the product by at most the sum of the two error bounds. -/
theorem C95_distance_partial [CommArith R] [DecidableEq R] (val : R → ℚ) (u : ℚ) (hr : Rounding val u) (A B : Dense R)
    (A' B' : Blocked R) (rs ks cs : List Nat) (f g : Nat → Nat → R)
    (hA : A.Is rs.sum ks.sum f) (hAo : A.ori = .col) (hB : B.Is ks.sum cs.sum g) (hBo : B.ori = .col)
    (hA' : A'.Is rs ks f) (hA1 : A'.Single rs.length ks.length) (hB' : B'.Is ks cs g) (hB1 : B'.Single ks.length cs.length)
    (hk : ks ≠ []) (K : Nat) (hK : ∀ x ∈ ks, x ≤ K) :
    ∃ D C D', Dense.mulGeneral A B (Dense.empty .col) = .ok D ∧ A'.mul B' = .ok C ∧ C.toDense = .ok D' ∧
      ∀ i j, i < rs.sum → j < cs.sum → ∃ x y, D.get i j = .ok x ∧ D'.get i j = .ok y ∧
        |val y - val x| ≤ ((1 + u) ^ (K + ks.length + 2) - 1 + ((1 + u) ^ ks.sum - 1)) *
          ∑ l ∈ Finset.range ks.sum, |val (f i l)| * |val (g l j)| := by
  obtain ⟨D, e, -, hD⟩ := Dense.mulGeneral_sat (Dense.empty .col) hA hB hAo hBo rfl
  obtain ⟨C, D', F, eC, eD, hD', hF⟩ := C94_blocked_error val u hr A' B' rs ks cs _ _ _ _
    (hA'.stands val hA1) (hB'.stands val hB1) hk K hK
  refine ⟨D, C, D', e, eC, eD, fun i j hi hj => ⟨_, _, hD.elems i j hi hj, hD'.elems i j hi hj, ?_⟩⟩
  have h1 := (Near.dot hr f g ks.sum i j).1
  have h2 := hF i j hi hj
  rw [add_mul]
  calc _ = |(val (F i j) - ∑ l ∈ Finset.range ks.sum, val (f i l) * val (g l j))
        - (val (dotSeq f g ks.sum i j) - ∑ l ∈ Finset.range ks.sum, val (f i l) * val (g l j))| := by congr 1; ring
    _ ≤ _ := abs_sub _ _
    _ ≤ _ := add_le_add h2 h1

/-- C95 in part: with one inner block the blocked product is the unblocked product, bit for bit. -/
theorem C95_one_inner_block_partial [CommArith R] [DecidableEq R] (A B : Dense R)
    (A' B' : Blocked R) (rs cs : List Nat) (k : Nat) (f g : Nat → Nat → R)
    (hA : A.Is rs.sum k f) (hAo : A.ori = .col) (hB : B.Is k cs.sum g) (hBo : B.ori = .col)
    (hA' : A'.Is rs [k] f) (hA1 : A'.Single rs.length 1) (hB' : B'.Is [k] cs g) (hB1 : B'.Single 1 cs.length) :
    ∃ D C D', Dense.mulGeneral A B (Dense.empty .col) = .ok D ∧ A'.mul B' = .ok C ∧ C.toDense = .ok D' ∧
      ∀ i j, i < rs.sum → j < cs.sum → ∃ x, D.get i j = .ok x ∧ D'.get i j = .ok x := by
  obtain ⟨D, e, -, hD⟩ := Dense.mulGeneral_sat (Dense.empty .col) hA hB hAo hBo rfl
  obtain ⟨C, D', eC, -, eD, hD'⟩ := C92_blocked_order A' B' rs [k] cs f g hA' hA1 hB' hB1 (by simp)
  refine ⟨D, C, D', e, eC, eD, fun i j hi hj => ⟨_, hD.elems i j hi hj, ?_⟩⟩
  rw [hD'.elems i j hi hj]
  simp [blockDot, offs]

/-- A blocked row and a blocked column with inner blocks of sizes 1 and 2. -/
def exRow : Blocked F2 :=
  ⟨⟨.col, Dim.mk' 1 2, [some (.one (.dense (Dense.ofFn .col 1 1 (fun _ _ => f2 4)))),
    some (.one (.sparse ⟨.col, Dim.mk' 1 2, [some (f2 1), some (f2 1)], [some 0, some 0], [some 0, some 1, some 2]⟩))]⟩, 1, 3⟩

def exCol : Blocked F2 :=
  ⟨⟨.col, Dim.mk' 2 1, [some (.one (.dense (Dense.ofFn .col 1 1 (fun _ _ => f2 1)))),
    some (.one (.dense (Dense.ofFn .col 2 1 (fun _ _ => f2 1))))]⟩, 3, 1⟩

theorem exRow_is : exRow.Is [1] [1, 2] (fun _ j => if j = 0 then f2 4 else f2 1) ∧ exRow.Single 1 2 := by
  refine ⟨⟨rfl, rfl, rfl, rfl, rfl, rfl, ?_⟩, ?_⟩
  · intro i j hi hj
    simp only [List.length_cons, List.length_nil] at hi hj
    obtain rfl : i = 0 := by omega
    rcases j with _ | _ | j
    · refine ⟨_, rfl, Dense.Is.congr (Dense.ofFn_is _ _ _ _) ?_, rfl⟩
      intro a b _ hb
      have : b < 1 := hb
      obtain rfl : b = 0 := by omega
      rfl
    · refine ⟨_, rfl, ⟨[[(0, f2 1)], [(0, f2 1)]], ?_, ?_⟩, rfl⟩
      · exact { rows := rfl, cols := rfl, size := rfl, runs := rfl, offsLen := rfl,
                offs := by intro q hq; match q, hq with | 0, _ => rfl | 1, _ => rfl | 2, _ => rfl
                keyLen := rfl
                cells := by
                  intro p e h
                  match p, h with
                  | 0, h => cases h; exact ⟨rfl, rfl⟩
                  | 1, h => cases h; exact ⟨rfl, rfl⟩
                  | (p+2), h => simp at h
                bound := by simp [Ori.majorIx], sorted := by simp }
      · intro a b ha hb
        have ha : a < 1 := ha
        have hb : b < 2 := hb
        obtain rfl : a = 0 := by omega
        match b, hb with
        | 0, _ => rfl
        | 1, _ => rfl
    · omega
  · intro i j hi hj
    obtain rfl : i = 0 := by omega
    rcases j with _ | _ | j
    · exact ⟨_, rfl⟩
    · exact ⟨_, rfl⟩
    · omega

theorem exCol_is : exCol.Is [1, 2] [1] (fun _ _ => f2 1) ∧ exCol.Single 2 1 := by
  refine ⟨⟨rfl, rfl, rfl, rfl, rfl, rfl, ?_⟩, ?_⟩
  · intro i j hi hj
    simp only [List.length_cons, List.length_nil] at hi hj
    obtain rfl : j = 0 := by omega
    rcases i with _ | _ | i
    · exact ⟨_, rfl, Dense.ofFn_is _ _ _ _, rfl⟩
    · exact ⟨_, rfl, Dense.ofFn_is _ _ _ _, rfl⟩
    · omega
  · intro i j hi hj
    obtain rfl : j = 0 := by omega
    rcases i with _ | _ | i
    · exact ⟨_, rfl⟩
    · exact ⟨_, rfl⟩
    · omega

/-- C95, negative: the blocked product is not bit for bit the unblocked product.  (4, 1, 1)·(1, 1, 1) with two
significant bits: 4 unblocked, 6 with inner blocks of sizes 1 and 2. -/
theorem C95_blocking_changes_rounding :
    ∃ D C D', Dense.mulGeneral (Dense.ofFn .col 1 3 (fun _ j => if j = 0 then f2 4 else f2 1))
        (Dense.ofFn .col 3 1 (fun _ _ => f2 1)) (Dense.empty .col) = .ok D ∧
      exRow.mul exCol = .ok C ∧ C.toDense = .ok D' ∧ D.get 0 0 = .ok (f2 4) ∧ D'.get 0 0 = .ok (f2 6) ∧ f2 4 ≠ f2 6 := by
  obtain ⟨D, e, -, hD⟩ := Dense.mulGeneral_sat (Dense.empty .col)
    (Dense.ofFn_is .col 1 3 (fun _ j => if j = 0 then f2 4 else f2 1)) (Dense.ofFn_is .col 3 1 (fun _ _ => f2 1)) rfl rfl rfl
  obtain ⟨C, D', eC, -, eD, hD'⟩ := C92_blocked_order exRow exCol [1] [1, 2] [1] _ _ exRow_is.1 exRow_is.2 exCol_is.1 exCol_is.2 (by simp)
  refine ⟨D, C, D', e, eC, eD, ?_, ?_, by decide +kernel⟩
  · rw [hD.elems 0 0 (by decide) (by decide)]; congr 1; decide +kernel
  · rw [hD'.elems 0 0 (by decide) (by decide)]; congr 1; decide +kernel

/-- The hypotheses of `C94_blocked_error` are met by the two blocked matrices above. -/
example : ∃ e w e' w', exRow.Stands Fp.val [1] [1, 2] e w ∧ exCol.Stands Fp.val [1, 2] [1] e' w' ∧
    Rounding (Fp.val (p := 2) (md := ieee)) ((2 : ℚ) ^ (-((2 : Nat) : Int))) :=
  ⟨_, _, _, _, exRow_is.1.stands _ exRow_is.2, exCol_is.1.stands _ exCol_is.2, Fp.rounding⟩

end BB
