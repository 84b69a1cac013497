import Verif.Lemmas.Norm

/-!
# C35: norms
-/

namespace BB

variable {R : Type}

theorem tight_flatten {S : Sparse R} {r c : Nat} {L : List (List (Nat × R))} (h : S.Valid r c L) (ht : S.Tight) :
    S.value.length = L.flatten.length := by
  obtain ⟨n, h1, h2⟩ := ht
  have h3 := h.offs L.length (le_refl _)
  rw [List.getLast?_eq_getElem?, h.offsLen, Nat.add_sub_cancel, h3, List.take_length] at h1
  injection h1 with h1
  injection h1 with h1
  rw [h1]; exact h2

theorem SMat.norm_dense {A : Dense ℝ} {r c : Nat} {f : Nat → Nat → ℝ} (h : A.Is r c f) (k : NormKind) :
    ∃ x, (SMat.dense A).norm k = .ok x ∧ IsNorm k r c f x := by
  obtain ⟨l, e, hl⟩ := h.covers
  obtain ⟨x, hx, hn⟩ := hl.norm k
  exact ⟨x, by rw [SMat.norm, e, hx], hn⟩

/-- C35 for dense matrices of either orientation. -/
theorem C35_dense (k : NormKind) (A : Dense ℝ) (r c : Nat) (f : Nat → Nat → ℝ) (hA : A.Is r c f) :
    ∃ x, (SMat.dense A).norm k = .ok x ∧ IsNorm k r c f x := SMat.norm_dense hA k

/-- C35 for the matrices whose norm can be computed, of any kind.  (Missing: sparse matrices with spare cells
and two-part matrices without dense part, `C35_two_sparse_is_ub`; the 1-norm of two-part matrices,
`C35_two_part_one_is_wrong`; the 1- and the maximum norm of a zero matrix, which do not compile.) -/
theorem C35_norm_partial (k : NormKind) (M : Mat ℝ) (r c : Nat) (f : Nat → Nat → ℝ) (hM : M.Is r c f) (hk : Normable k M) :
    ∃ x, M.norm k = .ok x ∧ IsNorm k r c f x := by
  cases M with
  | one A =>
    cases A with
    | dense A => exact SMat.norm_dense hM.1 k
    | sparse S =>
      obtain ⟨⟨L, hL, hf⟩, ho⟩ := hM
      simp only [ho, Ori.minorIx, Ori.majorIx] at hf
      obtain ⟨l, e, hl⟩ := Sparse.covers hL (tight_flatten hL hk) ho hf
      obtain ⟨x, hx, hn⟩ := hl.norm k
      exact ⟨x, by rw [Mat.norm, SMat.norm, e, hx], hn⟩
    | zero d =>
      cases hk
      refine ⟨0, rfl, le_refl _, ?_⟩
      obtain ⟨-, -, h0⟩ := hM
      rw [Finset.sum_eq_zero fun i hi => Finset.sum_eq_zero fun j hj => ?_]
      · simp
      · rw [h0 i j (Finset.mem_range.1 hi) (Finset.mem_range.1 hj)]; simp
  | two X1 X2 =>
    obtain ⟨f1, f2, h1, h2, h3⟩ := hM
    obtain ⟨hk, hd⟩ := hk
    obtain ⟨S, e, hS⟩ := SMat.binop_add_sat h1 h2
    have hkind := (SMat.binop_kind e).1
    cases S with
    | dense D =>
      obtain ⟨x, hx, hn⟩ := SMat.norm_dense (hS.1.congr (fun i j hi hj => (h3 i j hi hj).symm)) k
      refine ⟨x, ?_, hn⟩
      cases k with
      | one => exact absurd rfl hk
      | two => simp only [Mat.norm, e, bind_ok']; exact hx
      | max => simp only [Mat.norm, e, bind_ok']; exact hx
    | sparse D =>
      rw [show (SMat.sparse D).isDense = false from rfl] at hkind
      exfalso; rcases hd with hd | hd <;> simp [hd] at hkind
    | zero D =>
      rw [show (SMat.zero D : SMat ℝ).isDense = false from rfl] at hkind
      exfalso; rcases hd with hd | hd <;> simp [hd] at hkind

/-- C35: what the three norms guarantee – non-negative, zero exactly for the zero matrix, a bound of every
element – and that `IsNorm` determines the value. -/
theorem C35_laws (k : NormKind) (r c : Nat) (f : Nat → Nat → ℝ) (x : ℝ) (h : IsNorm k r c f x) :
    0 ≤ x ∧ (x = 0 ↔ ∀ i j, i < r → j < c → f i j = 0) ∧ (∀ i j, i < r → j < c → |f i j| ≤ x) ∧
    ∀ y, IsNorm k r c f y → y = x := by
  have bound2 : ∀ (g : Nat → Nat → ℝ), (∀ i j, 0 ≤ g i j) → ∀ i j, i < r → j < c →
      g i j ≤ ∑ i ∈ Finset.range r, ∑ j ∈ Finset.range c, g i j := by
    intro g hg i j hi hj
    refine le_trans ?_ (Finset.single_le_sum (f := fun i => ∑ j ∈ Finset.range c, g i j)
      (fun a _ => Finset.sum_nonneg fun b _ => hg a b) (Finset.mem_range.2 hi))
    exact Finset.single_le_sum (f := fun j => g i j) (fun b _ => hg i b) (Finset.mem_range.2 hj)
  have main : 0 ≤ x ∧ (∀ i j, i < r → j < c → |f i j| ≤ x) ∧ ((∀ i j, i < r → j < c → f i j = 0) → x = 0) := by
    cases k with
    | one =>
      obtain rfl : x = _ := h
      refine ⟨Finset.sum_nonneg fun i _ => Finset.sum_nonneg fun j _ => abs_nonneg _, bound2 _ (fun _ _ => abs_nonneg _), ?_⟩
      intro h0
      refine Finset.sum_eq_zero fun i hi => Finset.sum_eq_zero fun j hj => ?_
      rw [h0 i j (Finset.mem_range.1 hi) (Finset.mem_range.1 hj), abs_zero]
    | two =>
      obtain ⟨h1, h2⟩ := h
      refine ⟨h1, ?_, ?_⟩
      · intro i j hi hj
        refine abs_le_of_sq_le_sq ?_ h1
        rw [h2]; exact bound2 (fun i j => f i j ^ 2) (fun _ _ => sq_nonneg _) i j hi hj
      · intro h0
        rw [Finset.sum_eq_zero fun i hi => Finset.sum_eq_zero fun j hj => by
          rw [h0 i j (Finset.mem_range.1 hi) (Finset.mem_range.1 hj)]; norm_num] at h2
        exact pow_eq_zero_iff (two_ne_zero) |>.1 h2
    | max =>
      obtain ⟨h1, h2⟩ := h
      rcases h2 with ⟨hz, rfl⟩ | ⟨i, j, hi, hj, rfl⟩
      · exact ⟨le_refl _, h1, fun _ => rfl⟩
      · exact ⟨abs_nonneg _, h1, fun h0 => by rw [h0 i j hi hj, abs_zero]⟩
  refine ⟨main.1, ⟨fun h0 i j hi hj => ?_, main.2.2⟩, main.2.1, ?_⟩
  · have := main.2.1 i j hi hj
    rw [h0] at this
    exact abs_nonpos_iff.1 this
  · intro y hy
    cases k with
    | one => exact hy.trans h.symm
    | two => exact (pow_left_inj₀ hy.1 h.1 two_ne_zero).1 (hy.2.trans h.2.symm)
    | max =>
      obtain ⟨a1, a2⟩ := h
      obtain ⟨b1, b2⟩ := hy
      rcases a2 with ⟨hz, rfl⟩ | ⟨i, j, hi, hj, rfl⟩ <;> rcases b2 with ⟨hz', rfl⟩ | ⟨i', j', hi', hj', rfl⟩
      · rfl
      · exfalso
        have := Nat.mul_pos (show 0 < r by omega) (show 0 < c by omega)
        omega
      · exfalso
        have := Nat.mul_pos (show 0 < r by omega) (show 0 < c by omega)
        omega
      · exact le_antisymm (a1 _ _ hi' hj') (b1 _ _ hi hj)

/-- C35, negative: the 1-norm of a two-part matrix whose first part is dense is twice that of the first part,
whatever the second part holds. -/
theorem C35_two_part_one_is_wrong (X1 : Dense ℝ) (X2 : SMat ℝ) (r c : Nat) (f : Nat → Nat → ℝ) (h1 : X1.Is r c f) (ho : X1.ori = .col) :
    (Mat.two (.dense X1) X2).norm .one = .ok (2 * ∑ i ∈ Finset.range r, ∑ j ∈ Finset.range c, |f i j|) := by
  have hs : (SMat.dense X1).Is r c f := ⟨h1, ho⟩
  obtain ⟨S, e, hS⟩ := SMat.binop_add_sat hs hs
  have hkind := (SMat.binop_kind e).1
  cases S with
  | dense D =>
    obtain ⟨x, hx, hn⟩ := SMat.norm_dense hS.1 .one
    simp only [Mat.norm, e, bind_ok']
    rw [hx]
    congr 1
    have hn : x = _ := hn
    rw [hn, Finset.mul_sum]
    refine Finset.sum_congr rfl fun i _ => ?_
    rw [Finset.mul_sum]
    refine Finset.sum_congr rfl fun j _ => ?_
    show |f i j + f i j| = _
    rw [← two_mul, abs_mul, abs_two]
  | sparse D => simp [SMat.isDense] at hkind
  | zero D => simp [SMat.isDense] at hkind

/-! ### Blocked matrices -/

theorem sum_offs (l : List Nat) (F : Nat → ℝ) :
    ∑ x ∈ Finset.range l.sum, F x = ∑ q ∈ Finset.range l.length, ∑ a ∈ Finset.range (l.getD q 0), F (offs l q + a) := by
  have : ∀ n, n ≤ l.length → ∑ x ∈ Finset.range (offs l n), F x
      = ∑ q ∈ Finset.range n, ∑ a ∈ Finset.range (l.getD q 0), F (offs l q + a) := by
    intro n
    induction n with
    | zero => intro _; simp [offs]
    | succ n ih =>
      intro hn
      rw [offs_succ l (by omega), Finset.sum_range_add, ih (by omega), Finset.sum_range_succ]
  have h := this l.length (le_refl _)
  rwa [offs_length] at h

theorem sum_blocks (rs cs : List Nat) (F : Nat → Nat → ℝ) :
    ∑ i ∈ Finset.range rs.sum, ∑ j ∈ Finset.range cs.sum, F i j
    = ∑ p ∈ Finset.range rs.length, ∑ q ∈ Finset.range cs.length,
        ∑ a ∈ Finset.range (rs.getD p 0), ∑ b ∈ Finset.range (cs.getD q 0), F (offs rs p + a) (offs cs q + b) := by
  rw [sum_offs]
  refine Finset.sum_congr rfl fun p _ => ?_
  rw [Finset.sum_comm]
  rw [sum_offs cs (fun j => ∑ a ∈ Finset.range (rs.getD p 0), F (offs rs p + a) j)]
  refine Finset.sum_congr rfl fun q _ => ?_
  rw [Finset.sum_comm]

theorem Blocked.norms {B : Blocked ℝ} {rs cs : List Nat} {f : Nat → Nat → ℝ} (h : B.Is rs cs f) (k : NormKind)
    (hk : ∀ i j M, i < rs.length → j < cs.length → B.grid.get i j = .ok M → Normable k M) :
    ∃ X : Nat → Nat → ℝ, (∀ p q, p < rs.length → q < cs.length →
        IsNorm k (rs.getD p 0) (cs.getD q 0) (fun a b => f (offs rs p + a) (offs cs q + b)) (X p q)) ∧
      ∀ t, t < rs.length * cs.length → ∃ M, B.grid.data.read t = .ok M ∧
        M.norm k = .ok (X (Dense.unpos .col rs.length cs.length t).1 (Dense.unpos .col rs.length cs.length t).2) := by
  have key : ∀ p q, ∃ x, p < rs.length → q < cs.length → (∃ M, B.grid.data.read (B.grid.view.base + B.grid.view.pos p q) = .ok M ∧
      M.norm k = .ok x) ∧ IsNorm k (rs.getD p 0) (cs.getD q 0) (fun a b => f (offs rs p + a) (offs cs q + b)) x := by
    intro p q
    by_cases hp : p < rs.length
    · by_cases hq : q < cs.length
      · obtain ⟨M, e, hM⟩ := h.read hp hq
        have e' : B.grid.get p q = .ok M := by
          unfold Dense.get
          rw [View.get_eq (by rw [h.view]; exact hp) (by rw [h.view]; exact hq)]; exact e
        obtain ⟨x, hx, hn⟩ := C35_norm_partial k M _ _ _ hM (hk p q M hp hq e')
        exact ⟨x, fun _ _ => ⟨⟨M, e, hx⟩, hn⟩⟩
      · exact ⟨0, fun _ h => absurd h hq⟩
    · exact ⟨0, fun h => absurd h hp⟩
  choose X hX using key
  refine ⟨X, fun p q hp hq => (hX p q hp hq).2, ?_⟩
  intro t ht
  obtain ⟨h1, h2, h3⟩ := Dense.unpos_spec .col ht
  obtain ⟨⟨M, e, hx⟩, -⟩ := hX _ _ h1 h2
  refine ⟨M, ?_, hx⟩
  rw [← e, h.view, h3]
  simp [View.plain]

/-- C35 for blocked matrices all of whose blocks have a computable norm. -/
theorem C35_blocked_partial (k : NormKind) (B : Blocked ℝ) (rs cs : List Nat) (f : Nat → Nat → ℝ) (hB : B.Is rs cs f)
    (hk : ∀ i j M, i < rs.length → j < cs.length → B.grid.get i j = .ok M → Normable k M) :
    ∃ x, B.norm k = .ok x ∧ IsNorm k rs.sum cs.sum f x := by
  obtain ⟨X, hX, hread⟩ := Blocked.norms hB k hk
  have hsum : ∀ F : ℝ → ℝ, ∑ t ∈ Finset.range B.grid.data.length,
      F (X (Dense.unpos .col rs.length cs.length t).1 (Dense.unpos .col rs.length cs.length t).2)
      = ∑ p ∈ Finset.range rs.length, ∑ q ∈ Finset.range cs.length, F (X p q) := by
    intro F
    rw [hB.alloc]
    exact sum_unpos .col _ _ (fun p q => F (X p q))
  cases k with
  | one =>
    obtain ⟨s, e, hs⟩ := Sat.raw (n := B.grid.data.length) (f := fun p s => do
        let x ← (← B.grid.data.read p).norm .one
        return s + x) (s := 0)
      (fun n s => s = ∑ t ∈ Finset.range n, X (Dense.unpos .col rs.length cs.length t).1 (Dense.unpos .col rs.length cs.length t).2)
      (by simp) (by
        rintro t s ht rfl
        obtain ⟨M, e1, e2⟩ := hread t (by rw [← hB.alloc]; exact ht)
        refine Sat.read e1 (Sat.bind (Sat.of_eq e2 rfl) ?_)
        rintro x rfl
        exact Sat.pure (by rw [Finset.sum_range_succ]))
    refine ⟨s, e, ?_⟩
    show s = _
    rw [hs, hsum (fun x => x), sum_blocks rs cs (fun i j => |f i j|)]
    refine Finset.sum_congr rfl fun p hp => Finset.sum_congr rfl fun q hq => ?_
    exact hX p q (Finset.mem_range.1 hp) (Finset.mem_range.1 hq)
  | two =>
    obtain ⟨s, e, hs⟩ := Sat.raw (n := B.grid.data.length) (f := fun p s => do
        let x ← (← B.grid.data.read p).norm .two
        return s + x ^ 2) (s := 0)
      (fun n s => s = ∑ t ∈ Finset.range n, X (Dense.unpos .col rs.length cs.length t).1 (Dense.unpos .col rs.length cs.length t).2 ^ 2)
      (by simp) (by
        rintro t s ht rfl
        obtain ⟨M, e1, e2⟩ := hread t (by rw [← hB.alloc]; exact ht)
        refine Sat.read e1 (Sat.bind (Sat.of_eq e2 rfl) ?_)
        rintro x rfl
        exact Sat.pure (by rw [Finset.sum_range_succ]))
    refine ⟨Real.sqrt s, ?_, Real.sqrt_nonneg _, ?_⟩
    · simp only [Blocked.norm]
      rw [e]; rfl
    · rw [Real.sq_sqrt (by rw [hs]; exact Finset.sum_nonneg fun _ _ => sq_nonneg _), hs, hsum (fun x => x ^ 2),
        sum_blocks rs cs (fun i j => f i j ^ 2)]
      refine Finset.sum_congr rfl fun p hp => Finset.sum_congr rfl fun q hq => ?_
      exact (hX p q (Finset.mem_range.1 hp) (Finset.mem_range.1 hq)).2
  | max =>
    obtain ⟨s, e, hs⟩ := Sat.raw (n := B.grid.data.length) (f := fun p s => do
        let x ← (← B.grid.data.read p).norm .max
        return Max.max s x) (s := 0)
      (fun n s => 0 ≤ s ∧ (∀ t, t < n → X (Dense.unpos .col rs.length cs.length t).1 (Dense.unpos .col rs.length cs.length t).2 ≤ s) ∧
        (s = 0 ∨ ∃ t, t < n ∧ X (Dense.unpos .col rs.length cs.length t).1 (Dense.unpos .col rs.length cs.length t).2 = s))
      ⟨le_refl _, by intro t ht; omega, .inl rfl⟩ (by
        rintro t s ht ⟨h0, h1, h2⟩
        obtain ⟨M, e1, e2⟩ := hread t (by rw [← hB.alloc]; exact ht)
        refine Sat.read e1 (Sat.bind (Sat.of_eq e2 rfl) ?_)
        rintro x rfl
        refine Sat.pure ⟨le_trans h0 (le_max_left _ _), ?_, ?_⟩
        · intro u hu
          by_cases hut : u = t
          · rw [hut]; exact le_max_right _ _
          · exact le_trans (h1 u (by omega)) (le_max_left _ _)
        · rcases max_choice s (X (Dense.unpos .col rs.length cs.length t).1 (Dense.unpos .col rs.length cs.length t).2) with h | h
          · rw [h]
            rcases h2 with h2 | ⟨u, hu, h2⟩
            · exact .inl h2
            · exact .inr ⟨u, by omega, h2⟩
          · rw [h]; exact .inr ⟨t, by omega, rfl⟩)
    refine ⟨s, e, ?_⟩
    obtain ⟨h0, h1, h2⟩ := hs
    have hb : ∀ i j, i < rs.sum → j < cs.sum → |f i j| ≤ s := by
      intro i j hi hj
      obtain ⟨p1, p2, p3⟩ := loc_spec rs hi
      obtain ⟨q1, q2, q3⟩ := loc_spec cs hj
      obtain ⟨t, ht, et⟩ := unpos_surj .col p1 q1
      have hle := h1 t (by rw [hB.alloc]; exact ht)
      rw [et] at hle
      have := (hX _ _ p1 q1).1 _ _ p2 q2
      beta_reduce at this
      rw [p3, q3] at this
      exact le_trans this hle
    refine ⟨hb, ?_⟩
    have zero_case : s = 0 → (rs.sum * cs.sum = 0 ∧ s = 0) ∨ ∃ i j, i < rs.sum ∧ j < cs.sum ∧ |f i j| = s := by
      intro hs0
      by_cases hz : rs.sum * cs.sum = 0
      · exact .inl ⟨hz, hs0⟩
      · have hr : 0 < rs.sum := Nat.pos_of_ne_zero fun e => hz (by simp [e])
        have hc : 0 < cs.sum := Nat.pos_of_ne_zero fun e => hz (by simp [e])
        refine .inr ⟨0, 0, hr, hc, ?_⟩
        have := hb 0 0 hr hc
        rw [hs0] at this ⊢
        exact le_antisymm this (abs_nonneg _)
    rcases h2 with h2 | ⟨t, ht, h2⟩
    · exact zero_case h2
    · rw [hB.alloc] at ht
      obtain ⟨p1, q1⟩ := unpos_lt .col ht
      rcases (hX _ _ p1 q1).2 with ⟨-, hz⟩ | ⟨a, b, ha, hb', hab⟩
      · exact zero_case (by rw [← h2, hz])
      · refine .inr ⟨_, _, ?_, ?_, hab.trans h2⟩
        · exact lt_of_lt_of_le (Nat.add_lt_add_left ha _) (offs_le_sum rs p1)
        · exact lt_of_lt_of_le (Nat.add_lt_add_left hb' _) (offs_le_sum cs q1)

/-! ### Witnesses -/

/-- A 2×2 sparse matrix with one stored element. -/
noncomputable def exNormS : Sparse ℝ := ⟨.col, Dim.mk' 2 2, [some 3], [some 1], [some 0, some 0, some 1]⟩

/-- C35, negative: the sum of two sparse parts has uninitialised spare cells, and every norm of a two-part
matrix of two sparse matrices reads them. -/
theorem C35_two_sparse_is_ub (k : NormKind) : (Mat.two (.sparse exNormS) (.sparse exNormS)).norm k = .error .ub := by
  cases k <;> rfl

theorem exNormS_valid : exNormS.Valid 2 2 [[], [(1, 3)]] where
  rows := rfl
  cols := rfl
  size := rfl
  runs := rfl
  offsLen := rfl
  offs := by intro q hq; match q, hq with | 0, _ => rfl | 1, _ => rfl | 2, _ => rfl
  keyLen := rfl
  cells := by
    intro p e h
    match p, h with
    | 0, h => cases h; exact ⟨rfl, rfl⟩
  bound := by simp [exNormS, Ori.majorIx]
  sorted := by simp

example : (Mat.one (.sparse exNormS)).Is 2 2 (fun i j => if i = 1 ∧ j = 1 then 3 else 0) ∧ Normable .one (.one (.sparse exNormS)) := by
  refine ⟨⟨⟨_, exNormS_valid, ?_⟩, rfl⟩, ⟨1, rfl, rfl⟩⟩
  intro i j hi hj
  match i, j, hi, hj with
  | 0, 0, _, _ => rfl
  | 0, 1, _, _ => rfl
  | 1, 0, _, _ => rfl
  | 1, 1, _, _ => rfl

/-- The 1-norm of [[3],[-4]] is 7, its 2-norm 5, its maximum norm 4. -/
example : IsNorm .one 2 1 (fun i _ => if i = 0 then 3 else -4) 7 ∧ IsNorm .two 2 1 (fun i _ => if i = 0 then 3 else -4) 5 ∧
    IsNorm .max 2 1 (fun i _ => if i = 0 then 3 else -4) 4 := by
  refine ⟨?_, ⟨by norm_num, ?_⟩, ?_, .inr ⟨1, 0, by omega, by omega, by norm_num⟩⟩
  · simp [IsNorm, Finset.sum_range_succ, abs_of_pos]; norm_num
  · simp [Finset.sum_range_succ]; norm_num
  · intro i j hi hj
    match i, hi with
    | 0, _ => norm_num [abs_of_pos]
    | 1, _ => norm_num

/-- A two-part matrix to which `C35_norm_partial` applies. -/
example : ∃ x, (Mat.two (.dense (Dense.ofFn .col 2 2 (fun i j => (i : ℝ) + j))) (.sparse exNormS)).norm .two = .ok x ∧
    IsNorm .two 2 2 (fun i j => (i : ℝ) + j + if i = 1 ∧ j = 1 then 3 else 0) x := by
  refine C35_norm_partial .two _ _ _ _ ⟨_, (fun i j => if i = 1 ∧ j = 1 then 3 else 0), ⟨Dense.ofFn_is .col 2 2 _, rfl⟩, ⟨⟨_, exNormS_valid, ?_⟩, rfl⟩, fun _ _ _ _ => rfl⟩ ⟨by simp, .inl rfl⟩
  intro i j hi hj
  match i, j, hi, hj with
  | 0, 0, _, _ => rfl
  | 0, 1, _, _ => rfl
  | 1, 0, _, _ => rfl
  | 1, 1, _, _ => rfl

end BB
