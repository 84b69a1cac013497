import Verif.Lemmas.NormFp
import Verif.Lemmas.FpOps
import Verif.Props.Expr

/-!
# C104: rounding errors of norms and deviations
-/

namespace BB

variable {F D : Type}

namespace RelErr

variable {u x y t s : ℝ} {N M : Nat}

theorem trans (h0 : 0 ≤ u) (h1 : u < 1) (hx : RelErr u N x t) (ht : RelErr u M t s) : RelErr u (N + M) x s := by
  refine ⟨?_, ?_⟩
  · calc (1 - u) ^ (N + M) * s = (1 - u) ^ N * ((1 - u) ^ M * s) := by rw [pow_add]; ring
      _ ≤ (1 - u) ^ N * t := mul_le_mul_of_nonneg_left ht.1 (pow_nonneg (by linarith) _)
      _ ≤ x := hx.1
  · calc x ≤ (1 + u) ^ N * t := hx.2
      _ ≤ (1 + u) ^ N * ((1 + u) ^ M * s) := mul_le_mul_of_nonneg_left ht.2 (pow_nonneg (by linarith) _)
      _ = _ := by rw [pow_add]; ring

theorem sum {I : Type} (S : Finset I) (a b : I → ℝ) (h : ∀ i ∈ S, RelErr u N (a i) (b i)) : RelErr u N (∑ i ∈ S, a i) (∑ i ∈ S, b i) := by
  refine ⟨?_, ?_⟩
  · rw [Finset.mul_sum]; exact Finset.sum_le_sum fun i hi => (h i hi).1
  · rw [Finset.mul_sum]; exact Finset.sum_le_sum fun i hi => (h i hi).2

end RelErr

theorem exists_max (r c : Nat) (e : Nat → Nat → ℝ) : ∃ y, IsNorm .max r c e y := by
  obtain ⟨y, _, hy⟩ := C35_dense .max (Dense.ofFn .col r c e) r c e (Dense.ofFn_is .col r c e)
  exact ⟨y, hy⟩

theorem max_relErr {u : ℝ} {r c : Nat} {a b : Nat → Nat → ℝ} {N : Nat} (h0 : 0 ≤ u)
    (h : ∀ i j, i < r → j < c → RelErr u N |a i j| |b i j|) {x y : ℝ} (hx : IsNorm .max r c a x) (hy : IsNorm .max r c b y) :
    RelErr u N x y := by
  obtain ⟨x1, x2⟩ := hx
  obtain ⟨y1, y2⟩ := hy
  rcases x2 with ⟨hz, rfl⟩ | ⟨i, j, hi, hj, rfl⟩
  · rcases y2 with ⟨_, rfl⟩ | ⟨i', j', hi', hj', _⟩
    · exact RelErr.zero
    · have := Nat.mul_pos (show 0 < r by omega) (show 0 < c by omega); omega
  · rcases y2 with ⟨hz, rfl⟩ | ⟨i', j', hi', hj', rfl⟩
    · have := Nat.mul_pos (show 0 < r by omega) (show 0 < c by omega); omega
    · refine ⟨(h i' j' hi' hj').1.trans (x1 _ _ hi' hj'), (h i j hi hj).2.trans ?_⟩
      exact mul_le_mul_of_nonneg_left (y1 _ _ hi hj) (pow_nonneg (by linarith) _)

/-- C104 for the matrices whose norm can be computed, of any kind and element type.  (Missing: the matrices excluded by
`TNormable`, as in C35.) -/
theorem C104_norm_partial [CommArith F] [CommArith D] (o : FOps D) (val : D → ℝ) (u : ℝ) (H : NormRounding o val u) (up : F → D)
    (hup : up 0 = 0) (k : NormKind) (M : TMat F D) (r c : Nat) (e : Nat → Nat → ℝ) (hM : M.Reals val up r c e) (hk : TNormable k M) :
    ∃ x, M.fnorm o up k = .ok x ∧ NormUpTo u (roundings (r * c) k M) k r c e (val x) := by
  have h0 := H.nonneg
  have h1 := H.lt_one
  cases M with
  | one A =>
    obtain ⟨f, hA, he⟩ := hM
    obtain ⟨x, hx, hn⟩ := TSMat.fnorm_sat H hup hA hk
    refine ⟨x, hx, ?_⟩
    cases k with
    | one =>
      have e1 : ∑ i ∈ Finset.range r, ∑ j ∈ Finset.range c, |e i j| = ∑ i ∈ Finset.range r, ∑ j ∈ Finset.range c, |val (f i j)| :=
        Finset.sum_congr rfl fun i hi => Finset.sum_congr rfl fun j hj => by rw [he i j (Finset.mem_range.1 hi) (Finset.mem_range.1 hj)]
      show RelErr u (r * c) (val x) _
      rw [e1]; exact hn
    | two =>
      have e1 : ∑ i ∈ Finset.range r, ∑ j ∈ Finset.range c, e i j ^ 2 = ∑ i ∈ Finset.range r, ∑ j ∈ Finset.range c, val (f i j) ^ 2 :=
        Finset.sum_congr rfl fun i hi => Finset.sum_congr rfl fun j hj => by rw [he i j (Finset.mem_range.1 hi) (Finset.mem_range.1 hj)]
      show 0 ≤ val x ∧ RelErr u (r * c + 3) (val x ^ 2) _
      rw [e1]; exact hn
    | max =>
      obtain ⟨y, hy⟩ := exists_max r c e
      refine ⟨y, hy, max_relErr h0 ?_ hn hy⟩
      intro i j hi hj
      rw [he i j hi hj]
      exact RelErr.refl
  | two X Y =>
    obtain ⟨f, g, hX, hY, he⟩ := hM
    obtain ⟨hk1, hk2, hk3⟩ := hk
    obtain ⟨S, eS, hS⟩ := TSMat.add_sat hup hX hY
    have hp := TSMat.add_prec eS
    replace hS : S.Is up r c (fun i j => f i j + g i j) := by
      rcases hS with ⟨a, b, -⟩ | ⟨-, h⟩
      · rcases hk3 with h | h
        · exact absurd h a
        · exact absurd h b
      · exact h
    have hd : S.prec = some .double ∧ S.stored = some true := by
      rw [hp.1, hp.2]
      cases X <;> cases Y <;> simp [TSMat.prec, TSMat.stored, sumPrec, sumStored] at hk2 hk3 ⊢
    have hkS : TNormable k (.one S) := by
      cases S <;> simp [TSMat.prec, TSMat.stored] at hd
      trivial
    obtain ⟨x, hx, hn⟩ := TSMat.fnorm_sat H hup hS hkS
    have hr : ∀ i j, i < r → j < c → RelErr u 1 |val (f i j + g i j)| |e i j| := by
      intro i j hi hj
      rw [he i j hi hj]
      exact RelErr.ofAbs (H.add _ _)
    refine ⟨x, ?_, ?_⟩
    · cases k with
      | one => exact absurd rfl hk1
      | two => simp only [TMat.fnorm]; rw [eS]; exact hx
      | max => simp only [TMat.fnorm]; rw [eS]; exact hx
    · cases k with
      | one => exact absurd rfl hk1
      | two =>
        obtain ⟨n1, n2⟩ := hn
        refine ⟨n1, ?_⟩
        refine RelErr.trans (N := r * c + 3) (M := 2) h0 h1 n2 ?_
        refine RelErr.sum _ _ _ fun i hi => RelErr.sum _ _ _ fun j hj => ?_
        have := (hr i j (Finset.mem_range.1 hi) (Finset.mem_range.1 hj)).sq h1 (abs_nonneg _)
        rwa [sq_abs, sq_abs] at this
      | max =>
        obtain ⟨y, hy⟩ := exists_max r c e
        exact ⟨y, hy, max_relErr h0 hr hn hy⟩

/-- C104: a norm computed up to roundings is 0 exactly for the zero matrix, and never negative. -/
theorem C104_zero (u : ℝ) (h1 : u < 1) (N : Nat) (k : NormKind) (r c : Nat) (e : Nat → Nat → ℝ) (x : ℝ)
    (h : NormUpTo u N k r c e x) : 0 ≤ x ∧ (x = 0 ↔ ∀ i j, i < r → j < c → e i j = 0) := by
  have hp : 0 < (1 - u) ^ N := pow_pos (by linarith) _
  have key : ∀ t z : ℝ, 0 ≤ t → RelErr u N z t → (z = 0 ↔ t = 0) := by
    intro t z ht hz
    constructor
    · rintro rfl
      have := hz.1
      by_contra hne
      have : 0 < (1 - u) ^ N * t := mul_pos hp (lt_of_le_of_ne ht (Ne.symm hne))
      linarith
    · rintro rfl
      have a := hz.1; have b := hz.2
      simp at a b
      exact le_antisymm b a
  have hsum : ∀ G : ℝ → ℝ, (∀ z, 0 ≤ G z) → (∀ z, G z = 0 ↔ z = 0) →
      (∑ i ∈ Finset.range r, ∑ j ∈ Finset.range c, G (e i j) = 0 ↔ ∀ i j, i < r → j < c → e i j = 0) := by
    intro G g0 g1
    rw [Finset.sum_eq_zero_iff_of_nonneg fun i _ => Finset.sum_nonneg fun j _ => g0 _]
    constructor
    · intro h i j hi hj
      have := (Finset.sum_eq_zero_iff_of_nonneg fun j _ => g0 _).1 (h i (Finset.mem_range.2 hi)) j (Finset.mem_range.2 hj)
      exact (g1 _).1 this
    · intro h i hi
      refine Finset.sum_eq_zero fun j hj => ?_
      rw [h i j (Finset.mem_range.1 hi) (Finset.mem_range.1 hj)]
      exact (g1 0).2 rfl
  cases k with
  | one =>
    have ht : 0 ≤ ∑ i ∈ Finset.range r, ∑ j ∈ Finset.range c, |e i j| := Finset.sum_nonneg fun _ _ => Finset.sum_nonneg fun _ _ => abs_nonneg _
    exact ⟨RelErr.nonneg h1 ht h, (key _ _ ht h).trans (hsum (fun z => |z|) (fun _ => abs_nonneg _) (fun _ => abs_eq_zero))⟩
  | two =>
    obtain ⟨hx, h⟩ := h
    have ht : 0 ≤ ∑ i ∈ Finset.range r, ∑ j ∈ Finset.range c, e i j ^ 2 := Finset.sum_nonneg fun _ _ => Finset.sum_nonneg fun _ _ => sq_nonneg _
    refine ⟨hx, ?_⟩
    rw [← hsum (fun z => z ^ 2) (fun _ => sq_nonneg _) (fun _ => pow_eq_zero_iff two_ne_zero), ← key _ _ ht h]
    exact (pow_eq_zero_iff two_ne_zero).symm
  | max =>
    obtain ⟨y, hy, h⟩ := h
    obtain ⟨l1, l2, -⟩ := C35_laws .max r c e y hy
    exact ⟨RelErr.nonneg h1 l1 h, (key _ _ l1 h).trans l2⟩

/-- C104: N roundings are a relative error of at most γ = N·u/(1 - N·u), as long as N·u < 1. -/
theorem C104_gamma (u : ℝ) (h0 : 0 ≤ u) (N : Nat) (hN : N * u < 1) (h1 : u < 1) (x t : ℝ) (ht : 0 ≤ t) (h : RelErr u N x t) :
    |x - t| ≤ N * u / (1 - N * u) * t := by
  have hd : 0 < 1 - N * u := by linarith
  have b : 1 - N * u ≤ (1 - u) ^ N := by
    have := one_add_mul_le_pow (show (-2 : ℝ) ≤ -u by linarith) N
    calc 1 - N * u = 1 + N * -u := by ring
      _ ≤ _ := this
      _ = _ := by ring
  have a : (1 + u) ^ N ≤ 1 / (1 - N * u) := by
    rw [le_div_iff₀ hd]
    calc (1 + u) ^ N * (1 - N * u) ≤ (1 + u) ^ N * (1 - u) ^ N := mul_le_mul_of_nonneg_left b (pow_nonneg (by linarith) _)
      _ = (1 - u ^ 2) ^ N := by rw [← mul_pow]; ring
      _ ≤ 1 := pow_le_one₀ (by nlinarith) (by nlinarith [sq_nonneg u])
  have e : 1 / (1 - N * u) = 1 + N * u / (1 - N * u) := by field_simp; ring
  have hg : N * u ≤ N * u / (1 - N * u) := by
    rw [le_div_iff₀ hd]
    have : 0 ≤ (N : ℝ) * u := mul_nonneg (Nat.cast_nonneg _) h0
    nlinarith
  rw [abs_le]
  constructor
  · have := (mul_le_mul_of_nonneg_right b ht).trans h.1
    have := mul_le_mul_of_nonneg_right hg ht
    linarith
  · have := h.2.trans (mul_le_mul_of_nonneg_right a ht)
    rw [e] at this
    linarith

/-- C104 for blocked matrices: the 2-norm, if no block has more than K elements. -/
theorem C104_blocked_partial [CommArith F] [CommArith D] (o : FOps D) (val : D → ℝ) (u : ℝ) (H : NormRounding o val u) (up : F → D)
    (hup : up 0 = 0) (B : TBlocked F D) (rs cs : List Nat) (e : Nat → Nat → ℝ) (hB : B.Reals val up rs cs e) (K : Nat)
    (hK : ∀ a ∈ rs, ∀ b ∈ cs, a * b ≤ K)
    (hk : ∀ i j M, i < rs.length → j < cs.length → B.grid.get i j = .ok M → TNormable .two M) :
    ∃ x, B.fnorm o up = .ok x ∧ NormUpTo u (K + rs.length * cs.length + 8) .two rs.sum cs.sum e (val x) := by
  have h0 := H.nonneg
  have h1 := H.lt_one
  have hview : B.grid.view = View.plain .col rs.length cs.length := by
    unfold Dense.view View.plain
    rw [hB.ori, hB.rows, hB.cols]
  let T : Nat → Nat → ℝ := fun p q => ∑ a ∈ Finset.range (rs.getD p 0), ∑ b ∈ Finset.range (cs.getD q 0), e (offs rs p + a) (offs cs q + b) ^ 2
  have T0 : ∀ p q, 0 ≤ T p q := fun p q => Finset.sum_nonneg fun _ _ => Finset.sum_nonneg fun _ _ => sq_nonneg _
  have key : ∀ p q, p < rs.length → q < cs.length → ∃ M x, B.grid.data.read (B.grid.view.base + B.grid.view.pos p q) = .ok M ∧
      M.fnorm o up .two = .ok x ∧ RelErr u (K + 6) (val (o.sq x)) (T p q) := by
    intro p q hp hq
    obtain ⟨M, eM, hM⟩ := hB.blocks p q hp hq
    obtain ⟨x, hx, n1, n2⟩ := C104_norm_partial o val u H up hup .two M _ _ _ hM (hk p q M hp hq eM)
    refine ⟨M, x, ?_, hx, ?_⟩
    · unfold Dense.get at eM
      rw [View.get_eq (by rw [hview]; exact hp) (by rw [hview]; exact hq)] at eM
      exact eM
    · have hle : rs.getD p 0 * cs.getD q 0 ≤ K := hK _ (getD_mem hp) _ (getD_mem hq)
      have n3 : RelErr u (K + 5) (val x ^ 2) (T p q) := by
        refine n2.mono h0 h1 (T0 p q) ?_
        cases M <;> simp only [roundings] <;> omega
      refine n3.round h0 h1 (T0 p q) ?_
      have := H.sq x
      rwa [abs_of_nonneg (sq_nonneg (val x))]
  obtain ⟨s, es, hs⟩ := Sat.raw (n := B.grid.data.length) (f := fun p s => do
      let x ← (← B.grid.data.read p).fnorm o up .two
      return s + o.sq x) (s := (0 : D))
    (fun n s => RelErr u (K + 6 + n) (val s) (∑ t ∈ Finset.range n, T (Dense.unpos .col rs.length cs.length t).1 (Dense.unpos .col rs.length cs.length t).2))
    (by simpa [H.zero] using RelErr.zero) (by
      intro t s ht hs
      have ht' : t < rs.length * cs.length := by rw [← hB.alloc]; exact ht
      obtain ⟨p1, p2, p3⟩ := Dense.unpos_spec .col ht'
      obtain ⟨M, x, e1, e2, e3⟩ := key _ _ p1 p2
      have e1' : B.grid.data.read t = .ok M := by
        rw [← e1, hview, p3]; simp [View.plain]
      refine Sat.read e1' (Sat.bind (Sat.of_eq e2 rfl) ?_)
      rintro x rfl
      refine Sat.pure ?_
      rw [Finset.sum_range_succ]
      have hs0 : 0 ≤ ∑ t ∈ Finset.range t, T (Dense.unpos .col rs.length cs.length t).1 (Dense.unpos .col rs.length cs.length t).2 :=
        Finset.sum_nonneg fun _ _ => T0 _ _
      exact (hs.add (e3.mono h0 h1 (T0 _ _) (by omega))).round h0 h1 (add_nonneg hs0 (T0 _ _)) (H.add _ _))
  rw [hB.alloc, sum_unpos .col _ _ T] at hs
  have ht : 0 ≤ ∑ p ∈ Finset.range rs.length, ∑ q ∈ Finset.range cs.length, T p q :=
    Finset.sum_nonneg fun _ _ => Finset.sum_nonneg fun _ _ => T0 _ _
  obtain ⟨z1, z2⟩ := hs.sqrt h0 h1 ht (H.sqrt s (hs.nonneg h1 ht))
  refine ⟨o.sqrt s, ?_, z1, ?_⟩
  · unfold TBlocked.fnorm
    rw [es]; rfl
  · rw [sum_blocks rs cs (fun i j => e i j ^ 2)]
    exact z2.mono h0 h1 ht (by omega)

/-! ### Deviations -/

/-- C104, maximal deviation of dense matrices of `double`s of equal size and orientation: the largest |A(i,j) - B(i,j)|
with one rounding. -/
theorem C104_max_deviation [Zero D] [Add D] (o : FOps D) (val : D → ℝ) (u : ℝ) (H : NormRounding o val u) (A B : Dense D) (r c : Nat)
    (f g : Nat → Nat → D) (hA : A.Is r c f) (hB : B.Is r c g) (ho : A.ori = B.ori) :
    ∃ x, A.fmaxDeviation o B = .ok x ∧ NormUpTo u 1 .max r c (fun i j => val (f i j) - val (g i j)) (val x) := by
  have hC : (Dense.ofFn A.ori r c (fun i j => o.sub (f i j) (g i j))).Is r c (fun i j => o.sub (f i j) (g i j)) := Dense.ofFn_is _ _ _ _
  obtain ⟨l, e, hl⟩ := Dense.fcovers (val := val) hC
  obtain ⟨x, hx, hn⟩ := hl.norm H .max
  rw [← e, hC.data_eq] at hx
  have hx' : (List.range (r * c)).foldl (fun s t => o.max s (o.abs (o.sub (f (Dense.unpos A.ori r c t).1 (Dense.unpos A.ori r c t).2)
      (g (Dense.unpos A.ori r c t).1 (Dense.unpos A.ori r c t).2)))) 0 = x := by
    rw [fnormBuf, foldBuf_map, List.foldl_map] at hx
    exact Except.ok.inj hx
  refine ⟨x, ?_, ?_⟩
  · unfold Dense.fmaxDeviation
    rw [hA.data_eq, hB.data_eq, foldBuf2_map, ← ho, hx']
  · obtain ⟨y, hy⟩ := exists_max r c (fun i j => val (f i j) - val (g i j))
    exact ⟨y, hy, max_relErr H.nonneg (fun i j _ _ => RelErr.ofAbs (H.sub _ _)) hn hy⟩

/-- C104, root mean square deviation of non-empty dense matrices of `double`s of equal size and orientation whose number of
elements is a `double`: its square is the mean of the squared differences with n + 6 roundings. -/
theorem C104_rms_deviation [Zero D] [Add D] (o : FOps D) (val : D → ℝ) (u : ℝ) (H : NormRounding o val u) (A B : Dense D) (r c : Nat)
    (f g : Nat → Nat → D) (hA : A.Is r c f) (hB : B.Is r c g) (ho : A.ori = B.ori) (hne : 0 < r * c)
    (hcount : val (o.count (r * c)) = ((r * c : Nat) : ℝ)) :
    ∃ x, A.frmsDeviation o B = .ok x ∧ 0 ≤ val x ∧ RelErr u (r * c + 6) (val x ^ 2)
      ((∑ i ∈ Finset.range r, ∑ j ∈ Finset.range c, (val (f i j) - val (g i j)) ^ 2) / ((r * c : Nat) : ℝ)) := by
  have h0 := H.nonneg
  have h1 := H.lt_one
  have hpos : (0 : ℝ) < ((r * c : Nat) : ℝ) := by exact_mod_cast hne
  let P : Nat → Nat × Nat := fun t => Dense.unpos A.ori r c t
  have hs := fold_sum H (fun t => o.sq (o.sub (f (P t).1 (P t).2) (g (P t).1 (P t).2)))
    (fun t => (val (f (P t).1 (P t).2) - val (g (P t).1 (P t).2)) ^ 2) 3 (List.range (r * c)) (by
      intro t _
      refine ⟨sq_nonneg _, ?_⟩
      have a := (RelErr.ofAbs (H.sub (f (P t).1 (P t).2) (g (P t).1 (P t).2))).sq h1 (abs_nonneg _)
      rw [sq_abs, sq_abs] at a
      refine a.round h0 h1 (sq_nonneg _) ?_
      have := H.sq (o.sub (f (P t).1 (P t).2) (g (P t).1 (P t).2))
      rwa [abs_of_nonneg (sq_nonneg (val (o.sub (f (P t).1 (P t).2) (g (P t).1 (P t).2))))]) 0 0 3 (le_refl _) (le_refl _)
    (by rw [H.zero]; exact RelErr.zero)
  rw [zero_add, list_sum_range, sum_unpos A.ori r c (fun i j => (val (f i j) - val (g i j)) ^ 2), List.length_range] at hs
  generalize em : (List.range (r * c)).foldl (fun s t => s + o.sq (o.sub (f (P t).1 (P t).2) (g (P t).1 (P t).2))) 0 = m at hs
  have hT : 0 ≤ ∑ i ∈ Finset.range r, ∑ j ∈ Finset.range c, (val (f i j) - val (g i j)) ^ 2 :=
    Finset.sum_nonneg fun _ _ => Finset.sum_nonneg fun _ _ => sq_nonneg _
  generalize (∑ i ∈ Finset.range r, ∑ j ∈ Finset.range c, (val (f i j) - val (g i j)) ^ 2) = T at hs hT
  have hq : RelErr u (3 + r * c) (val m / ((r * c : Nat) : ℝ)) (T / ((r * c : Nat) : ℝ)) := by
    refine ⟨?_, ?_⟩
    · rw [← mul_div_assoc]; exact div_le_div_of_nonneg_right hs.1 hpos.le
    · rw [← mul_div_assoc]; exact div_le_div_of_nonneg_right hs.2 hpos.le
  have hTn : 0 ≤ T / ((r * c : Nat) : ℝ) := div_nonneg hT hpos.le
  have hd := H.div m (o.count (r * c)) (by rw [hcount]; exact hpos.ne')
  rw [hcount] at hd
  have hq2 := hq.round h0 h1 hTn hd
  obtain ⟨z1, z2⟩ := hq2.sqrt h0 h1 hTn (H.sqrt _ (hq2.nonneg h1 hTn))
  refine ⟨_, ?_, z1, z2.mono h0 h1 hTn (by omega)⟩
  unfold Dense.frmsDeviation
  rw [hA.data_eq, hB.data_eq, foldBuf2_map, ← ho, hA.rows, hA.cols]
  show Except.ok (o.sqrt (o.div ((List.range (r * c)).foldl (fun s t => s + o.sq (o.sub (f (P t).1 (P t).2) (g (P t).1 (P t).2))) 0) _)) = _
  rw [em]

/-! ### Exact arithmetic -/

/-- C104: with exact arithmetic these are the functions of Model/Norm.lean. -/
theorem C104_exact_norms (k : NormKind) (b : Buf ℝ) : fnormBuf realOps k b = normBuf k b := by cases k <;> rfl

/-- C104: with exact arithmetic this is the function of Model/Compare.lean. -/
theorem C104_exact_deviation (A B : Dense ℝ) : A.fmaxDeviation realOps B = A.maxDeviation B := rfl

/-! ### `double` -/

/-- C104 for `float` and `double`: the square of the computed 2-norm of a matrix with n elements differs from the sum of the
squares by at most γ = m·2⁻⁵³/(1 - m·2⁻⁵³) of it, where m = n + 3 (n + 5 for two-part matrices). -/
theorem C104_double_partial (M : TMat Single Double) (r c : Nat) (e : Nat → Nat → ℝ) (hM : M.Reals (fun x => (x.val : ℝ)) toDouble r c e)
    (hk : TNormable .two M) (m : Nat) (hm : m = roundings (r * c) .two M) (hs : m < 2 ^ 53) :
    ∃ x, M.fnorm Fp.ops toDouble .two = .ok x ∧ 0 ≤ (x.val : ℝ) ∧
      |(x.val : ℝ) ^ 2 - ∑ i ∈ Finset.range r, ∑ j ∈ Finset.range c, e i j ^ 2| ≤
        m * (1 / 2 ^ 53) / (1 - m * (1 / 2 ^ 53)) * ∑ i ∈ Finset.range r, ∑ j ∈ Finset.range c, e i j ^ 2 := by
  have H := Fp.normRounding (p := 53) (md := ieee)
  have hu : (2 : ℝ) ^ (-((53 : Nat) : Int)) = 1 / 2 ^ 53 := by rw [zpow_neg, zpow_natCast, one_div]
  rw [hu] at H
  obtain ⟨x, hx, h0, hn⟩ := C104_norm_partial Fp.ops _ _ H toDouble rfl .two M r c e hM hk
  refine ⟨x, hx, h0, ?_⟩
  rw [← hm] at hn
  refine C104_gamma _ H.nonneg m ?_ H.lt_one _ _ (Finset.sum_nonneg fun _ _ => Finset.sum_nonneg fun _ _ => sq_nonneg _) hn
  have : (m : ℝ) < 2 ^ 53 := by exact_mod_cast hs
  rw [mul_one_div, div_lt_one (by positivity)]
  exact this

/-- A two-part matrix of the type list: its 2-norm is that of the sum of its parts up to 4 + 5 roundings. -/
example : ∃ (M : TMat Single Double) (e : Nat → Nat → ℝ), M.Reals (fun x => (x.val : ℝ)) toDouble 2 2 e ∧ TNormable .two M ∧
    M.kind = some .multSD ∧ roundings (2 * 2) .two M = 9 := by
  refine ⟨.two (.sparseD exprS) (.denseF (Dense.ofFn .col 2 2 (fun i j => .of (i + j)))), _,
    ⟨_, fun i j => toDouble (.of (i + j)), ⟨rfl, exprS_is⟩, ⟨rfl, _, Dense.ofFn_is _ _ _ _, fun _ _ _ _ => rfl⟩, fun _ _ _ _ => rfl⟩, ?_, rfl, rfl⟩
  exact ⟨by decide, .inr rfl, .inl rfl⟩

/-- Two matrices of `double`s to compare; the number of their elements is a `double`. -/
example : ∃ (A B : Dense Double) (f g : Nat → Nat → Double), A.Is 3 2 f ∧ B.Is 3 2 g ∧ A.ori = B.ori ∧
    (((Fp.ops (p := 53) (md := ieee)).count (3 * 2)).val : ℝ) = ((3 * 2 : Nat) : ℝ) :=
  ⟨_, _, _, _, Dense.ofFn_is .row 3 2 (fun i j => .of (i + j)), Dense.ofFn_is .row 3 2 (fun i _ => .of (i / 3)), rfl, Fp.count_exact _ (by norm_num)⟩

/-! ### Underflow -/

/-- C104, negative: without the exclusion of underflow a matrix other than 0 has the 2-norm √0: if the squares of all its
elements underflow to 0. -/
theorem C104_underflow_is_zero [AddZeroClass D] (o : FOps D) (A : Dense D) (r c : Nat) (f : Nat → Nat → D) (hA : A.Is r c f)
    (hz : ∀ i j, i < r → j < c → o.sq (f i j) = 0) : fnormBuf o .two A.data = .ok (o.sqrt 0) := by
  have key : ∀ l : List D, (∀ x ∈ l, o.sq x = 0) → l.foldl (fun s x => s + o.sq x) 0 = 0 := by
    intro l hl
    induction l with
    | nil => rfl
    | cons x l ih =>
      rw [List.foldl_cons, hl x (by simp), add_zero]
      exact ih (fun y hy => hl y (by simp [hy]))
  show (foldBuf (fun s x => s + o.sq x) A.data 0 >>= fun a => Except.ok (o.sqrt a)) = _
  rw [hA.data_eq, foldBuf_map, key]
  · rfl
  · intro x hx
    obtain ⟨t, ht, rfl⟩ := List.mem_map.1 hx
    have := unpos_lt A.ori (List.mem_range.1 ht)
    exact hz _ _ this.1 this.2

/-- Rational numbers whose squares underflow below 2^-1074. -/
def flushOps : FOps ℚ where
  abs x := |x|
  sq x := if x ^ 2 < 1 / 2 ^ 1074 then 0 else x ^ 2
  sqrt x := x
  max := Max.max
  sub x y := x - y
  div x y := x / y
  count n := n

/-- The matrix whose elements are all 2^-600 is not 0 and has the 2-norm 0. -/
example : (Dense.ofFn .col 2 2 (fun _ _ => (1 / 2 ^ 600 : ℚ))).Is 2 2 (fun _ _ => 1 / 2 ^ 600) ∧ (1 / 2 ^ 600 : ℚ) ≠ 0 ∧
    flushOps.sq (1 / 2 ^ 600) = 0 ∧ fnormBuf flushOps .two (Dense.ofFn .col 2 2 (fun _ _ => (1 / 2 ^ 600 : ℚ))).data = .ok 0 := by
  have h : flushOps.sq (1 / 2 ^ 600) = 0 := by
    show (if ((1 : ℚ) / 2 ^ 600) ^ 2 < 1 / 2 ^ 1074 then 0 else (1 / 2 ^ 600) ^ 2 : ℚ) = 0
    rw [if_pos (by
      rw [div_pow, one_pow, ← pow_mul]
      exact one_div_lt_one_div_of_lt (by positivity) (pow_lt_pow_right₀ (by norm_num) (by norm_num)))]
  exact ⟨Dense.ofFn_is _ _ _ _, by positivity, h, C104_underflow_is_zero flushOps _ 2 2 _ (Dense.ofFn_is _ _ _ _) (fun _ _ _ _ => h)⟩

end BB
