import Verif.SpecExpr
import Verif.Props.Typed

/-!
# C101: expressions over dynamic matrices
-/

namespace BB

variable {F D : Type}

theorem Rounding.mono {R : Type} [Zero R] [Add R] [Mul R] {val : R → ℚ} {u u' : ℚ} (h : Rounding val u) (hu : u ≤ u') : Rounding val u' where
  nonneg := h.nonneg.trans hu
  zero := h.zero
  add a b := (h.add a b).trans (mul_le_mul_of_nonneg_right hu (abs_nonneg _))
  mul a b := (h.mul a b).trans (mul_le_mul_of_nonneg_right hu (abs_nonneg _))

/-- The exact product of two approximations. -/
theorem Near.prod {u : ℚ} (hu : 0 ≤ u) {n m : Nat} {x y e w e' w' : ℚ} (hx : Near u n x e w) (hy : Near u m y e' w') :
    Near u (n + m) (x * y) (e * e') (w * w') := by
  obtain ⟨hx1, hx2⟩ := hx
  obtain ⟨hy1, hy2⟩ := hy
  have hw : 0 ≤ w := (abs_nonneg e).trans hx2
  have hw' : 0 ≤ w' := (abs_nonneg e').trans hy2
  have p1 : 1 ≤ (1 + u) ^ n := one_le_pow₀ (by linarith)
  have p2 : 1 ≤ (1 + u) ^ m := one_le_pow₀ (by linarith)
  refine ⟨?_, by rw [abs_mul]; exact mul_le_mul hx2 hy2 (abs_nonneg _) hw⟩
  rw [pow_add]
  generalize (1 + u) ^ n = a at *
  generalize (1 + u) ^ m = b at *
  have hxs : |x| ≤ a * w := by
    calc |x| = |(x - e) + e| := by congr 1; ring
      _ ≤ |x - e| + |e| := abs_add_le _ _
      _ ≤ (a - 1) * w + w := add_le_add hx1 hx2
      _ = a * w := by ring
  calc |x * y - e * e'| = |x * (y - e') + (x - e) * e'| := by congr 1; ring
    _ ≤ |x * (y - e')| + |(x - e) * e'| := abs_add_le _ _
    _ = |x| * |y - e'| + |x - e| * |e'| := by rw [abs_mul, abs_mul]
    _ ≤ (a * w) * ((b - 1) * w') + ((a - 1) * w) * w' :=
      add_le_add (mul_le_mul hxs hy1 (abs_nonneg _) (by positivity))
        (mul_le_mul hx1 hy2 (abs_nonneg _) (mul_nonneg (by linarith) hw))
    _ = (a * b - 1) * (w * w') := by ring

/-- A row-by-column product of approximations. -/
theorem Near.dotApprox {R : Type} [Arith R] {val : R → ℚ} {u : ℚ} (hr : Rounding val u) {f g : Nat → Nat → R} {N M k i j : Nat}
    {e w e' w' : Nat → Nat → ℚ} (hf : ∀ l, l < k → Near u N (val (f i l)) (e i l) (w i l))
    (hg : ∀ l, l < k → Near u M (val (g l j)) (e' l j) (w' l j)) :
    Near u (N + M + k) (val (dotSeq f g k i j)) (∑ l ∈ Finset.range k, e i l * e' l j) (∑ l ∈ Finset.range k, w i l * w' l j) := by
  have hm : ∀ l, l < k → Near u (N + M + 1) (val (f i l * g l j)) (e i l * e' l j) (w i l * w' l j) := by
    intro l hl
    have h := Near.prod hr.nonneg (hf l hl) (hg l hl)
    have hw : 0 ≤ w i l * w' l j := (abs_nonneg _).trans h.2
    have hp : 1 ≤ (1 + u) ^ (N + M) := one_le_pow₀ (by linarith [hr.nonneg])
    refine ⟨?_, h.2⟩
    have hsz : |val (f i l) * val (g l j)| ≤ (1 + u) ^ (N + M) * (w i l * w' l j) := by
      calc |val (f i l) * val (g l j)| = |(val (f i l) * val (g l j) - e i l * e' l j) + e i l * e' l j| := by congr 1; ring
        _ ≤ _ := abs_add_le _ _
        _ ≤ ((1 + u) ^ (N + M) - 1) * (w i l * w' l j) + w i l * w' l j := add_le_add h.1 h.2
        _ = _ := by ring
    calc |val (f i l * g l j) - e i l * e' l j|
        = |(val (f i l * g l j) - val (f i l) * val (g l j)) + (val (f i l) * val (g l j) - e i l * e' l j)| := by congr 1; ring
      _ ≤ _ := abs_add_le _ _
      _ ≤ u * ((1 + u) ^ (N + M) * (w i l * w' l j)) + ((1 + u) ^ (N + M) - 1) * (w i l * w' l j) :=
        add_le_add ((hr.mul _ _).trans (mul_le_mul_of_nonneg_left hsz hr.nonneg)) h.1
      _ = ((1 + u) ^ (N + M + 1) - 1) * (w i l * w' l j) := by rw [pow_succ]; ring
  clear hf hg
  induction k with
  | zero => simpa [dotSeq_zero, hr.zero] using Near.zero _ hr.nonneg
  | succ k ih =>
    rw [dotSeq_succ, Finset.sum_range_succ, Finset.sum_range_succ]
    rcases Nat.eq_zero_or_pos k with rfl | hk
    · simpa [dotSeq_zero] using hm 0 (by omega)
    · exact Near.add hr (ih fun l hl => hm l (by omega)) ((hm k (by omega)).mono hr.nonneg (show N + M + 1 ≤ N + M + k by omega))

/-- The matrix approximates `e` relative to `w`. -/
def TSMat.Appr [Zero F] [Zero D] (valD : D → ℚ) (up : F → D) (u : ℚ) (N : Nat) (C : TSMat F D) (m n : Nat) (e w : Nat → Nat → ℚ) : Prop :=
  ∃ h, C.Is up m n h ∧ ∀ i j, i < m → j < n → Near u N (valD (h i j)) (e i j) (w i j)

/-- The same for matrices of any kind. -/
def TMat.Appr [Zero F] [Zero D] (valD : D → ℚ) (up : F → D) (u : ℚ) (N : Nat) : TMat F D → Nat → Nat → (e w : Nat → Nat → ℚ) → Prop
  | .one A, r, c, e, w => A.Appr valD up u N r c e w
  | .two X Y, r, c, e, w => ∃ e1 w1 e2 w2, X.Appr valD up u N r c e1 w1 ∧ Y.Appr valD up u N r c e2 w2 ∧
      ∀ i j, i < r → j < c → e i j = e1 i j + e2 i j ∧ w i j = w1 i j + w2 i j

theorem TSMat.Appr.mono [Zero F] [Zero D] {valD : D → ℚ} {up : F → D} {u : ℚ} (hu : 0 ≤ u) {N N' : Nat} (hN : N ≤ N') {C : TSMat F D}
    {m n : Nat} {e w e' w' : Nat → Nat → ℚ} (h : C.Appr valD up u N m n e w)
    (he : ∀ i j, i < m → j < n → e i j = e' i j ∧ w i j = w' i j) : C.Appr valD up u N' m n e' w' := by
  obtain ⟨g, hg, hN'⟩ := h
  refine ⟨g, hg, fun i j hi hj => ?_⟩
  obtain ⟨a, b⟩ := he i j hi hj
  rw [← a, ← b]
  exact (hN' i j hi hj).mono hu hN

/-- One of the operands has `double` elements, or the error unit is that of `float`. -/
def Fine (uf ud u : ℚ) (A B : TSMat F D) : Prop := uf ≤ u ∨ (ud ≤ u ∧ (A.prec = some .double ∨ B.prec = some .double))

theorem TSMat.add_appr [CommArith F] [CommArith D] {valF : F → ℚ} {valD : D → ℚ} {up : F → D} {uf ud u : ℚ}
    (H : Formats valF valD up uf ud) {N : Nat} {A B : TSMat F D} (hu : Fine uf ud u A B) {r c : Nat} {e w e' w' : Nat → Nat → ℚ}
    (hA : A.Appr valD up u N r c e w) (hB : B.Appr valD up u N r c e' w') :
    Sat (TSMat.add up A B) (fun C => C.Appr valD up u (N + 1) r c (fun i j => e i j + e' i j) (fun i j => w i j + w' i j)) := by
  obtain ⟨f, hf, nf⟩ := hA
  obtain ⟨g, hg, ng⟩ := hB
  refine Sat.mono (TSMat.add_sat H.up_zero hf hg) ?_
  have hdu : ud ≤ u := by
    rcases hu with h | ⟨h, -⟩
    · exact H.finer.trans h
    · exact h
  rintro C (⟨pA, pB, f0, g0, ef, eg, hC⟩ | ⟨hd, hC⟩)
  · have hfu : uf ≤ u := by
      rcases hu with h | ⟨-, h | h⟩
      · exact h
      · exact absurd h pA
      · exact absurd h pB
    refine ⟨_, hC, fun i j hi hj => ?_⟩
    have m1 := nf i j hi hj
    have m2 := ng i j hi hj
    rw [ef i j hi hj, H.up_val] at m1
    rw [eg i j hi hj, H.up_val] at m2
    rw [H.up_val]
    exact Near.add (H.single.mono hfu) m1 m2
  · exact ⟨_, hC, fun i j hi hj => Near.add (H.double.mono hdu) (nf i j hi hj) (ng i j hi hj)⟩

theorem TSMat.mul_appr [CommArith F] [CommArith D] [DecidableEq F] [DecidableEq D] {valF : F → ℚ} {valD : D → ℚ} {up : F → D} {uf ud u : ℚ}
    (H : Formats valF valD up uf ud) {N M : Nat} {A B : TSMat F D} (hu : Fine uf ud u A B) {r k c : Nat} {e w e' w' : Nat → Nat → ℚ}
    (hA : A.Appr valD up u N r k e w) (hB : B.Appr valD up u M k c e' w') :
    Sat (TSMat.mul up A B) (fun C => C.Appr valD up u (N + M + k) r c (fun i j => ∑ l ∈ Finset.range k, e i l * e' l j)
      (fun i j => ∑ l ∈ Finset.range k, w i l * w' l j)) := by
  obtain ⟨f, hf, nf⟩ := hA
  obtain ⟨g, hg, ng⟩ := hB
  refine Sat.mono (TSMat.mul_sat H.up_zero hf hg) ?_
  have hdu : ud ≤ u := by
    rcases hu with h | ⟨h, -⟩
    · exact H.finer.trans h
    · exact h
  rintro C (⟨pA, pB, f0, g0, ef, eg, hC⟩ | ⟨hd, hC⟩)
  · have hfu : uf ≤ u := by
      rcases hu with h | ⟨-, h | h⟩
      · exact h
      · exact absurd h pA
      · exact absurd h pB
    refine ⟨_, hC, fun i j hi hj => ?_⟩
    rw [H.up_val]
    refine Near.dotApprox (H.single.mono hfu) (fun l hl => ?_) (fun l hl => ?_)
    · have := nf i l hi hl
      rwa [ef i l hi hl, H.up_val] at this
    · have := ng l j hl hj
      rwa [eg l j hl hj, H.up_val] at this
  · exact ⟨_, hC, fun i j hi hj => Near.dotApprox (H.double.mono hdu) (fun l hl => nf i l hi hl) (fun l hl => ng l j hl hj)⟩

/-- What a bound on the error unit needs for a sum of matrices of the type list. -/
def FineSum (uf ud u : ℚ) (A B : TMat F D) : Prop :=
  uf ≤ u ∨ (ud ≤ u ∧ ∃ a b, A.kind = some a ∧ B.kind = some b ∧ (a.hasDouble ∨ b.hasDouble))

/-- What a bound on the error unit needs for a product of matrices of the type list. -/
def FineProduct (uf ud u : ℚ) (A B : TMat F D) : Prop :=
  uf ≤ u ∨ (ud ≤ u ∧ ∃ a b, A.kind = some a ∧ B.kind = some b ∧ (a.onlyDouble ∨ b.onlyDouble))

theorem prec_of_hasDouble {A : TSMat F D} {a : Kind} (h : (TMat.one A).kind = some a) (hd : a.hasDouble) : A.prec = some .double := by
  cases A <;> simp only [TMat.kind, Option.some.injEq] at h <;> subst h <;> first | rfl | cases hd

theorem onlyDouble_one {A : TMat F D} {a : Kind} (h : A.kind = some a) (hd : a.onlyDouble) : ∃ S, A = .one S ∧ S.prec = some .double := by
  cases A with
  | one S =>
    refine ⟨S, rfl, prec_of_hasDouble h ?_⟩
    cases a <;> first | rfl | cases hd
  | two X Y =>
    obtain ⟨-, ⟨-, rfl⟩ | ⟨-, rfl⟩⟩ := kind_two h <;> cases hd

theorem two_prec {X Y : TSMat F D} {a : Kind} (h : (TMat.two X Y).kind = some a) : X.prec = some .double ∧ Y.prec = some .single := by
  cases X <;> cases Y <;> simp [TMat.kind] at h <;> exact ⟨rfl, rfl⟩

theorem sum_double {A B C : TSMat F D} [Add F] [Add D] {up : F → D} (h : TSMat.add up A B = .ok C)
    (hd : A.prec = some .double ∨ B.prec = some .double) : C.prec = some .double := by
  rw [(TSMat.add_prec h).1]
  rcases hd with h | h <;> rw [h]
  · cases B.prec with
    | none => rfl
    | some p => cases p <;> rfl
  · cases A.prec with
    | none => rfl
    | some p => cases p <;> rfl

theorem TMat.Appr.mono [Zero F] [Zero D] {valD : D → ℚ} {up : F → D} {u : ℚ} (hu : 0 ≤ u) {N N' : Nat} (hN : N ≤ N') {C : TMat F D}
    {m n : Nat} {e w : Nat → Nat → ℚ} (h : C.Appr valD up u N m n e w) : C.Appr valD up u N' m n e w := by
  cases C with
  | one A => exact TSMat.Appr.mono hu hN h fun _ _ _ _ => ⟨rfl, rfl⟩
  | two X Y =>
    obtain ⟨e1, w1, e2, w2, h1, h2, h3⟩ := h
    exact ⟨e1, w1, e2, w2, h1.mono hu hN fun _ _ _ _ => ⟨rfl, rfl⟩, h2.mono hu hN fun _ _ _ _ => ⟨rfl, rfl⟩, h3⟩

/-- The number of parts. -/
def TMat.parts : TMat F D → Nat
  | .one _ => 1
  | .two _ _ => 2

theorem TMat.add_appr [CommArith F] [CommArith D] {valF : F → ℚ} {valD : D → ℚ} {up : F → D} {uf ud u : ℚ}
    (H : Formats valF valD up uf ud) {N : Nat} {A B : TMat F D} (hu : FineSum uf ud u A B) {r c : Nat} {e w e' w' : Nat → Nat → ℚ}
    (hA : A.Appr valD up u N r c e w) (hB : B.Appr valD up u N r c e' w') :
    Sat (TMat.add up A B) (fun C => C.Appr valD up u (N + (A.parts + B.parts - 1)) r c (fun i j => e i j + e' i j) (fun i j => w i j + w' i j)) := by
  have hu0 : 0 ≤ u := by
    rcases hu with h | ⟨h, -⟩
    · exact H.single.nonneg.trans h
    · exact H.double.nonneg.trans h
  have up1 : ∀ {C : TSMat F D} {e w : Nat → Nat → ℚ} {N : Nat}, C.Appr valD up u N r c e w → C.Appr valD up u (N + 1) r c e w :=
    fun h => h.mono hu0 (Nat.le_succ _) fun _ _ _ _ => ⟨rfl, rfl⟩
  cases A with
  | one A =>
    cases B with
    | one B =>
      refine TSMat.add_appr H ?_ hA hB
      rcases hu with h | ⟨h, a, b, ka, kb, hd⟩
      · exact .inl h
      · exact .inr ⟨h, hd.imp (prec_of_hasDouble ka) (prec_of_hasDouble kb)⟩
    | two B1 B2 =>
      obtain ⟨e1, w1, e2, w2, h1, h2, h3⟩ := hB
      have f1 : Fine uf ud u A B1 := hu.imp id fun ⟨h, a, b, ka, kb, hd⟩ => ⟨h, .inr (two_prec kb).1⟩
      obtain ⟨C1, eC1, hC1⟩ := TSMat.add_appr H f1 hA h1
      have f2 : Fine uf ud u C1 B2 := hu.imp id fun ⟨h, a, b, ka, kb, hd⟩ => ⟨h, .inl (sum_double eC1 (.inr (two_prec kb).1))⟩
      simp only [TMat.add, eC1, bind_ok']
      refine Sat.mono (TSMat.add_appr H f2 hC1 (up1 h2)) fun C hC => hC.mono hu0 (le_of_eq rfl) fun i j hi hj => ?_
      obtain ⟨a, b⟩ := h3 i j hi hj
      rw [a, b]; constructor <;> ring
  | two A1 A2 =>
    obtain ⟨f1, v1, f2, v2, k1, k2, k3⟩ := hA
    have g1 : Fine uf ud u A1 A2 := hu.imp id fun ⟨h, a, b, ka, kb, hd⟩ => ⟨h, .inl (two_prec ka).1⟩
    obtain ⟨C1, eC1, hC1⟩ := TSMat.add_appr H g1 k1 k2
    have g2 : ∀ B, Fine uf ud u C1 B := fun B => hu.imp id fun ⟨h, a, b, ka, kb, hd⟩ => ⟨h, .inl (sum_double eC1 (.inl (two_prec ka).1))⟩
    cases B with
    | one B =>
      simp only [TMat.add, eC1, bind_ok']
      refine Sat.mono (TSMat.add_appr H (g2 B) hC1 (up1 hB)) fun C hC => hC.mono hu0 (le_of_eq rfl) fun i j hi hj => ?_
      obtain ⟨a, b⟩ := k3 i j hi hj
      rw [a, b]; constructor <;> ring
    | two B1 B2 =>
      obtain ⟨e1, w1, e2, w2, h1, h2, h3⟩ := hB
      obtain ⟨C2, eC2, hC2⟩ := TSMat.add_appr H (g2 B1) hC1 (up1 h1)
      have g3 : Fine uf ud u C2 B2 := hu.imp id fun ⟨h, a, b, ka, kb, hd⟩ => ⟨h, .inl (sum_double eC2 (.inr (two_prec kb).1))⟩
      simp only [TMat.add, eC1, eC2, bind_ok']
      refine Sat.mono (TSMat.add_appr H g3 hC2 (up1 (up1 h2))) fun C hC => hC.mono hu0 (le_of_eq rfl) fun i j hi hj => ?_
      obtain ⟨a, b⟩ := h3 i j hi hj
      obtain ⟨a', b'⟩ := k3 i j hi hj
      rw [a, b, a', b']; constructor <;> ring

theorem product_double {A B C : TSMat F D} [Zero F] [Add F] [Mul F] [DecidableEq F] [Zero D] [Add D] [Mul D] [DecidableEq D] {up : F → D}
    (h : TSMat.mul up A B = .ok C) (hd : A.prec = some .double ∧ B.prec ≠ none ∨ B.prec = some .double ∧ A.prec ≠ none) :
    C.prec = some .double := by
  rw [(TSMat.mul_prec h).1]
  rcases hd with ⟨h, h'⟩ | ⟨h, h'⟩ <;> rw [h]
  · cases e : B.prec with
    | none => exact absurd e h'
    | some p => cases p <;> rfl
  · cases e : A.prec with
    | none => exact absurd e h'
    | some p => cases p <;> rfl

theorem TMat.mul_appr [CommArith F] [CommArith D] [DecidableEq F] [DecidableEq D] {valF : F → ℚ} {valD : D → ℚ} {up : F → D} {uf ud u : ℚ}
    (H : Formats valF valD up uf ud) {N M : Nat} {A B : TMat F D} (hu : FineProduct uf ud u A B) {r k c : Nat} {e w e' w' : Nat → Nat → ℚ}
    (hA : A.Appr valD up u N r k e w) (hB : B.Appr valD up u M k c e' w') :
    Sat (TMat.mul up A B) (fun C => C.Appr valD up u (N + M + (k + A.parts * B.parts - 1)) r c
      (fun i j => ∑ l ∈ Finset.range k, e i l * e' l j) (fun i j => ∑ l ∈ Finset.range k, w i l * w' l j)) := by
  have hu0 : 0 ≤ u := by
    rcases hu with h | ⟨h, -⟩
    · exact H.single.nonneg.trans h
    · exact H.double.nonneg.trans h
  have up1 : ∀ {C : TSMat F D} {e w : Nat → Nat → ℚ} {N : Nat}, C.Appr valD up u N r c e w → C.Appr valD up u (N + 1) r c e w :=
    fun h => h.mono hu0 (Nat.le_succ _) fun _ _ _ _ => ⟨rfl, rfl⟩
  have sumc : ∀ {a b : Nat → ℚ}, (∀ l, l < k → a l = b l) → ∑ l ∈ Finset.range k, a l = ∑ l ∈ Finset.range k, b l :=
    fun h => Finset.sum_congr rfl fun l hl => h l (Finset.mem_range.1 hl)
  cases A with
  | one A =>
    cases B with
    | one B =>
      refine Sat.mono (TSMat.mul_appr H ?_ hA hB) fun C hC => hC.mono hu0 (by simp [TMat.parts]) fun _ _ _ _ => ⟨rfl, rfl⟩
      rcases hu with h | ⟨h, a, b, ka, kb, hd | hd⟩
      · exact .inl h
      · obtain ⟨S, eS, hS⟩ := onlyDouble_one ka hd
        cases eS; exact .inr ⟨h, .inl hS⟩
      · obtain ⟨S, eS, hS⟩ := onlyDouble_one kb hd
        cases eS; exact .inr ⟨h, .inr hS⟩
    | two B1 B2 =>
      obtain ⟨e1, w1, e2, w2, h1, h2, h3⟩ := hB
      have hx : uf ≤ u ∨ (ud ≤ u ∧ A.prec = some .double ∧ B1.prec = some .double ∧ B2.prec = some .single) := by
        refine hu.imp id fun ⟨h, a, b, ka, kb, hd⟩ => ⟨h, ?_, two_prec kb⟩
        rcases hd with hd | hd
        · obtain ⟨S, eS, hS⟩ := onlyDouble_one ka hd
          cases eS; exact hS
        · obtain ⟨S, eS, hS⟩ := onlyDouble_one kb hd
          cases eS
      have f1 : Fine uf ud u A B1 := hx.imp id fun ⟨h, a, _⟩ => ⟨h, .inl a⟩
      have f2 : Fine uf ud u A B2 := hx.imp id fun ⟨h, a, _⟩ => ⟨h, .inl a⟩
      obtain ⟨C1, eC1, hC1⟩ := TSMat.mul_appr H f1 hA h1
      obtain ⟨C2, eC2, hC2⟩ := TSMat.mul_appr H f2 hA h2
      have f3 : Fine uf ud u C1 C2 := hx.imp id fun ⟨h, a, b, _⟩ => ⟨h, .inl (product_double eC1 (.inl ⟨a, by simp [b]⟩))⟩
      simp only [TMat.mul, eC1, eC2, bind_ok']
      refine Sat.mono (TSMat.add_appr H f3 hC1 hC2) fun C hC => hC.mono hu0 (by simp only [TMat.parts]; omega) fun i j hi hj => ?_
      simp only [← Finset.sum_add_distrib]
      refine ⟨sumc fun l hl => ?_, sumc fun l hl => ?_⟩ <;> obtain ⟨a, b⟩ := h3 l j hl hj
      · rw [a]; ring
      · rw [b]; ring
  | two A1 A2 =>
    obtain ⟨f1, v1, f2, v2, k1, k2, k3⟩ := hA
    cases B with
    | one B =>
      have hx : uf ≤ u ∨ (ud ≤ u ∧ B.prec = some .double ∧ A1.prec = some .double ∧ A2.prec = some .single) := by
        refine hu.imp id fun ⟨h, a, b, ka, kb, hd⟩ => ⟨h, ?_, two_prec ka⟩
        rcases hd with hd | hd
        · obtain ⟨S, eS, hS⟩ := onlyDouble_one ka hd
          cases eS
        · obtain ⟨S, eS, hS⟩ := onlyDouble_one kb hd
          cases eS; exact hS
      have g1 : Fine uf ud u A1 B := hx.imp id fun ⟨h, a, _⟩ => ⟨h, .inr a⟩
      have g2 : Fine uf ud u A2 B := hx.imp id fun ⟨h, a, _⟩ => ⟨h, .inr a⟩
      obtain ⟨C1, eC1, hC1⟩ := TSMat.mul_appr H g1 k1 hB
      obtain ⟨C2, eC2, hC2⟩ := TSMat.mul_appr H g2 k2 hB
      have g3 : Fine uf ud u C1 C2 := hx.imp id fun ⟨h, a, b, _⟩ => ⟨h, .inl (product_double eC1 (.inr ⟨a, by simp [b]⟩))⟩
      simp only [TMat.mul, eC1, eC2, bind_ok']
      refine Sat.mono (TSMat.add_appr H g3 hC1 hC2) fun C hC => hC.mono hu0 (by simp only [TMat.parts]; omega) fun i j hi hj => ?_
      simp only [← Finset.sum_add_distrib]
      refine ⟨sumc fun l hl => ?_, sumc fun l hl => ?_⟩ <;> obtain ⟨a, b⟩ := k3 i l hi hl
      · rw [a]; ring
      · rw [b]; ring
    | two B1 B2 =>
      obtain ⟨e1, w1, e2, w2, h1, h2, h3⟩ := hB
      have hx : uf ≤ u := by
        rcases hu with h | ⟨-, a, b, ka, kb, hd | hd⟩
        · exact h
        · obtain ⟨S, eS, hS⟩ := onlyDouble_one ka hd
          cases eS
        · obtain ⟨S, eS, hS⟩ := onlyDouble_one kb hd
          cases eS
      have g : ∀ X Y, Fine (F := F) (D := D) uf ud u X Y := fun X Y => .inl hx
      refine Sat.bind (TSMat.mul_appr H (g _ _) k1 h1) fun C1 hC1 => Sat.bind (TSMat.mul_appr H (g _ _) k1 h2) fun C2 hC2 => ?_
      refine Sat.bind (TSMat.add_appr H (g _ _) hC1 hC2) fun C3 hC3 => ?_
      refine Sat.bind (TSMat.mul_appr H (g _ _) k2 h1) fun C4 hC4 => ?_
      refine Sat.bind (TSMat.add_appr H (g _ _) hC3 (up1 hC4)) fun C5 hC5 => ?_
      refine Sat.bind (TSMat.mul_appr H (g _ _) k2 h2) fun C6 hC6 => ?_
      refine Sat.mono (TSMat.add_appr H (g _ _) hC5 (up1 (up1 hC6))) fun C hC => hC.mono hu0 (by simp only [TMat.parts]; omega) fun i j hi hj => ?_
      simp only [← Finset.sum_add_distrib]
      refine ⟨sumc fun l hl => ?_, sumc fun l hl => ?_⟩ <;> obtain ⟨a, b⟩ := h3 l j hl hj <;> obtain ⟨a', b'⟩ := k3 i l hi hl
      · rw [a, a']; ring
      · rw [b, b']; ring

/-- C101: the runtime type of the value of an expression is computed from those of the matrices in it. -/
theorem C101_type [Zero F] [Add F] [Mul F] [DecidableEq F] [Zero D] [Add D] [Mul D] [DecidableEq D] (up : F → D) (a : TExpr F D) (k : Kind)
    (hk : a.kind = some k) (M : TMat F D) (h : a.eval up = .ok M) : M.kind = some k := by
  induction a generalizing k M with
  | leaf A => cases h; exact hk
  | add a b iha ihb =>
    simp only [TExpr.kind] at hk
    cases ka : a.kind with
    | none => rw [ka] at hk; cases hk
    | some ka' =>
      cases kb : b.kind with
      | none => rw [ka, kb] at hk; cases hk
      | some kb' =>
        rw [ka, kb] at hk; cases hk
        simp only [TExpr.eval] at h
        cases ea : a.eval up with
        | error x => rw [ea] at h; cases h
        | ok x =>
          cases eb : b.eval up with
          | error y => rw [ea, eb] at h; cases h
          | ok y =>
            rw [ea, eb] at h
            simp only [bind_ok'] at h
            cases ec : TMat.add up x y with
            | error z => rw [ec] at h; cases h
            | ok z => rw [ec] at h; cases h; exact C96_sum_type up x y z _ _ (iha _ ka _ ea) (ihb _ kb _ eb) ec
  | mul a b iha ihb =>
    simp only [TExpr.kind] at hk
    cases ka : a.kind with
    | none => rw [ka] at hk; cases hk
    | some ka' =>
      cases kb : b.kind with
      | none => rw [ka, kb] at hk; cases hk
      | some kb' =>
        rw [ka, kb] at hk; cases hk
        simp only [TExpr.eval] at h
        cases ea : a.eval up with
        | error x => rw [ea] at h; cases h
        | ok x =>
          cases eb : b.eval up with
          | error y => rw [ea, eb] at h; cases h
          | ok y =>
            rw [ea, eb] at h
            simp only [bind_ok'] at h
            cases ec : TMat.mul up x y with
            | error z => rw [ec] at h; cases h
            | ok z => rw [ec] at h; cases h; exact C96_product_type up x y z _ _ (iha _ ka _ ea) (ihb _ kb _ eb) ec

theorem TMat.Stands.appr [Zero F] [Zero D] {valD : D → ℚ} {up : F → D} {u : ℚ} {A : TMat F D} {r c : Nat} {e p q : Nat → Nat → ℚ}
    (h : A.Stands valD up r c e p q) : A.Appr valD up u 0 r c e (fun i j => p i j + q i j) := by
  have key : ∀ {A : TSMat F D} {e p q : Nat → Nat → ℚ}, A.Stands valD up r c e p q → A.Appr valD up u 0 r c e (fun i j => p i j + q i j) := by
    rintro A e p q ⟨f, hf, h⟩
    refine ⟨f, hf, fun i j hi hj => ?_⟩
    obtain ⟨a, b, d⟩ := h i j hi hj
    beta_reduce
    rw [a, b, d]
    by_cases hp : A.prec = some .double
    · simp [Near, hp]
    · simp [Near, hp]
  cases A with
  | one A => exact key h
  | two X Y =>
    obtain ⟨e1, p1, q1, e2, p2, q2, h1, h2, h3⟩ := h
    refine ⟨_, _, _, _, key h1, key h2, fun i j hi hj => ?_⟩
    obtain ⟨a, b, c⟩ := h3 i j hi hj
    exact ⟨a, by beta_reduce; rw [b, c]; ring⟩

/-- The value of an expression approximates what it denotes. -/
theorem TExpr.eval_appr [CommArith F] [CommArith D] [DecidableEq F] [DecidableEq D] {valF : F → ℚ} {valD : D → ℚ} {up : F → D} {uf ud u : ℚ}
    (H : Formats valF valD up uf ud) {a : TExpr F D} {r c n : Nat} {e w : Nat → Nat → ℚ} (h : a.Denotes valD up r c e w n)
    (hu : uf ≤ u ∨ (ud ≤ u ∧ a.InDouble)) : Sat (a.eval up) (fun M => M.Appr valD up u n r c e w ∧ M.parts = a.parts) := by
  have hu0 : 0 ≤ u := by
    rcases hu with h | ⟨h, -⟩
    · exact H.single.nonneg.trans h
    · exact H.double.nonneg.trans h
  induction h with
  | @leaf A r c e p q h => exact ⟨A, rfl, h.appr, by cases A <;> rfl⟩
  | @add a b r c e w n e' w' n' ha hb iha ihb =>
    obtain ⟨x, ex, hx, px⟩ := iha (hu.imp id fun ⟨h, i⟩ => ⟨h, i.1⟩)
    obtain ⟨y, ey, hy, py⟩ := ihb (hu.imp id fun ⟨h, i⟩ => ⟨h, i.2.1⟩)
    have hf : FineSum uf ud u x y := hu.imp id fun ⟨h, _, _, ka, kb, ea, eb, hd⟩ =>
      ⟨h, ka, kb, C101_type up a ka ea x ex, C101_type up b kb eb y ey, hd⟩
    simp only [TExpr.eval, ex, ey, bind_ok']
    rw [← px, ← py]
    exact Sat.bind (TMat.add_appr H hf (hx.mono hu0 (le_max_left n n')) (hy.mono hu0 (le_max_right n n'))) fun C hC => Sat.pure ⟨hC, rfl⟩
  | @mul a b r k c e w n e' w' n' ha hb iha ihb =>
    obtain ⟨x, ex, hx, px⟩ := iha (hu.imp id fun ⟨h, i⟩ => ⟨h, i.1⟩)
    obtain ⟨y, ey, hy, py⟩ := ihb (hu.imp id fun ⟨h, i⟩ => ⟨h, i.2.1⟩)
    have hf : FineProduct uf ud u x y := hu.imp id fun ⟨h, _, _, ka, kb, ea, eb, hd⟩ =>
      ⟨h, ka, kb, C101_type up a ka ea x ex, C101_type up b kb eb y ey, hd⟩
    simp only [TExpr.eval, ex, ey, bind_ok']
    rw [← px, ← py]
    exact Sat.bind (TMat.mul_appr H hf hx hy) fun C hC => Sat.pure ⟨hC, rfl⟩

theorem TMat.toDense_appr [CommArith F] [CommArith D] {valF : F → ℚ} {valD : D → ℚ} {up : F → D} {uf ud u : ℚ}
    (H : Formats valF valD up uf ud) (hu : ud ≤ u) {M : TMat F D} {r c n : Nat} {e w : Nat → Nat → ℚ} (h : M.Appr valD up u n r c e w) :
    Sat (M.toDense up) (fun X => ∃ f, X.Is r c f ∧ ∀ i j, i < r → j < c → Near u (n + (M.parts - 1)) (valD (f i j)) (e i j) (w i j)) := by
  cases M with
  | one A =>
    obtain ⟨f, hf, hn⟩ := h
    exact Sat.mono (TSMat.denseOf_sat H.up_zero hf) fun X hX => ⟨f, hX.1, hn⟩
  | two X Y =>
    obtain ⟨e1, w1, e2, w2, ⟨f, hf, nf⟩, ⟨g, hg, ng⟩, h3⟩ := h
    refine Sat.bind (TSMat.denseOf_sat H.up_zero hf) fun C hC => ?_
    refine Sat.bind (SMat.binassign_dense_sat (· + ·) add_zero (A := C) ⟨hC.1, hC.2⟩ (TSMat.toD_is H.up_zero hg)) ?_
    rintro _ ⟨X, rfl, hX⟩
    refine Sat.pure ⟨_, hX.1, fun i j hi hj => ?_⟩
    obtain ⟨a, b⟩ := h3 i j hi hj
    rw [a, b]
    exact Near.add (H.double.mono hu) (nf i j hi hj) (ng i j hi hj)

/-- C101: an expression over matrices of any kinds whose dimensions match is evaluated without failure; every element of
its value, converted to a dense matrix of `double`s, differs from the exact value by at most ((1+uf)^n - 1) times the value
of the expression with absolute values, where n is the number of roundings. -/
theorem C101_error [CommArith F] [CommArith D] [DecidableEq F] [DecidableEq D] (valF : F → ℚ) (valD : D → ℚ) (up : F → D) (uf ud : ℚ)
    (H : Formats valF valD up uf ud) (a : TExpr F D) (r c n : Nat) (e w : Nat → Nat → ℚ) (h : a.Denotes valD up r c e w n) :
    ∃ M X, a.eval up = .ok M ∧ M.toDense up = .ok X ∧ X.dim.rows = r ∧ X.dim.cols = c ∧ ∀ i j, i < r → j < c →
      ∃ v, X.get i j = .ok v ∧ |valD v - e i j| ≤ ((1 + uf) ^ (n + (a.parts - 1)) - 1) * w i j := by
  obtain ⟨M, eM, hM, pM⟩ := TExpr.eval_appr H h (.inl (le_refl uf))
  obtain ⟨X, eX, f, hX, hf⟩ := TMat.toDense_appr H H.finer hM
  rw [pM] at hf
  exact ⟨M, X, eM, eX, hX.rows, hX.cols, fun i j hi hj => ⟨_, hX.elems i j hi hj, (hf i j hi hj).1⟩⟩

/-- C101: if every sum has a term with `double` elements and every product a factor with only such, the error is that of
`double` arithmetic, although there are `float` matrices in the expression. -/
theorem C101_error_in_double [CommArith F] [CommArith D] [DecidableEq F] [DecidableEq D] (valF : F → ℚ) (valD : D → ℚ) (up : F → D)
    (uf ud : ℚ) (H : Formats valF valD up uf ud) (a : TExpr F D) (r c n : Nat) (e w : Nat → Nat → ℚ) (h : a.Denotes valD up r c e w n)
    (hd : a.InDouble) :
    ∃ M X, a.eval up = .ok M ∧ M.toDense up = .ok X ∧ X.dim.rows = r ∧ X.dim.cols = c ∧ ∀ i j, i < r → j < c →
      ∃ v, X.get i j = .ok v ∧ |valD v - e i j| ≤ ((1 + ud) ^ (n + (a.parts - 1)) - 1) * w i j := by
  obtain ⟨M, eM, hM, pM⟩ := TExpr.eval_appr H h (.inr ⟨le_refl ud, hd⟩)
  obtain ⟨X, eX, f, hX, hf⟩ := TMat.toDense_appr H (le_refl ud) hM
  rw [pM] at hf
  exact ⟨M, X, eM, eX, hX.rows, hX.cols, fun i j hi hj => ⟨_, hX.elems i j hi hj, (hf i j hi hj).1⟩⟩

/-- C101: where no operation rounds, the value is exact. -/
theorem C101_exact [CommArith F] [CommArith D] [DecidableEq F] [DecidableEq D] (valF : F → ℚ) (valD : D → ℚ) (up : F → D)
    (H : Formats valF valD up 0 0) (a : TExpr F D) (r c n : Nat) (e w : Nat → Nat → ℚ) (h : a.Denotes valD up r c e w n) :
    ∃ M X, a.eval up = .ok M ∧ M.toDense up = .ok X ∧ X.dim.rows = r ∧ X.dim.cols = c ∧ ∀ i j, i < r → j < c →
      ∃ v, X.get i j = .ok v ∧ valD v = e i j := by
  obtain ⟨M, X, eM, eX, h1, h2, h3⟩ := C101_error valF valD up 0 0 H a r c n e w h
  refine ⟨M, X, eM, eX, h1, h2, fun i j hi hj => ?_⟩
  obtain ⟨v, ev, hv⟩ := h3 i j hi hj
  refine ⟨v, ev, ?_⟩
  simp only [add_zero, one_pow, sub_self, zero_mul, abs_nonpos_iff] at hv
  linarith

/-- C101: two expressions with the same exact value, e.g. differently parenthesised, have values that differ by at most the
sum of their bounds. -/
theorem C101_reassociation [CommArith F] [CommArith D] [DecidableEq F] [DecidableEq D] (valF : F → ℚ) (valD : D → ℚ) (up : F → D)
    (uf ud : ℚ) (H : Formats valF valD up uf ud) (a b : TExpr F D) (r c n n' : Nat) (e w w' : Nat → Nat → ℚ)
    (ha : a.Denotes valD up r c e w n) (hb : b.Denotes valD up r c e w' n') :
    ∃ M X M' X', a.eval up = .ok M ∧ M.toDense up = .ok X ∧ b.eval up = .ok M' ∧ M'.toDense up = .ok X' ∧ ∀ i j, i < r → j < c →
      ∃ v v', X.get i j = .ok v ∧ X'.get i j = .ok v' ∧
        |valD v - valD v'| ≤ ((1 + uf) ^ (n + (a.parts - 1)) - 1) * w i j + ((1 + uf) ^ (n' + (b.parts - 1)) - 1) * w' i j := by
  obtain ⟨M, X, eM, eX, -, -, h3⟩ := C101_error valF valD up uf ud H a r c n e w ha
  obtain ⟨M', X', eM', eX', -, -, h3'⟩ := C101_error valF valD up uf ud H b r c n' e w' hb
  refine ⟨M, X, M', X', eM, eX, eM', eX', fun i j hi hj => ?_⟩
  obtain ⟨v, ev, hv⟩ := h3 i j hi hj
  obtain ⟨v', ev', hv'⟩ := h3' i j hi hj
  refine ⟨v, v', ev, ev', ?_⟩
  calc |valD v - valD v'| = |(valD v - e i j) + (e i j - valD v')| := by congr 1; ring
    _ ≤ |valD v - e i j| + |e i j - valD v'| := abs_add_le _ _
    _ ≤ _ := add_le_add hv (by rwa [abs_sub_comm])

/-- C101 for `float` and `double`. -/
theorem C101_float_double (a : TExpr Single Double) (r c n : Nat) (e w : Nat → Nat → ℚ) (h : a.Denotes Fp.val toDouble r c e w n) :
    ∃ M X, a.eval toDouble = .ok M ∧ M.toDense toDouble = .ok X ∧ X.dim.rows = r ∧ X.dim.cols = c ∧ ∀ i j, i < r → j < c →
      ∃ v, X.get i j = .ok v ∧ |v.val - e i j| ≤ ((1 + 1 / 2 ^ 24) ^ (n + (a.parts - 1)) - 1) * w i j ∧
        (a.InDouble → |v.val - e i j| ≤ ((1 + 1 / 2 ^ 53) ^ (n + (a.parts - 1)) - 1) * w i j) := by
  obtain ⟨M, X, eM, eX, h1, h2, h3⟩ := C101_error Fp.val Fp.val toDouble _ _ doubleNumbers.toFormats a r c n e w h
  refine ⟨M, X, eM, eX, h1, h2, fun i j hi hj => ?_⟩
  obtain ⟨v, ev, hv⟩ := h3 i j hi hj
  refine ⟨v, ev, hv, fun hd => ?_⟩
  obtain ⟨M', X', eM', eX', -, -, h3'⟩ := C101_error_in_double Fp.val Fp.val toDouble _ _ doubleNumbers.toFormats a r c n e w h hd
  rw [eM] at eM'; cases eM'
  rw [eX] at eX'; cases eX'
  obtain ⟨v', ev', hv'⟩ := h3' i j hi hj
  rw [ev] at ev'; cases ev'
  exact hv'

/-- A 2×2 sparse matrix of `double`s with one stored element. -/
def exprS : Sparse Double := ⟨.col, Dim.mk' 2 2, [some (.of 3)], [some 1], [some 0, some 0, some 1]⟩

theorem exprS_is : exprS.Is 2 2 (fun i j => if i = 1 ∧ j = 1 then .of 3 else 0) := by
  refine ⟨[[], [(1, .of 3)]], ⟨rfl, rfl, rfl, rfl, rfl, ?_, rfl, ?_, by simp [exprS, Ori.majorIx], by simp⟩, ?_⟩
  · intro q hq; match q, hq with | 0, _ => rfl | 1, _ => rfl | 2, _ => rfl
  · intro p e h
    match p, h with
    | 0, h => cases h; exact ⟨rfl, rfl⟩
  · intro i j hi hj
    match i, j, hi, hj with
    | 0, 0, _, _ => rfl
    | 0, 1, _, _ => rfl
    | 1, 0, _, _ => rfl
    | 1, 1, _, _ => rfl

/-- An expression with a two-part matrix T, a matrix A of `float`s and a matrix B of `double`s: (T + A) * B.  The
conditions of all theorems hold; four roundings. -/
example : ∃ (T A B : TMat Single Double) (e w : Nat → Nat → ℚ), (TExpr.mul (.add (.leaf T) (.leaf A)) (.leaf B)).Denotes Fp.val toDouble 2 2 e w 4 ∧
    TExpr.kind (.mul (.add (.leaf T) (.leaf A)) (.leaf B)) = some .denseD ∧ TExpr.InDouble (.mul (.add (.leaf T) (.leaf A)) (.leaf B)) ∧
    T.kind = some .multSD ∧ A.kind = some .denseF := by
  have hX : (TSMat.sparseD exprS : TSMat Single Double).Stands Fp.val toDouble 2 2 _ _ _ :=
    ⟨_, ⟨rfl, exprS_is⟩, fun i j _ _ => ⟨rfl, rfl, rfl⟩⟩
  have hY : ∀ f : Nat → Nat → Single, (TSMat.denseF (Dense.ofFn .col 2 2 f) : TSMat Single Double).Stands Fp.val toDouble 2 2 _ _ _ :=
    fun f => ⟨fun i j => toDouble (f i j), ⟨rfl, f, Dense.ofFn_is _ _ _ _, fun _ _ _ _ => rfl⟩, fun i j _ _ => ⟨rfl, rfl, rfl⟩⟩
  have hB : (TSMat.denseD (Dense.ofFn .col 2 2 (fun i j => .of (i - j))) : TSMat Single Double).Stands Fp.val toDouble 2 2 _ _ _ :=
    ⟨_, ⟨rfl, Dense.ofFn_is _ _ _ _⟩, fun i j _ _ => ⟨rfl, rfl, rfl⟩⟩
  have hT : (TMat.two (.sparseD exprS) (.denseF (Dense.ofFn .col 2 2 (fun i j => .of (i + j)))) : TMat Single Double).Stands Fp.val toDouble 2 2
      (fun _ _ => _) (fun _ _ => _) (fun _ _ => _) := ⟨_, _, _, _, _, _, hX, hY _, fun _ _ _ _ => ⟨rfl, rfl, rfl⟩⟩
  have hA : (TMat.one (.denseF (Dense.ofFn .col 2 2 (fun _ _ => .of 5))) : TMat Single Double).Stands Fp.val toDouble 2 2 _ _ _ := hY _
  have hB : (TMat.one (.denseD (Dense.ofFn .col 2 2 (fun i j => .of (i - j)))) : TMat Single Double).Stands Fp.val toDouble 2 2 _ _ _ := hB
  exact ⟨_, _, _, _, _, .mul (.add (.leaf hT) (.leaf hA)) (.leaf hB), rfl,
    ⟨⟨trivial, trivial, .multSD, .denseF, rfl, rfl, .inl rfl⟩, trivial, .denseD, .denseD, rfl, rfl, .inl rfl⟩, rfl, rfl⟩

end BB
