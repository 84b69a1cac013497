import Verif.Lemmas.Mat
import Verif.Props.NonFinite

/-!
# C117: products, whatever the arithmetic

Of the elements nothing is assumed: no law holds for `+` and `*`.  Every element of a product is the sum, from left to right, of
the products of the elements that both operands store.
-/

namespace BB

variable {R : Type}

open Sparse (pick picks pick_succ pick_bound)

theorem Sparse.Stores.is [Zero R] {S : Sparse R} {r c : Nat} {f : Nat → Nat → Option R} (h : S.Stores r c f) :
    S.Is r c (fun i j => (f i j).getD 0) := by
  obtain ⟨L, h, hf⟩ := h
  exact ⟨L, h, fun i j hi hj => by beta_reduce; rw [hf i j hi hj, entryAt_eq]⟩

theorem dotStored_all [Zero R] [Add R] [Mul R] (f g : Nat → Nat → R) (k i j : Nat) :
    dotStored (fun i l => some (f i l)) (fun l j => some (g l j)) k i j = dotSeq f g k i j := rfl

theorem dotStored_left [Zero R] [Add R] [Mul R] {f g : Nat → Nat → Option R} {k i j : Nat} (h : ∀ l, l < k → f i l = none) :
    dotStored f g k i j = 0 := by
  induction k with
  | zero => rfl
  | succ k ih => rw [Sparse.dotStored_succ, h k (by omega), ih (fun l hl => h l (by omega))]; rfl

theorem dotStored_right [Zero R] [Add R] [Mul R] {f g : Nat → Nat → Option R} {k i j : Nat} (h : ∀ l, l < k → g l j = none) :
    dotStored f g k i j = 0 := by
  induction k with
  | zero => rfl
  | succ k ih => rw [Sparse.dotStored_succ, h k (by omega), Sparse.mulAdd_none, ih (fun l hl => h l (by omega))]

/-- Sparse * Sparse without any law. -/
theorem Sparse.mulSS_is [Zero R] [Add R] [Mul R] [DecidableEq R] {A B C : Sparse R} {m k n : Nat} {f g : Nat → Nat → Option R}
    (hA : A.Stores m k f) (hB : B.Stores k n g) (hAo : A.ori = .col) (hBo : B.ori = .col) (hCo : C.ori = .col) :
    Sat (Sparse.mulSS A B C) (fun D => D.ori = .col ∧ D.Is m n (fun i j => dotStored f g k i j)) := by
  obtain ⟨LA, hA, hf⟩ := hA
  obtain ⟨LB, hB, hg⟩ := hB
  obtain ⟨D, e, h1, h2, h3⟩ := Sparse.mulSS_stored C hA hB hAo hBo hCo
  refine ⟨D, e, h1, _, h3, ?_⟩
  intro i j hi hj
  rw [h1]
  show _ = entryAt (List.getD _ j []) i
  have e1 : ∀ G : Nat → Nat → R, (picks (fun x => decide (x ≠ 0)) id G m n).getD j []
      = pick (fun x => decide (x ≠ 0)) id G m j := by
    intro G; simp [picks, List.getD, hj]
  have key : dotStored (fun i l => storedAt (LA.getD l []) i) (fun l j => storedAt (LB.getD j []) l) k i j = dotStored f g k i j := by
    refine Sparse.dotStored_congr (fun l hl => ?_) (fun l hl => ?_)
    · rw [hf i l hi hl, hAo]; rfl
    · rw [hg l j hl hj, hBo]; rfl
  beta_reduce
  rw [e1, entryAt_pick, ← key]
  by_cases hz : dotStored (fun i l => storedAt (LA.getD l []) i) (fun l j => storedAt (LB.getD j []) l) k i j = 0
  · simp only [hz]; simp
  · simp only [hi, true_and, decide_eq_true hz, id, if_true]

theorem SMat.mul_stored [Zero R] [Add R] [Mul R] [DecidableEq R] {A B : SMat R} {m k n : Nat} {f g : Nat → Nat → Option R}
    (hA : A.Stores m k f) (hB : B.Stores k n g) : Sat (SMat.mul A B) (fun C => C.Is m n (fun i j => dotStored f g k i j)) := by
  have zero : ((∀ i l, i < m → l < k → f i l = none) ∨ (∀ l j, l < k → j < n → g l j = none)) →
      Sat (mulZero (R := R) m k k n) (fun C => C.Is m n (fun i j => dotStored f g k i j)) := by
    intro h
    refine ⟨.zero (zeroResize (Dim.mk' 0 0) m n), by simp [mulZero, assertThat], rfl, rfl, ?_⟩
    intro i j hi hj
    rcases h with h | h
    · exact dotStored_left fun l hl => h i l hi hl
    · exact dotStored_right fun l hl => h l j hl hj
  cases A with
  | dense A =>
    obtain ⟨hAo, fA, hA, hf⟩ := hA
    cases B with
    | dense B =>
      obtain ⟨hBo, gB, hB, hg⟩ := hB
      obtain ⟨D, e, h1, h2⟩ := Dense.mulGeneral_sat (Dense.empty .col) hA hB hAo hBo rfl
      refine ⟨.dense D, by simp only [mul, e]; rfl, h2.congr fun i j hi hj => ?_, h1⟩
      rw [← dotStored_all]
      exact Sparse.dotStored_congr (fun l hl => (hf i l hi hl).symm) (fun l hl => (hg l j hl hj).symm)
    | sparse B =>
      obtain ⟨hBo, L, hB, hg⟩ := hB
      obtain ⟨D, e, h1, h2⟩ := Sparse.mulDS_stored (Dense.empty .col) hA hB hBo
      refine ⟨.dense D, by simp only [mul, e]; rfl, h2.congr fun i j hi hj => ?_, h1⟩
      refine Sparse.dotStored_congr (fun l hl => (hf i l hi hl).symm) (fun l hl => ?_)
      rw [hg l j hl hj, hBo]; rfl
    | zero d =>
      have := zero (.inr hB.2.2)
      simpa only [mul, hA.rows, hA.cols, hB.1, hB.2.1] using this
  | sparse A =>
    obtain ⟨hAo, hA⟩ := hA
    have hr := hA.is.rows
    have hc := hA.is.cols
    cases B with
    | dense B =>
      obtain ⟨hBo, gB, hB, hg⟩ := hB
      obtain ⟨L, hA, hf⟩ := hA
      obtain ⟨D, e, h1, h2⟩ := Sparse.mulSD_stored (Dense.empty .col) hA hB hAo hBo rfl
      refine ⟨.dense D, by simp only [mul, e]; rfl, h2.congr fun i j hi hj => ?_, h1⟩
      refine Sparse.dotStored_congr (fun l hl => ?_) (fun l hl => (hg l j hl hj).symm)
      rw [hf i l hi hl, hAo]; rfl
    | sparse B =>
      obtain ⟨D, e, h1, h2⟩ := Sparse.mulSS_is (C := Sparse.empty .col) hA hB.2 hAo hB.1 rfl
      exact ⟨.sparse D, by simp only [mul, e]; rfl, h2, h1⟩
    | zero d =>
      have := zero (.inr hB.2.2)
      simpa only [mul, hr, hc, hB.1, hB.2.1] using this
  | zero d =>
    have := zero (.inl hA.2.2)
    cases B with
    | dense B => 
      obtain ⟨hBo, gB, hB, hg⟩ := hB
      simpa only [mul, hA.1, hA.2.1, hB.rows, hB.cols] using this
    | sparse B => simpa only [mul, hA.1, hA.2.1, hB.2.is.rows, hB.2.is.cols] using this
    | zero e => simpa only [mul, hA.1, hA.2.1, hB.1, hB.2.1] using this

/-- C117: whatever the arithmetic, an element of the product of two matrices of any kinds is the sum, from left to right, of the
products of the elements that both operands store. -/
theorem C117_product [Zero R] [Add R] [Mul R] [DecidableEq R] (A B : SMat R) (m k n : Nat) (f g : Nat → Nat → Option R)
    (hA : A.Stores m k f) (hB : B.Stores k n g) :
    ∃ C D, SMat.mul A B = .ok C ∧ Mat.denseOf C = .ok D ∧ D.Is m n (fun i j => dotStored f g k i j) := by
  obtain ⟨C, e, hC⟩ := SMat.mul_stored hA hB
  obtain ⟨D, d, hD⟩ := Mat.denseOf_sat hC
  exact ⟨C, D, e, d, hD.1⟩

theorem storedAt_pick {T : Type} (chk : R → Bool) (cvt : R → T) (g : Nat → Nat → R) (M q k : Nat) :
    storedAt (pick chk cvt g M q) k = if k < M ∧ chk (g q k) then some (cvt (g q k)) else none := by
  induction M with
  | zero => simp [pick, storedAt_nil]
  | succ M ih =>
    rw [pick_succ]
    by_cases h : chk (g q M)
    · rw [if_pos h, storedAt_append (pick chk cvt g M q) (M, cvt (g q M)) k (fun a ha => pick_bound _ _ _ _ _ a ha), ih]
      by_cases hk : k = M
      · subst hk; simp [h]
      · have : (k < M + 1) = (k < M) := by apply propext; omega
        simp [hk, this]
    · rw [if_neg h, List.append_nil, ih]
      by_cases hk : k = M
      · subst hk; simp [h]
      · have : (k < M + 1) = (k < M) := by apply propext; omega
        simp [this]

/-- C117: a sparse matrix made from a dense one stores exactly the elements that the value checker accepts. -/
theorem C117_conversion_stores (chk : R → Bool) (A : Dense R) (r c : Nat) (f : Nat → Nat → R) (hA : A.Is r c f) (ho : A.ori = .col) :
    ∃ S, Sparse.ofDense chk id .col A = .ok S ∧ (SMat.sparse S).Stores r c (fun i j => if chk (f i j) then some (f i j) else none) := by
  obtain ⟨S, e, h1, -, h2⟩ := Sparse.ofDense_sat chk id .col hA ho
  refine ⟨S, e, h1, _, h2, ?_⟩
  intro i j hi hj
  rw [h1]
  have : (picks chk id (Ori.col.elem f) (Ori.col.majorIx r c) (Ori.col.minorIx r c)).getD j [] = pick chk id (Ori.col.elem f) r j := by
    show (picks chk id (Ori.col.elem f) r c).getD j [] = _
    simp [picks, List.getD, hj]
  show _ = storedAt (List.getD _ j []) i
  rw [this, storedAt_pick]
  simp [Ori.elem, hi]

/-- C117: the product of a dense matrix and a sparse one made from a dense one: what the checker rejects contributes nothing,
even where the other factor is infinite or NaN. -/
theorem C117_product_of_converted [Zero R] [Add R] [Mul R] [DecidableEq R] (chk : R → Bool) (A B : Dense R) (m k n : Nat)
    (f g : Nat → Nat → R) (hA : A.Is m k f) (hB : B.Is k n g) (hAo : A.ori = .col) (hBo : B.ori = .col) :
    ∃ S D, Sparse.ofDense chk id .col B = .ok S ∧ SMat.mul (.dense A) (.sparse S) = .ok (.dense D) ∧
      D.Is m n (fun i j => (List.range k).foldl (fun s l => if chk (g l j) then s + f i l * g l j else s) 0) := by
  obtain ⟨S, e, hS⟩ := C117_conversion_stores chk B k n g hB hBo
  obtain ⟨-, L, hL, hg⟩ := id hS
  obtain ⟨D, e', h1, h2⟩ := Sparse.mulDS_stored (Dense.empty .col) hA hL hS.1
  refine ⟨S, D, e, by simp only [SMat.mul, e']; rfl, h2.congr fun i j hi hj => ?_⟩
  refine List.foldl_ext _ _ _ fun s l hl => ?_
  have := hg l j (List.mem_range.1 hl) hj
  rw [hS.1] at this
  simp only [show storedAt (L.getD j []) l = _ from this.symm]
  split <;> rfl

/-- C117, for numbers with infinities and NaN: where the operands store nothing, infinities and NaN of the other operand have no effect:
the element of the product is 0 if in the whole row or the whole column nothing is stored. -/
theorem C117_nothing_stored [Zero R] [Add R] [Mul R] [DecidableEq R] (A B : SMat R) (m k n : Nat) (f g : Nat → Nat → Option R)
    (hA : A.Stores m k f) (hB : B.Stores k n g) (i j : Nat) (hi : i < m) (hj : j < n)
    (h : (∀ l, l < k → f i l = none) ∨ (∀ l, l < k → g l j = none)) :
    ∃ C D, SMat.mul A B = .ok C ∧ Mat.denseOf C = .ok D ∧ D.get i j = .ok 0 := by
  obtain ⟨C, D, e, d, hD⟩ := C117_product A B m k n f g hA hB
  refine ⟨C, D, e, d, ?_⟩
  rw [hD.elems i j hi hj]
  rcases h with h | h
  · rw [dotStored_left h]
  · rw [dotStored_right h]

/-! ### Sums and differences -/

theorem joinStored_none (op : R → R → R) (un : R → R) (a : Option R) : joinStored op un a none = a := by cases a <;> rfl

theorem none_joinStored (op : R → R → R) (b : Option R) : joinStored op id none b = b := by cases b <;> rfl

theorem joinStored_comm {op : R → R → R} (comm : ∀ a b, op a b = op b a) (a b : Option R) :
    joinStored op id a b = joinStored op id b a := by
  cases a <;> cases b <;> simp [joinStored, comm]

/-- Dense with sparse, for any operation. -/
theorem dense_sparse_stored (op : R → R → R) {A : Dense R} {B : Sparse R} {r c : Nat} {f g : Nat → Nat → Option R}
    (hA : (SMat.dense A).Stores r c f) (hB : (SMat.sparse B).Stores r c g) :
    Sat (Sparse.binopDS op A B) (fun D => ∀ un, (SMat.dense D).Stores r c (fun i j => joinStored op un (f i j) (g i j))) := by
  obtain ⟨hAo, fA, hA, hf⟩ := hA
  obtain ⟨hBo, L, hB, hg⟩ := hB
  obtain ⟨D, e, h1, h2⟩ := Sparse.binopDS_stored op hA hB hAo hBo
  refine ⟨D, e, fun un => ⟨by rw [h1, hAo], _, h2, fun i j hi hj => ?_⟩⟩
  have := hg i j hi hj
  rw [hBo] at this
  simp only [hf i j hi hj, this]
  show joinStored op un (some (fA i j)) (storedAt (L.getD j []) i) = _
  cases storedAt (L.getD j []) i <;> rfl

/-- What `operator +` and `operator -` compute, for any two functions `op` and `un`. -/
theorem SMat.binop_stored (op : R → R → R) (un : R → R) {A B : SMat R} {r c : Nat} {f g : Nat → Nat → Option R}
    (hA : A.Stores r c f) (hB : B.Stores r c g) :
    Sat (binop op un A B) (fun C =>
      (SubOk A B → C.Stores r c (fun i j => joinStored op un (f i j) (g i j))) ∧
      (A.isSparse = true → B.isDense = true → C.Stores r c (fun i j => joinStored op un (g i j) (f i j))) ∧
      (A.isZero = true → B.isZero = false → C.Stores r c g)) := by
  have stores_congr : ∀ {M : SMat R} {f f' : Nat → Nat → Option R}, M.Stores r c f → (∀ i j, i < r → j < c → f' i j = f i j) → M.Stores r c f' := by
    intro M f f' h e
    cases M with
    | dense A => obtain ⟨o, g, h1, h2⟩ := h; exact ⟨o, g, h1, fun i j hi hj => (e i j hi hj).trans (h2 i j hi hj)⟩
    | sparse A => obtain ⟨o, L, h1, h2⟩ := h; exact ⟨o, L, h1, fun i j hi hj => (e i j hi hj).trans (h2 i j hi hj)⟩
    | zero d => exact ⟨h.1, h.2.1, fun i j hi hj => (e i j hi hj).trans (h.2.2 i j hi hj)⟩
  cases A with
  | dense A =>
    cases B with
    | dense B =>
      obtain ⟨hAo, fA, hA, hf⟩ := hA
      obtain ⟨hBo, gB, hB, hg⟩ := hB
      obtain ⟨D, e, h1, h2⟩ := Dense.binop_sat op (Dense.empty .col) hA hB (by rw [hAo, hBo]) (by rw [hAo]; rfl)
      exact ⟨.dense D, by simp only [binop, e]; rfl, fun _ => ⟨by rw [h1, hAo], _, h2, fun i j hi hj => by simp only [hf i j hi hj, hg i j hi hj]; rfl⟩,
        nofun, nofun⟩
    | sparse B =>
      obtain ⟨D, e, h⟩ := dense_sparse_stored op hA hB
      exact ⟨.dense D, by simp only [binop, e]; rfl, fun _ => h un, nofun, nofun⟩
    | zero d =>
      exact ⟨.dense A, rfl, fun _ => stores_congr hA (fun i j hi hj => by simp only [hB.2.2 i j hi hj, joinStored_none]), nofun, nofun⟩
  | sparse A =>
    cases B with
    | dense B =>
      obtain ⟨D, e, h⟩ := dense_sparse_stored op hB hA
      exact ⟨.dense D, by simp only [binop, Sparse.binopSD, e]; rfl, fun h => absurd (h.1 rfl) (by simp [isDense]), fun _ _ => h un, nofun⟩
    | sparse B =>
      obtain ⟨hAo, LA, hA, hf⟩ := hA
      obtain ⟨hBo, LB, hB, hg⟩ := hB
      obtain ⟨D, e, h1, -, LD, h2, h3⟩ := Sparse.binop_stored op un (Sparse.empty .col) hA hB (by rw [hAo, hBo]) (by rw [hAo]; rfl) (by rw [hAo]; rfl)
      refine ⟨.sparse D, by simp only [binop, e]; rfl, fun _ => ⟨by rw [h1, hAo], LD, h2, fun i j hi hj => ?_⟩, nofun, nofun⟩
      simp only [hf i j hi hj, hg i j hi hj, hAo, hBo, h1]
      exact (h3 j i hj).symm
    | zero d =>
      exact ⟨.sparse A, rfl, fun _ => stores_congr hA (fun i j hi hj => by simp only [hB.2.2 i j hi hj, joinStored_none]), nofun, nofun⟩
  | zero d =>
    cases B with
    | dense B => exact ⟨.dense B, rfl, fun h => absurd (h.2 rfl) (by simp [isZero]), nofun, fun _ _ => hB⟩
    | sparse B => exact ⟨.sparse B, rfl, fun h => absurd (h.2 rfl) (by simp [isZero]), nofun, fun _ _ => hB⟩
    | zero e =>
      exact ⟨.zero d, rfl, fun _ => ⟨hA.1, hA.2.1, fun i j hi hj => by simp only [hA.2.2 i j hi hj, hB.2.2 i j hi hj]; rfl⟩, nofun, nofun⟩

/-- C117: whatever the arithmetic, as long as sums commute: the sum of two matrices of any kinds stores the sum of two stored
elements, a stored element where the other operand stores none, and nothing elsewhere. -/
theorem C117_sum [Add R] (comm : ∀ a b : R, a + b = b + a) (A B : SMat R) (r c : Nat) (f g : Nat → Nat → Option R)
    (hA : A.Stores r c f) (hB : B.Stores r c g) :
    ∃ C, SMat.binop (· + ·) id A B = .ok C ∧ C.Stores r c (fun i j => joinStored (· + ·) id (f i j) (g i j)) := by
  obtain ⟨C, e, h1, h2, h3⟩ := SMat.binop_stored (· + ·) id hA hB
  refine ⟨C, e, ?_⟩
  by_cases hz : A.isZero = true ∧ B.isZero = false
  · have : ∀ i j, i < r → j < c → f i j = none := by
      cases A with
      | zero d => exact hA.2.2
      | dense A => cases hz.1
      | sparse A => cases hz.1
    have hC := h3 hz.1 hz.2
    cases C with
    | dense C =>
      obtain ⟨o, g', h4, h5⟩ := hC
      exact ⟨o, g', h4, fun i j hi hj => by simp only [this i j hi hj, none_joinStored]; exact h5 i j hi hj⟩
    | sparse C =>
      obtain ⟨o, L, h4, h5⟩ := hC
      exact ⟨o, L, h4, fun i j hi hj => by simp only [this i j hi hj, none_joinStored]; exact h5 i j hi hj⟩
    | zero d => exact ⟨hC.1, hC.2.1, fun i j hi hj => by simp only [this i j hi hj, none_joinStored]; exact hC.2.2 i j hi hj⟩
  · by_cases hs : A.isSparse = true ∧ B.isDense = true
    · have := h2 hs.1 hs.2
      simp only [joinStored_comm comm (f _ _)]
      exact this
    · refine h1 ⟨fun h => ?_, fun h => ?_⟩
      · cases hB : B.isDense
        · rfl
        · exact absurd ⟨h, hB⟩ hs
      · cases hB : B.isZero
        · exact absurd ⟨h, hB⟩ hz
        · rfl

/-- C117: the same for differences, except Sparse − Dense and Zero − M, which are wrong (C65). -/
theorem C117_difference [Sub R] [Neg R] (A B : SMat R) (r c : Nat) (f g : Nat → Nat → Option R) (hA : A.Stores r c f)
    (hB : B.Stores r c g) (h : SMat.SubOk A B) :
    ∃ C, SMat.binop (· - ·) (- ·) A B = .ok C ∧ C.Stores r c (fun i j => joinStored (· - ·) (- ·) (f i j) (g i j)) := by
  obtain ⟨C, e, h1, -, -⟩ := SMat.binop_stored (· - ·) (- ·) hA hB
  exact ⟨C, e, h1 h⟩

/-- C117: in place: `A op= B` with a dense `A` changes exactly the elements that `B` stores. -/
theorem C117_in_place (op : R → R → R) (A : Dense R) (B : SMat R) (r c : Nat) (f : Nat → Nat → R) (g : Nat → Nat → Option R)
    (hA : A.Is r c f) (ho : A.ori = .col) (hB : B.Stores r c g) :
    ∃ D, SMat.binassign op (.dense A) B = .ok (.dense D) ∧ D.ori = .col ∧
      D.Is r c (fun i j => match g i j with | some y => op (f i j) y | none => f i j) := by
  cases B with
  | dense B =>
    obtain ⟨hBo, gB, hB, hg⟩ := hB
    obtain ⟨D, e, h1, h2⟩ := Dense.binassign_sat op hA hB (by rw [ho, hBo])
    exact ⟨D, by simp only [SMat.binassign, e]; rfl, by rw [h1, ho], h2.congr fun i j hi hj => by simp only [hg i j hi hj]⟩
  | sparse B =>
    obtain ⟨hBo, L, hB, hg⟩ := hB
    obtain ⟨D, e, h1, h2⟩ := Sparse.binassignDS_stored op hA hB hBo
    refine ⟨D, by simp only [SMat.binassign, e]; rfl, by rw [h1, ho], h2.congr fun i j hi hj => ?_⟩
    have := hg i j hi hj
    rw [hBo] at this
    simp only [this]
    show _ = match storedAt (L.getD j []) i with | some y => op (f i j) y | none => f i j
    cases storedAt (L.getD j []) i <;> rfl
  | zero d =>
    refine ⟨A, by simp [SMat.binassign, assertThat, hA.rows, hA.cols, hB.1, hB.2.1], ho, hA.congr fun i j hi hj => ?_⟩
    simp only [hB.2.2 i j hi hj]

/-! ### Concrete cases: integers with infinities and NaN -/

/-- Integers, exact. -/
@[reducible] def intArith : FinArith Int where
  add x y := .fin (x + y)
  mul x y := .fin (x * y)
  div x y := .fin (x / y)
  ofNat n := .fin n
  add_zero x := by simp
  zero_add x := by simp
  add_comm x y := by rw [Int.add_comm]
  add_ne_nan x y := by simp
  add_neg x := by simp [Int.add_right_neg]
  add_nonneg x y hx hy := .inr ⟨_, Int.add_nonneg hx hy, rfl⟩
  mul_zero x := by simp
  zero_mul x := by simp
  mul_ne_nan x y := by simp
  mul_self_nonneg x := .inr ⟨_, mul_self_nonneg x, rfl⟩
  neg_zero := rfl
  neg_nonneg x := by omega
  zero_div y _ := by simp
  ofNat_zero := rfl
  ofNat_pos n h := .inr ⟨n, by omega, rfl⟩

attribute [local instance] intArith

/-- [∞ 2] -/
def exInf : Dense (Ieee Int) := Dense.ofFn .col 1 2 (fun _ j => if j = 0 then .inf false else .fin 2)

/-- [0; 3] -/
def exColZ : Dense (Ieee Int) := Dense.ofFn .col 2 1 (fun i _ => if i = 0 then .fin 0 else .fin 3)

/-- C116/C117, negative: [∞ 2] * [0; 3] is NaN if the column is dense, 6 if it is sparse. -/
theorem C117_depends_on_kind :
    (∃ D, SMat.mul (.dense exInf) (.dense exColZ) = .ok (.dense D) ∧ D.get 0 0 = .ok .nan) ∧
    (∃ S D, Sparse.ofDense (Checker.above (0 : Ieee Int)).accepts id .col exColZ = .ok S ∧
      SMat.mul (.dense exInf) (.sparse S) = .ok (.dense D) ∧ D.get 0 0 = .ok (.fin 6)) :=
  ⟨⟨_, rfl, rfl⟩, _, _, rfl, rfl, rfl⟩

example : exInf.get 0 0 = .ok (.inf false) ∧ exColZ.get 1 0 = .ok (.fin 3) := ⟨rfl, rfl⟩

/-- NaN is lost on the way dense → sparse → dense, infinity is not. -/
example : ∃ S D, Sparse.ofDense (Checker.above (.fin 1 : Ieee Int)).accepts id .col
      (Dense.ofFn .col 1 3 (fun _ j => if j = 0 then .nan else if j = 1 then .inf true else .fin 2)) = .ok S ∧
    S.toDense id .col = .ok D ∧ D.get 0 0 = .ok (.fin 0) ∧ D.get 0 1 = .ok (.inf true) ∧ D.get 0 2 = .ok (.fin 2) :=
  ⟨_, _, rfl, rfl, rfl, rfl, rfl⟩

example : exInf.equal (.fin 0) (.fin 5) exInf = .ok false := rfl

example : exColZ.equal (.fin 0) (.fin 5) (Dense.ofFn .col 2 1 (fun i _ => if i = 0 then .fin 4 else .fin (-2))) = .ok true := rfl

/-- |NaN - 1| is skipped, |2 - 7| is not. -/
example : (Dense.ofFn .col 1 2 (fun _ j => if j = 0 then (.nan : Ieee Int) else .fin 2)).fmaxDeviation (Ieee.ops id)
    (Dense.ofFn .col 1 2 (fun _ j => if j = 0 then .fin 1 else .fin 7)) = .ok (.fin 5) := rfl

example : fnormBuf (Ieee.ops id) .max [some (.nan : Ieee Int), some (.fin (-3))] = .ok (.fin 3) ∧
    fnormBuf (Ieee.ops id) .one [some (.nan : Ieee Int), some (.fin (-3))] = .ok .nan ∧
    fnormBuf (Ieee.ops id) .two [some (.inf true : Ieee Int), some (.fin (-3))] = .ok (.inf false) := ⟨rfl, rfl, rfl⟩

/-- A 1×1 matrix of NaN becomes a zero matrix. -/
example (b : Build) : convertMatrix b id ⟨.fin 1, .fin 0, .fin 0, .fin 0, .fin 0, .fin 0, .fin 0, .fin 0, .fin 0, .fin 0, .fin 0, .fin 0, .fin 0, .fin 0, .fin 0, .fin 0⟩
    (.plain (Dense.ofFn .col 1 1 (fun _ _ => (.nan : Ieee Int)))) = .ok (.zero, .one (.zero (Dim.mk' 1 1))) := by
  cases b <;> rfl

/-! ### Signed zeros -/

/-- Sign and magnitude: as with floating-point numbers there are two zeros. -/
structure Signed where
  neg : Bool
  mag : Nat
  deriving DecidableEq

/-- Addition with the rule of IEEE 754 for zeros: the sum of two zeros, and of opposite numbers, is +0 unless both are -0. -/
instance : Add Signed := ⟨fun x y =>
  if x.neg = y.neg then ⟨x.neg, x.mag + y.mag⟩
  else if y.mag < x.mag then ⟨x.neg, x.mag - y.mag⟩
  else if x.mag < y.mag then ⟨y.neg, y.mag - x.mag⟩ else ⟨false, 0⟩⟩

theorem Signed.add_comm (x y : Signed) : x + y = y + x := by
  obtain ⟨a, m⟩ := x
  obtain ⟨b, n⟩ := y
  show (if _ then _ else _ : Signed) = if _ then _ else _
  dsimp only
  by_cases h : a = b
  · simp [h, Nat.add_comm]
  · rw [if_neg h, if_neg (Ne.symm h)]
    by_cases h1 : n < m
    · rw [if_pos h1, if_neg (by omega), if_pos h1]
    · by_cases h2 : m < n
      · rw [if_neg h1, if_pos h2, if_pos h2]
      · rw [if_neg h1, if_neg h2, if_neg h2, if_neg h1]

/-- C117: adding a zero matrix keeps -0, adding a dense matrix of +0 turns it into +0. -/
theorem C117_signed_zero (r c : Nat) (A B : Dense Signed) (f : Nat → Nat → Signed) (hA : A.Is r c f) (ho : A.ori = .col)
    (hB : B.Is r c (fun _ _ => ⟨false, 0⟩)) (hb : B.ori = .col) :
    (∃ C, SMat.binop (· + ·) id (.dense A) (.zero (Dim.mk' r c)) = .ok C ∧ C.Stores r c (fun i j => some (f i j))) ∧
    (∃ C, SMat.binop (· + ·) id (.dense A) (.dense B) = .ok C ∧
      C.Stores r c (fun i j => some (if f i j = ⟨true, 0⟩ then ⟨false, 0⟩ else f i j))) := by
  have sA : (SMat.dense A).Stores r c (fun i j => some (f i j)) := ⟨ho, f, hA, fun _ _ _ _ => rfl⟩
  have sB : (SMat.dense B).Stores r c (fun _ _ => some ⟨false, 0⟩) := ⟨hb, _, hB, fun _ _ _ _ => rfl⟩
  constructor
  · exact C117_sum Signed.add_comm (.dense A) (.zero (Dim.mk' r c)) r c _ (fun _ _ => none) sA ⟨rfl, rfl, fun _ _ _ _ => rfl⟩
  · obtain ⟨C, e, h⟩ := C117_sum Signed.add_comm _ _ r c _ _ sA sB
    refine ⟨C, e, ?_⟩
    have key : ∀ x : Signed, x + ⟨false, 0⟩ = if x = ⟨true, 0⟩ then ⟨false, 0⟩ else x := by
      rintro ⟨_ | _, _ | n⟩
      · rfl
      · rfl
      · rfl
      · show (if _ then _ else _ : Signed) = _
        simp
    simpa only [joinStored, key] using h

/-- -0 is there to be kept: [-0]. -/
example : (Dense.ofFn .col 1 1 (fun _ _ => (⟨true, 0⟩ : Signed))).Is 1 1 (fun _ _ => ⟨true, 0⟩) ∧
    ∃ C, SMat.binop (· + ·) id (.dense (Dense.ofFn .col 1 1 (fun _ _ => (⟨true, 0⟩ : Signed))))
      (.dense (Dense.ofFn .col 1 1 (fun _ _ => ⟨false, 0⟩))) = .ok (.dense C) ∧ C.get 0 0 = .ok ⟨false, 0⟩ :=
  ⟨Dense.ofFn_is _ _ _ _, _, rfl, rfl⟩

end BB
