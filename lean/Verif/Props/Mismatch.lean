import Verif.Props.Blocked
import Verif.Props.Mat
import Verif.Lemmas.BlockedMul

/-!
# C102: operands whose dimensions do not match
-/

namespace BB

variable {R : Type}

/-! ### Products -/

theorem SMat.mul_mismatch [Zero R] [Add R] [Mul R] [DecidableEq R] {A B : SMat R} (h : A.cols ≠ B.rows) :
    SMat.mul A B = .error .assertFail := by
  cases A <;> cases B <;> simp only [SMat.cols, SMat.rows] at h <;>
    simp [SMat.mul, SMat.mulZero, Dense.mulGeneral, Sparse.mulSS, Sparse.mulSD, Sparse.mulDS, assertThat, h]

/-- C102: a product of matrices of any kinds (dense, sparse, zero, two-part) with inner dimensions that do not match is
rejected by an assertion. -/
theorem C102_product [Zero R] [Add R] [Mul R] [DecidableEq R] (A B : Mat R) (h : A.cols ≠ B.rows) :
    Mat.mul A B = .error .assertFail := by
  cases A with
  | one A => cases B with
    | one B => exact SMat.mul_mismatch h
    | two B1 B2 => simp only [Mat.mul]; rw [SMat.mul_mismatch h]; rfl
  | two A1 A2 => cases B with
    | one B => simp only [Mat.mul]; rw [SMat.mul_mismatch h]; rfl
    | two B1 B2 => simp only [Mat.mul]; rw [SMat.mul_mismatch h]; rfl

/-- C102: it yields a result exactly if they match. -/
theorem C102_product_iff [NonUnitalNonAssocSemiring R] [DecidableEq R] (A B : Mat R) (m k k' n : Nat) (f g : Nat → Nat → R)
    (hA : A.Is m k f) (hB : B.Is k' n g) : (∃ C, Mat.mul A B = .ok C) ↔ k = k' := by
  have hc : A.cols = k := by
    cases A with
    | one A => cases A with
      | dense A => exact hA.1.cols
      | sparse A => obtain ⟨⟨L, hL, -⟩, -⟩ := hA; exact hL.cols
      | zero d => exact hA.2.1
    | two X Y => obtain ⟨f1, f2, h1, -⟩ := hA; cases X with
      | dense A => exact h1.1.cols
      | sparse A => obtain ⟨⟨L, hL, -⟩, -⟩ := h1; exact hL.cols
      | zero d => exact h1.2.1
  have hr : B.rows = k' := by
    cases B with
    | one A => cases A with
      | dense A => exact hB.1.rows
      | sparse A => obtain ⟨⟨L, hL, -⟩, -⟩ := hB; exact hL.rows
      | zero d => exact hB.1
    | two X Y => obtain ⟨f1, f2, h1, -⟩ := hB; cases X with
      | dense A => exact h1.1.rows
      | sparse A => obtain ⟨⟨L, hL, -⟩, -⟩ := h1; exact hL.rows
      | zero d => exact h1.1
  constructor
  · rintro ⟨C, h⟩
    by_contra hn
    rw [C102_product A B (by rw [hc, hr]; exact hn)] at h
    cases h
  · rintro rfl
    obtain ⟨C, e, -⟩ := Mat.mul_sat hA hB
    exact ⟨C, e⟩

/-! ### Sums and differences -/

/-- No part of the matrix is a zero matrix. -/
def Mat.NoZero : Mat R → Prop
  | .one A => A.isZero = false
  | .two X Y => X.isZero = false ∧ Y.isZero = false

theorem SMat.binop_mismatch (op : R → R → R) (un : R → R) {A B : SMat R} (hA : A.isZero = false) (hB : B.isZero = false)
    (h : ¬ (A.rows = B.rows ∧ A.cols = B.cols)) : SMat.binop op un A B = .error .assertFail := by
  have key : ∀ {a b c d : Nat} {β : Type} {k : Unit → Res β}, ¬ (a = b ∧ c = d) →
      (assertThat (a == b) >>= fun _ => assertThat (c == d) >>= k) = .error .assertFail := by
    intro a b c d β k h
    by_cases h1 : a = b
    · have h2 : c ≠ d := fun h2 => h ⟨h1, h2⟩
      simp [assertThat, h1, h2]
    · simp [assertThat, h1]
  cases A with
  | zero d => cases hA
  | dense A =>
    cases B with
    | zero d => cases hB
    | dense B => simp only [SMat.binop]; rw [C16_dimension_mismatch_asserts op A B _ h]; rfl
    | sparse B => simp only [SMat.rows, SMat.cols] at h; simp only [SMat.binop, Sparse.binopDS]; rw [key h]; rfl
  | sparse A =>
    cases B with
    | zero d => cases hB
    | dense B =>
      have h' : ¬ (B.dim.rows = A.dim.rows ∧ B.dim.cols = A.dim.cols) := fun x => h ⟨x.1.symm, x.2.symm⟩
      simp only [SMat.binop, Sparse.binopSD, Sparse.binopDS]; rw [key h']; rfl
    | sparse B => simp only [SMat.rows, SMat.cols] at h; simp only [SMat.binop, Sparse.binop]; rw [key h]; rfl

/-- C102 for sums and differences (any element operation) of dense and sparse matrices: operands of different dimensions
are rejected by an assertion. -/
theorem C102_sum_partial [Zero R] (op : R → R → R) (un : R → R) (A B : SMat R) (r c r' c' : Nat) (f g : Nat → Nat → R) (hA : A.Is r c f)
    (hB : B.Is r' c' g) (hA0 : A.isZero = false) (hB0 : B.isZero = false) (h : ¬ (r = r' ∧ c = c')) :
    SMat.binop op un A B = .error .assertFail := by
  refine SMat.binop_mismatch op un hA0 hB0 ?_
  have hr : ∀ {A : SMat R} {r c f}, A.Is r c f → A.rows = r ∧ A.cols = c := by
    intro A r c f hA
    cases A with
    | dense A => exact ⟨hA.1.rows, hA.1.cols⟩
    | sparse A => obtain ⟨⟨L, hL, -⟩, -⟩ := hA; exact ⟨hL.rows, hL.cols⟩
    | zero d => exact ⟨hA.1, hA.2.1⟩
  rw [(hr hA).1, (hr hA).2, (hr hB).1, (hr hB).2]
  exact h

/-- The same for sums with two-part matrices. -/
theorem C102_two_part_sum_partial [AddCommMonoid R] (A B : Mat R) (r c r' c' : Nat) (f g : Nat → Nat → R) (hA : A.Is r c f)
    (hB : B.Is r' c' g) (hA0 : A.NoZero) (hB0 : B.NoZero) (h : ¬ (r = r' ∧ c = c')) :
    Mat.add (· + ·) A B = .error .assertFail := by
  cases A with
  | one A =>
    cases B with
    | one B => exact C102_sum_partial _ _ A B _ _ _ _ _ _ hA hB hA0 hB0 h
    | two B1 B2 =>
      obtain ⟨g1, g2, h1, -, -⟩ := hB
      simp only [Mat.add]
      rw [C102_sum_partial _ _ A B1 _ _ _ _ _ _ hA h1 hA0 hB0.1 h]; rfl
  | two A1 A2 =>
    obtain ⟨f1, f2, k1, k2, -⟩ := hA
    obtain ⟨C, eC, hC⟩ := Mat.add_sat (A := .one A1) (B := .one A2) k1 k2
    have eC : SMat.binop (· + ·) id A1 A2 = .ok C := eC
    have hC0 : C.isZero = false := by rw [(SMat.binop_kind eC).2.1, hA0.1]; rfl
    cases B with
    | one B => simp only [Mat.add, eC, bind_ok']; exact C102_sum_partial _ _ C B _ _ _ _ _ _ hC hB hC0 hB0 h
    | two B1 B2 =>
      obtain ⟨g1, g2, h1, -, -⟩ := hB
      simp only [Mat.add, eC, bind_ok']
      rw [C102_sum_partial _ _ C B1 _ _ _ _ _ _ hC h1 hC0 hB0.1 h]; rfl

/-- C102, negative: a sum or difference with a zero matrix is not checked: whatever the dimensions of the zero matrix, the
other operand is returned. -/
theorem C102_zero_is_not_checked (op : R → R → R) (un : R → R) (M : SMat R) (d : Dim) :
    SMat.binop op un M (.zero d) = .ok M ∧ (M.isZero = false → SMat.binop op un (.zero d) M = .ok M) := by
  cases M <;> simp [SMat.binop, SMat.isZero]

/-- C102, the negation for sums: 2×3 plus a 5×7 zero matrix has a result. -/
theorem C102_sum_counterexample : ∃ C, SMat.binop (· + ·) id (.dense (Dense.ofFn .col 2 3 (fun i j => (10 * i + j : Int)))) (.zero (Dim.mk' 5 7)) = .ok C ∧
    C.rows = 2 ∧ C.cols = 3 := ⟨_, rfl, rfl, rfl⟩

/-! ### In-place sums and differences -/

theorem loopN_fails {σ : Type} {f : Nat → σ → Res σ} {e : Fault} (I : Nat → σ → Prop) {l n : Nat} {s : σ} (hl : l < n) (h0 : I 0 s)
    (hs : ∀ i s, i < l → I i s → Sat (f i s) (I (i + 1))) (hf : ∀ s, I l s → f l s = .error e) : loopN n f s = .error e := by
  induction n with
  | zero => omega
  | succ n ih =>
    by_cases h : l < n
    · simp only [loopN]; rw [ih h]; rfl
    · obtain rfl : l = n := by omega
      obtain ⟨s', e', h'⟩ := loopN_spec I h0 hs
      simp only [loopN, e']
      exact hf s' h'

/-- C102 for `+=` and `-=`: a sparse or zero right operand of different dimensions is rejected by an assertion, unless the
operation is rejected by an exception anyway. -/
theorem C102_assign_partial (op : R → R → R) (A B : SMat R) (hB : B.isDense = false) (h : ¬ (A.rows = B.rows ∧ A.cols = B.cols)) :
    SMat.binassign op A B = .error .assertFail ∨ ∃ s, SMat.binassign op A B = .error (.throw s) := by
  have key : ∀ {a b c d : Nat} {β : Type} {k : Unit → Res β}, ¬ (a = b ∧ c = d) →
      (assertThat (a == b) >>= fun _ => assertThat (c == d) >>= k) = .error .assertFail := by
    intro a b c d β k h
    by_cases h1 : a = b
    · have h2 : c ≠ d := fun h2 => h ⟨h1, h2⟩
      simp [assertThat, h1, h2]
    · simp [assertThat, h1]
  cases B with
  | dense B => cases hB
  | sparse B =>
    cases A with
    | dense A =>
      left
      simp only [SMat.rows, SMat.cols] at h
      simp only [SMat.binassign, Sparse.binassignDS]; rw [key h]; rfl
    | sparse A => exact .inr ⟨_, rfl⟩
    | zero d => exact .inr ⟨_, rfl⟩
  | zero d =>
    left
    cases A <;> simp only [SMat.rows, SMat.cols] at h <;> simp only [SMat.binassign] <;> exact key h

/-- C102, negative: `+=` and `-=` on two dense matrices compare no dimensions.  If the right operand has at least as many
elements, element number t (in storage order) of the left operand is combined with element number t of the right one,
whatever their positions; if it has fewer, the loop reads past its end. -/
theorem C102_dense_assign_is_not_checked (op : R → R → R) (A B : Dense R) (r c r' c' : Nat) (f g : Nat → Nat → R)
    (hA : A.Is r c f) (hoA : A.ori = .col) (hB : B.Is r' c' g) (hoB : B.ori = .col) :
    (r * c ≤ r' * c' → ∃ D, Dense.binassign op A B = .ok D ∧ D.Is r c (fun i j => op (f i j) (g ((j * r + i) % r') ((j * r + i) / r')))) ∧
    (r' * c' < r * c → Dense.binassign op A B = .error .ub) := by
  have hdim : A.dim = Dim.mk' r c := by
    have h1 := hA.rows; have h2 := hA.cols; have h3 := hA.size
    cases hd : A.dim; simp [hd, Dim.mk'] at *; exact ⟨h1, h2, h3⟩
  let I : Nat → Nat × Buf R → Prop := fun k s => s.1 = k ∧ s.2.length = r * c ∧
    (∀ t, t < k → s.2[t]? = some (some (op (f (t % r) (t / r)) (g (t % r') (t / r'))))) ∧ ∀ t, k ≤ t → s.2[t]? = A.data[t]?
  have h0 : I 0 (0, A.data) := ⟨rfl, hA.alloc, fun t ht => by omega, fun t _ => rfl⟩
  have readA : ∀ {q : Nat} {d : Buf R}, q < r * c → I q (q, d) → d.read q = .ok (f (q % r) (q / r)) := by
    rintro q d hq ⟨-, -, -, hy⟩
    have := hA.raw hq
    rw [hoA] at this
    rw [Buf.read_ok] at this ⊢
    rw [hy q (le_refl q), this]; rfl
  have step : ∀ i s, i < r * c → i < r' * c' → I i s → Sat (do
      let a ← s.2.read i
      let b ← B.data.read s.1
      let d ← s.2.write i (op a b)
      return (s.1 + 1, d)) (I (i + 1)) := by
    rintro i ⟨q, d⟩ hi hi' hI
    obtain ⟨h1, hl, hx, hy⟩ := hI
    simp only at h1 hl hx hy
    subst h1
    have hrB := hB.raw hi'
    rw [hoB] at hrB
    refine Sat.read (readA hi ⟨rfl, hl, hx, hy⟩) (Sat.read hrB (Sat.writeRaw (by simp only; omega) ?_))
    intro b' hl' hx'
    refine Sat.pure ⟨rfl, by simp only at hl' ⊢; omega, ?_, ?_⟩
    · intro t ht
      simp only
      rw [hx']
      split
      · rename_i e; rw [e]; rfl
      · exact hx t (by omega)
    · intro t ht
      simp only
      rw [hx', if_neg (by omega)]
      exact hy t (by omega)
  constructor
  · intro hle
    unfold Dense.binassign
    refine Sat.bind (Sat.raw I h0 fun i s hi hs => step i s (by rw [hA.alloc] at hi; exact hi) (by rw [hA.alloc] at hi; omega) hs) ?_
    rintro ⟨q, d⟩ ⟨-, hl, hx, -⟩
    refine Sat.pure ?_
    rw [hdim, hoA]
    apply Dense.is_of_raw hl
    intro t ht
    rw [hx t (by rw [hA.alloc]; exact ht)]
    simp only [Dense.unpos]
    rw [show t / r * r + t % r = t by rw [Nat.mul_comm]; exact Nat.div_add_mod t r]
  · intro hlt
    unfold Dense.binassign
    rw [BB.rawLoop, loopN_fails (e := .ub) I (l := r' * c') (by rw [hA.alloc]; exact hlt) h0
      (fun i s hi hs => step i s (by omega) hi hs) ?_]
    · rfl
    · rintro ⟨q, d⟩ hI
      have h1 : q = r' * c' := hI.1
      subst h1
      have e1 := readA hlt hI
      have e2 : B.data.read (r' * c') = .error .ub := by
        unfold Buf.read
        rw [List.getElem?_eq_none (by rw [hB.alloc])]
      show (d.read (r' * c') >>= _) = _
      rw [e1]
      show (B.data.read (r' * c') >>= _) = _
      rw [e2]; rfl

/-- C102, the negation for in-place sums: 2×3 += 3×2 has a result, and it is not a sum of anything. -/
theorem C102_assign_counterexample : ∃ D, Dense.binassign (· + ·) (Dense.ofFn .col 2 3 (fun i j => (10 * i + j : Int)))
    (Dense.ofFn .col 3 2 (fun i j => (100 * i + 1000 * j))) = .ok D ∧ D.get 0 1 = .ok 201 ∧ D.get 1 1 = .ok 1011 := ⟨_, rfl, rfl, rfl⟩

/-! ### Blocked products -/

/-- The first product that fails in the first cell makes the blocked product fail. -/
theorem Blocks.mul_fails {α : Type} {mul add : α → α → Res α} {A B : Blocks α} {nr nk nk' nc l0 : Nat} {InA InB : Nat → Nat → α → Prop}
    {e : Fault} (Good : Nat → α → Prop) (hA : A.Grid nr nk InA) (hB : B.Grid nk' nc InB) (hl0 : l0 < nk) (hl0' : l0 < nk') (hr : 0 < nr) (hc : 0 < nc)
    (first : ∀ MA MB, 0 < l0 → InA 0 0 MA → InB 0 0 MB → Sat (mul MA MB) (Good 1))
    (step : ∀ l S MA MB, l + 1 < l0 → Good (l+1) S → InA 0 (l+1) MA → InB (l+1) 0 MB →
      Sat (mul MA MB) (fun P => Sat (add S P) (Good (l+2))))
    (fail : ∀ MA MB, InA 0 l0 MA → InB l0 0 MB → mul MA MB = .error e) : mulWith mul add A B = .error e := by
  have fit := View.plain_fits .col nr nc
  have firstLoop : ∀ {σ : Type} {n : Nat} {f : Nat → σ → Res σ} {s : σ}, 0 < n → f 0 s = .error e → ptrLoop 0 n 1 f s = .error e := by
    intro σ n f s hn hf
    unfold ptrLoop ptrLoopAux
    rw [if_neg (by omega), hf]; rfl
  unfold mulWith
  simp only [hA.rows, hB.cols]
  let v := View.plain .col nr nc
  have hv : Dense.view (⟨.col, ⟨nr, nc, 0⟩, Buf.alloc (nr * nc)⟩ : Dense α) = v := rfl
  simp only [hv]
  have hstride : 0 < A.grid.view.rowStride := View.rowStride_pos hA.fits (i := 0) (by rw [hA.view]; exact hr)
  have hend : A.grid.view.rowEnd 0 = A.grid.view.rowBegin 0 + nk * A.grid.view.rowStride := by
    rw [View.rowEnd_eq]; congr 2; rw [hA.view]; rfl
  have hne : A.grid.view.rowBegin 0 ≠ A.grid.view.rowEnd 0 := by
    rw [hend]
    have : 0 < nk * A.grid.view.rowStride := Nat.mul_pos (by omega) hstride
    omega
  have readA : ∀ {l}, l < nk → ∃ M, A.grid.data.read (A.grid.view.rowBegin 0 + l * A.grid.view.rowStride) = .ok M ∧
      InA 0 l M := by
    intro l hl'; rw [View.rowAt]; exact hA.read hr hl'
  have readB : ∀ {l}, l < nk' → ∃ M, B.grid.data.read (B.grid.view.colBegin 0 + l * B.grid.view.colStride) = .ok M ∧
      InB l 0 M := by
    intro l hl'; rw [View.colAt]; exact hB.read hl' hc
  obtain ⟨MA, eA, iA⟩ := readA (l := 0) (by omega)
  obtain ⟨MB, eB, iB⟩ := readB (l := 0) (by omega)
  simp only [Nat.zero_mul, Nat.add_zero] at eA eB
  rw [firstLoop hr ?_]
  · rfl
  rw [firstLoop hc ?_]
  · rfl
  rw [if_neg hne, eA, eB]
  simp only [bind_ok']
  rcases Nat.eq_zero_or_pos l0 with rfl | hpos
  · rw [fail _ _ iA iB]; rfl
  obtain ⟨P, eP, hP⟩ := first MA MB hpos iA iB
  rw [eP]
  simp only [bind_ok']
  have hin : v.rowBegin 0 < nr * nc := by
    have := fit.bound 0 0 hr hc
    have e := View.rowAt (v := v) (i := 0) (j := 0)
    simp only [Nat.zero_mul, Nat.add_zero] at e
    rw [e]; exact this
  rw [Buf.write_ok (by rw [Buf.alloc, List.length_replicate]; exact hin)]
  simp only [bind_ok']
  rw [ptrLoop_eq _ (nk - 1) _ _ _ _ (fun _ => hstride) (by
    rw [hend]
    obtain ⟨n, hn⟩ : ∃ n, nk = n + 1 := ⟨nk - 1, by omega⟩
    rw [hn, Nat.add_sub_cancel]; ring)]
  rw [loopN_fails (e := e) (l := l0 - 1) (fun l (w : Nat × Buf α) => w.1 = B.grid.view.colBegin 0 + (l + 1) * B.grid.view.colStride ∧
    w.2.length = nr * nc ∧ ∃ S, w.2.read (v.rowBegin 0) = .ok S ∧ Good (l + 1) S) (by omega) ?_ ?_ ?_]
  · rfl
  · refine ⟨by simp, by simp [Buf.alloc], P, ?_, hP⟩
    rw [Buf.read_set (by rw [Buf.alloc, List.length_replicate]; exact hin), if_pos rfl]
  · rintro l ⟨pb, dd⟩ hlk ⟨h1, hl2, S, eS, hS⟩
    simp only at h1 hl2 eS
    subst h1
    obtain ⟨MA, eA, iA⟩ := readA (l := l + 1) (by omega)
    obtain ⟨MB, eB, iB⟩ := readB (l := l + 1) (by omega)
    refine Sat.read eS ?_
    rw [show A.grid.view.rowBegin 0 + A.grid.view.rowStride + l * A.grid.view.rowStride = A.grid.view.rowBegin 0 + (l+1) * A.grid.view.rowStride by ring]
    refine Sat.read eA (Sat.read eB ?_)
    refine Sat.bind (step l S _ _ (by omega) hS iA iB) ?_
    intro P hP
    refine Sat.bind hP ?_
    intro T hT
    rw [Buf.write_ok (by rw [hl2]; exact hin)]
    refine Sat.pure ⟨by simp only; ring, by simp only [List.length_set]; exact hl2, T, ?_, hT⟩
    simp only
    rw [Buf.read_set (by rw [hl2]; exact hin), if_pos rfl]
  · rintro ⟨pb, dd⟩ ⟨h1, hl2, S, eS, hS⟩
    simp only at h1 hl2 eS
    subst h1
    obtain ⟨MA, eA, iA⟩ := readA (l := l0) hl0
    obtain ⟨MB, eB, iB⟩ := readB (l := l0) hl0'
    rw [show A.grid.view.rowBegin 0 + A.grid.view.rowStride + (l0 - 1) * A.grid.view.rowStride = A.grid.view.rowBegin 0 + l0 * A.grid.view.rowStride by
      obtain ⟨n, hn⟩ : ∃ n, l0 = n + 1 := ⟨l0 - 1, by omega⟩
      rw [hn, Nat.add_sub_cancel]; ring]
    rw [show l0 - 1 + 1 = l0 by omega]
    simp only [eS, eA, eB, bind_ok', fail _ _ iA iB, bind_error']

/-- C102 for blocked products: if two blocks that are to be multiplied have different inner dimensions (the inner
partitions differ at a position both have), the product is rejected by an assertion. -/
theorem C102_blocked_partial [NonUnitalNonAssocSemiring R] [DecidableEq R] (A B : Blocked R) (rs ks ks' cs : List Nat) (f g : Nat → Nat → R)
    (hA : A.Is rs ks f) (hB : B.Is ks' cs g) (hr : rs ≠ []) (hc : cs ≠ []) (l : Nat) (hl : l < ks.length) (hl' : l < ks'.length)
    (hne : ks.getD l 0 ≠ ks'.getD l 0) : Blocked.mul A B = .error .assertFail := by
  have hex : ∃ l, l < ks.length ∧ l < ks'.length ∧ ks.getD l 0 ≠ ks'.getD l 0 := ⟨l, hl, hl', hne⟩
  classical
  obtain ⟨h1, h2, h3⟩ := Nat.find_spec hex
  have hmin := fun {m} (hm : m < Nat.find hex) => Nat.find_min hex hm
  generalize Nat.find hex = l0 at h1 h2 h3 hmin
  have hgood : ∀ {m}, m < l0 → ks.getD m 0 = ks'.getD m 0 := by
    intro m hm
    by_contra hn
    exact hmin hm ⟨by omega, by omega, hn⟩
  refine Blocks.mul_fails (l0 := l0) (fun _ M => ∃ S h, M = .one S ∧ S.Is (rs.getD 0 0) (cs.getD 0 0) h) hA.grid' hB.grid' h1 h2
    (List.length_pos_iff.2 hr) (List.length_pos_iff.2 hc) ?_ ?_ ?_
  · intro MA MB h0 iA iB
    rw [← hgood h0] at iB
    refine Sat.bind (Mat.mul_sat iA iB) fun P hP => Sat.pure ⟨P, _, rfl, hP⟩
  · rintro m _ MA MB hm ⟨S, h, rfl, hS⟩ iA iB
    rw [← hgood (by omega)] at iB
    refine Sat.bind (Mat.mul_sat iA iB) fun P hP => Sat.pure ?_
    refine Sat.bind (Mat.add_sat (A := .one S) (B := .one P) hS hP) fun T hT => Sat.pure ⟨T, _, rfl, hT⟩
  · intro MA MB iA iB
    rw [C102_product MA MB (by rw [Blocked.mat_cols iA, Blocked.mat_rows iB]; exact h3)]; rfl

/-- C102, negative: additional block rows of the right operand are ignored.  The product of an m×k matrix and a
(k+t)×n matrix, t > 0, is computed without an error from the first k rows of the right operand. -/
theorem C102_blocked_ignores_rows [NonUnitalNonAssocSemiring R] [DecidableEq R] (A B : Blocked R) (rs ks ts cs : List Nat) (f g : Nat → Nat → R)
    (hA : A.Is rs ks f) (hB : B.Is (ks ++ ts) cs g) (hk : ks ≠ []) :
    ∃ C, Blocked.mul A B = .ok C ∧ C.Is rs cs (fun i j => ∑ l ∈ Finset.range ks.sum, f i l * g l j) := by
  have hk0 : 0 < ks.length := List.length_pos_iff.2 hk
  have hget : ∀ {l}, l < ks.length → (ks ++ ts).getD l 0 = ks.getD l 0 := by
    intro l hl
    simp [List.getD_eq_getElem?_getD, List.getElem?_append_left hl]
  have hoffs : ∀ {l}, l ≤ ks.length → offs (ks ++ ts) l = offs ks l := by
    intro l hl
    unfold offs
    rw [List.take_append_of_le_length hl]
  let part : Nat → Nat → Nat → Nat → Nat → R := fun i j l a b => ∑ x ∈ Finset.range (offs ks l), f (offs rs i + a) x * g x (offs cs j + b)
  have key := Blocks.mul_gen' (mul := fun X Y => do return .one (← Mat.mul X Y)) (add := fun X Y => do return .one (← Mat.add (· + ·) X Y))
    (fun i j l M => ∃ S, M = .one S ∧ S.Is (rs.getD i 0) (cs.getD j 0) (part i j l)) hA.grid' hB.grid' (by simp) hk0 ?_ ?_
  · obtain ⟨C, e, h1, h2, hC⟩ := key
    refine ⟨C, e, hC.ori, hC.rows, hC.cols, hC.alloc, h1.trans hA.ubRows, h2.trans hB.ubCols, ?_⟩
    intro i j hi hj
    obtain ⟨M, e, S, rfl, hS⟩ := hC.blocks i j hi hj
    refine ⟨_, e, SMat.Is.congr hS (fun a b _ _ => ?_)⟩
    simp only [part, offs_length]
  · intro i j MA MB hi hj iA iB
    rw [hget hk0] at iB
    refine Sat.bind (Mat.mul_sat iA iB) fun P hP => Sat.pure ⟨P, rfl, SMat.Is.congr hP (fun a b _ _ => ?_)⟩
    have e0 : offs ks 1 = ks.getD 0 0 := by rw [show 1 = 0 + 1 from rfl, offs_succ ks hk0]; simp [offs]
    have e1 : offs ks 0 = 0 := by simp [offs]
    have e2 : offs (ks ++ ts) 0 = 0 := by simp [offs]
    simp only [part, e0, e1, e2, Nat.zero_add]
  · rintro i j l _ MA MB hi hj hl ⟨S, rfl, hS⟩ iA iB
    rw [hget hl] at iB
    refine Sat.bind (Mat.mul_sat iA iB) fun P hP => Sat.pure ?_
    refine Sat.bind (Mat.add_sat (A := .one S) (B := .one P) hS hP) fun T hT => Sat.pure ⟨T, rfl, SMat.Is.congr hT (fun a b _ _ => ?_)⟩
    have e0 : offs ks (l + 2) = offs ks (l + 1) + ks.getD (l + 1) 0 := offs_succ ks hl
    simp only [part, e0, hoffs (Nat.le_of_lt hl)]
    rw [Finset.sum_range_add]

/-- A column of 1×1 blocks. -/
def colBlocks (l : List Int) : Blocked Int :=
  ⟨⟨.col, Dim.mk' l.length 1, l.map fun x => some (.one (.dense (Dense.ofFn .col 1 1 (fun _ _ => x))))⟩, l.length, 1⟩

/-- A row of 1×1 blocks. -/
def rowBlocks (l : List Int) : Blocked Int :=
  ⟨⟨.col, Dim.mk' 1 l.length, l.map fun x => some (.one (.dense (Dense.ofFn .col 1 1 (fun _ _ => x))))⟩, 1, l.length⟩

theorem rowBlocks_is (l : List Int) : (rowBlocks l).Is [1] (List.replicate l.length 1) (fun _ j => l.getD j 0) := by
  refine ⟨rfl, rfl, by simp [rowBlocks, Dim.mk'], by simp [rowBlocks, Dim.mk'], rfl, by simp [rowBlocks], ?_⟩
  intro i j hi hj
  obtain rfl : i = 0 := by simpa using hi
  have hj : j < l.length := by simpa using hj
  refine ⟨.one (.dense (Dense.ofFn .col 1 1 (fun _ _ => l.getD j 0))), ?_, ?_⟩
  · have e : (rowBlocks l).grid.get 0 j = Buf.read (rowBlocks l).grid.data (0 + (0 + j * 1)) := by
      simp [rowBlocks, Dense.get, View.get, Dense.view, View.plain, View.pos, assertThat, Dim.mk', hj]
    rw [e, Buf.read_ok]
    simp [rowBlocks, hj]
  · have e1 : (List.replicate l.length 1).getD j 0 = 1 := by simp [hj]
    rw [e1]
    refine ⟨Dense.Is.congr (Dense.ofFn_is _ _ _ _) ?_, rfl⟩
    intro a b _ hb
    have : offs (List.replicate l.length 1) j = j := by simp [offs]; omega
    simp only [this]
    congr 1; omega

theorem colBlocks_is (l : List Int) : (colBlocks l).Is (List.replicate l.length 1) [1] (fun i _ => l.getD i 0) := by
  refine ⟨rfl, by simp [colBlocks, Dim.mk'], rfl, by simp [colBlocks, Dim.mk'], by simp [colBlocks], rfl, ?_⟩
  intro i j hi hj
  obtain rfl : j = 0 := by simpa using hj
  have hi : i < l.length := by simpa using hi
  refine ⟨.one (.dense (Dense.ofFn .col 1 1 (fun _ _ => l.getD i 0))), ?_, ?_⟩
  · have e : (colBlocks l).grid.get i 0 = Buf.read (colBlocks l).grid.data (0 + (i + 0 * l.length)) := by
      simp [colBlocks, Dense.get, View.get, Dense.view, View.plain, View.pos, assertThat, Dim.mk', hi]
    rw [e, Buf.read_ok]
    simp [colBlocks, hi]
  · have e1 : (List.replicate l.length 1).getD i 0 = 1 := by simp [hi]
    rw [e1]
    refine ⟨Dense.Is.congr (Dense.ofFn_is _ _ _ _) ?_, rfl⟩
    intro a b ha _
    have : offs (List.replicate l.length 1) i = i := by simp [offs]; omega
    simp only [this]
    congr 1; omega

/-- C102, the negations for blocked products: 1×1 times 2×1 blocks has a result (2·3, the second row is ignored), and 1×2
times 1×1 blocks reads past the end of the right operand: undefined behaviour. -/
theorem C102_blocked_counterexample :
    (rowBlocks [2]).Is [1] [1] (fun _ j => [2].getD j 0) ∧ (colBlocks [3, 4]).Is [1, 1] [1] (fun i _ => [3, 4].getD i 0) ∧
    (rowBlocks [2, 5]).Is [1] [1, 1] (fun _ j => [2, 5].getD j 0) ∧ (colBlocks [3]).Is [1] [1] (fun i _ => [3].getD i 0) ∧
    (∃ C, Blocked.mul (rowBlocks [2]) (colBlocks [3, 4]) = .ok C ∧ C.Is [1] [1] (fun _ _ => 6)) ∧
    Blocked.mul (rowBlocks [2, 5]) (colBlocks [3]) = .error .ub := by
  refine ⟨rowBlocks_is _, colBlocks_is _, rowBlocks_is _, colBlocks_is _, ?_, rfl⟩
  obtain ⟨C, e, h⟩ := C102_blocked_ignores_rows _ _ [1] [1] [1] [1] _ _ (rowBlocks_is [2]) (colBlocks_is [3, 4]) (by simp)
  refine ⟨C, e, ?_⟩
  simpa using h

example : (rowBlocks [2]).Is [1] [1] (fun _ j => [2].getD j 0) ∧ (colBlocks [3, 4]).Is ([1] ++ [1]) [1] (fun i _ => [3, 4].getD i 0) :=
  ⟨rowBlocks_is _, colBlocks_is _⟩

/-- Blocks 1×1 and 1×2 times one 1×1 and one 1×1 block: the second inner sizes (2 and 1) differ. -/
example : exBlocked.Is [1] [1, 2] (fun _ j => if j = 0 then 5 else 0) → (colBlocks [3, 4]).Is [1, 1] [1] (fun i _ => [3, 4].getD i 0) →
    Blocked.mul exBlocked (colBlocks [3, 4]) = .error .assertFail :=
  fun h1 h2 => C102_blocked_partial _ _ _ _ _ _ _ _ h1 h2 (by simp) (by simp) 1 (by simp) (by simp) (by simp)

end BB
