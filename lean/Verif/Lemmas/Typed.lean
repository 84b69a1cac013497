import Verif.SpecTyped
import Verif.Lemmas.Float
import Verif.Lemmas.BlockedMul
import Verif.Lemmas.SparseCopy

/-! Auxiliary lemmas about matrices with element types. -/

namespace BB

variable {F D : Type}

theorem Dense.mapE_is (g : F → D) {A : Dense F} {r c : Nat} {f : Nat → Nat → F} (h : A.Is r c f) :
    (A.mapE g).Is r c (fun i j => g (f i j)) where
  rows := h.rows
  cols := h.cols
  size := h.size
  alloc := by rw [← h.alloc]; exact List.length_map _
  elems := by
    intro i j hi hj
    have := h.elems i j hi hj
    unfold Dense.get at this ⊢
    have hv : (A.mapE g).view = A.view := rfl
    rw [hv]
    have hi' : i < A.view.rows := by rw [h.view_rows]; exact hi
    have hj' : j < A.view.cols := by rw [h.view_rows]; exact hj
    rw [View.get_eq hi' hj'] at this ⊢
    rw [Buf.read_ok] at this ⊢
    unfold Dense.mapE
    rw [List.getElem?_map, this]; rfl

theorem Sparse.mapE_is [Zero F] [Zero D] (g : F → D) (h0 : g 0 = 0) {A : Sparse F} {r c : Nat} {f : Nat → Nat → F} (h : A.Is r c f) :
    (A.mapE g).Is r c (fun i j => g (f i j)) := by
  obtain ⟨L, hL, hf⟩ := h
  have hv := Sparse.valid_convert g (o := A.ori) (r := r) (c := c) hL hL.runs hL.bound
  refine ⟨L.map (List.map (fun e => (e.1, g e.2))), ?_, ?_⟩
  · exact { rows := hL.rows, cols := hL.cols, size := hL.size, runs := hv.runs,
            offsLen := by have := hv.offsLen; simpa [Sparse.mapE] using this
            offs := by intro q hq; have := hv.offs q hq; simpa [Sparse.mapE] using this
            keyLen := by show A.key.length = (A.value.map _).length; rw [List.length_map]; exact hL.keyLen
            cells := by
              intro p e he
              have := hv.cells p e he
              simp only [Option.map_id, List.map_id_fun, id] at this
              exact this
            bound := hv.bound, sorted := hv.sorted }
  · intro i j hi hj
    show g (f i j) = _
    rw [hf i j hi hj]
    show g (entryAt _ _) = entryAt (List.getD _ (A.ori.minorIx i j) []) (A.ori.majorIx i j)
    have : (L.map (List.map (fun e => (e.1, g e.2)))).getD (A.ori.minorIx i j) []
        = (L.getD (A.ori.minorIx i j) []).map (fun e => (e.1, g e.2)) := by
      simp only [List.getD, List.getElem?_map]
      cases L[A.ori.minorIx i j]? <;> rfl
    rw [this, entryAt_map g h0]


namespace SMat

/-- Which kind of matrix a product is. -/
theorem mul_kind [Zero F] [Add F] [Mul F] [DecidableEq F] {A B C : SMat F} (h : mul A B = .ok C) :
    C.isZero = (A.isZero || B.isZero) ∧ C.isSparse = (A.isSparse && B.isSparse) := by
  have key : ∀ {X : Type} {x : Res X} {k : X → SMat F}, (x >>= fun a => Except.ok (k a)) = .ok C → ∃ a, C = k a := by
    intro X x k h
    cases x with
    | error e => cases h
    | ok a => cases h; exact ⟨a, rfl⟩
  have key0 : ∀ {a b c d : Nat}, (mulZero a b c d : Res (SMat F)) = .ok C → ∃ d, C = .zero d := by
    intro a b c d h
    unfold mulZero at h
    cases hb : b == c with
    | false => rw [hb] at h; cases h
    | true => rw [hb] at h; cases h; exact ⟨_, rfl⟩
  cases A <;> cases B <;> simp only [mul] at h
  all_goals first
    | (obtain ⟨a, rfl⟩ := key h; simp [isZero, isSparse])
    | (obtain ⟨a, rfl⟩ := key0 h; simp [isZero, isSparse])

end SMat

namespace TSMat

theorem Is.congr [Zero F] [Zero D] {up : F → D} {A : TSMat F D} {r c : Nat} {f f' : Nat → Nat → D} (h : A.Is up r c f)
    (e : ∀ i j, i < r → j < c → f i j = f' i j) : A.Is up r c f' := by
  cases A with
  | denseF A => obtain ⟨o, g, hg, he⟩ := h; exact ⟨o, g, hg, fun i j hi hj => by rw [← e i j hi hj]; exact he i j hi hj⟩
  | sparseF A => obtain ⟨o, g, hg, he⟩ := h; exact ⟨o, g, hg, fun i j hi hj => by rw [← e i j hi hj]; exact he i j hi hj⟩
  | denseD A => exact ⟨h.1, h.2.congr e⟩
  | sparseD A => obtain ⟨o, L, hL, he⟩ := h; exact ⟨o, L, hL, fun i j hi hj => by rw [← e i j hi hj]; exact he i j hi hj⟩
  | zero d => exact ⟨h.1, h.2.1, fun i j hi hj => by rw [← e i j hi hj]; exact h.2.2 i j hi hj⟩

theorem toD_is [Zero F] [Zero D] {up : F → D} (h0 : up 0 = 0) {A : TSMat F D} {r c : Nat} {f : Nat → Nat → D} (h : A.Is up r c f) :
    (A.toD up).Is r c f := by
  cases A with
  | denseF A => obtain ⟨o, g, hg, he⟩ := h; exact ⟨(Dense.mapE_is up hg).congr (fun i j hi hj => (he i j hi hj).symm), o⟩
  | sparseF A =>
    obtain ⟨o, g, hg, he⟩ := h
    obtain ⟨L, hL, hf⟩ := Sparse.mapE_is up h0 hg
    exact ⟨⟨L, hL, fun i j hi hj => (he i j hi hj).trans (hf i j hi hj)⟩, o⟩
  | denseD A => exact ⟨h.2, h.1⟩
  | sparseD A => exact ⟨h.2, h.1⟩
  | zero d => exact h

theorem asF_is [Zero F] [Zero D] {up : F → D} (h0 : up 0 = 0) {A : TSMat F D} {a : SMat F} (e : A.asF = some a) {r c : Nat}
    {f : Nat → Nat → D} (h : A.Is up r c f) : ∃ g, a.Is r c g ∧ ∀ i j, i < r → j < c → f i j = up (g i j) := by
  cases A with
  | denseF A => cases e; obtain ⟨o, g, hg, he⟩ := h; exact ⟨g, ⟨hg, o⟩, he⟩
  | sparseF A => cases e; obtain ⟨o, g, hg, he⟩ := h; exact ⟨g, ⟨hg, o⟩, he⟩
  | denseD A => cases e
  | sparseD A => cases e
  | zero d => cases e; exact ⟨fun _ _ => 0, ⟨h.1, h.2.1, fun _ _ _ _ => rfl⟩, fun i j hi hj => by rw [h0]; exact h.2.2 i j hi hj⟩

theorem ofF_is [Zero F] [Zero D] {up : F → D} (h0 : up 0 = 0) {a : SMat F} {r c : Nat} {g : Nat → Nat → F} (h : a.Is r c g) :
    (ofF a : TSMat F D).Is up r c (fun i j => up (g i j)) := by
  cases a with
  | dense A => exact ⟨h.2, g, h.1, fun _ _ _ _ => rfl⟩
  | sparse A => exact ⟨h.2, g, h.1, fun _ _ _ _ => rfl⟩
  | zero d => exact ⟨h.1, h.2.1, fun i j hi hj => by show up (g i j) = 0; rw [h.2.2 i j hi hj, h0]⟩

theorem ofD_is [Zero F] [Zero D] {up : F → D} {a : SMat D} {r c : Nat} {f : Nat → Nat → D} (h : a.Is r c f) :
    (ofD a : TSMat F D).Is up r c f := by
  cases a with
  | dense A => exact ⟨h.2, h.1⟩
  | sparse A => exact ⟨h.2, h.1⟩
  | zero d => exact h

theorem asF_none {A : TSMat F D} : A.asF = none ↔ A.prec = some .double := by
  cases A <;> simp [asF, prec]

theorem is_rows [Zero F] [Zero D] {up : F → D} {A : TSMat F D} {r c : Nat} {f : Nat → Nat → D} (h : A.Is up r c f) : A.rows = r := by
  cases A with
  | denseF A => obtain ⟨o, g, hg, he⟩ := h; exact hg.rows
  | sparseF A => obtain ⟨o, g, hg, he⟩ := h; exact hg.rows
  | denseD A => exact h.2.rows
  | sparseD A => exact h.2.rows
  | zero d => exact h.1

theorem is_cols [Zero F] [Zero D] {up : F → D} {A : TSMat F D} {r c : Nat} {f : Nat → Nat → D} (h : A.Is up r c f) : A.cols = c := by
  cases A with
  | denseF A => obtain ⟨o, g, hg, he⟩ := h; exact hg.cols
  | sparseF A => obtain ⟨o, g, hg, he⟩ := h; exact hg.cols
  | denseD A => exact h.2.cols
  | sparseD A => exact h.2.cols
  | zero d => exact h.2.1

/-- The element types of results. -/
theorem mul_prec [Zero F] [Add F] [Mul F] [DecidableEq F] [Zero D] [Add D] [Mul D] [DecidableEq D] {up : F → D}
    {A B C : TSMat F D} (h : mul up A B = .ok C) : C.prec = productPrec A.prec B.prec ∧ C.stored = productStored A.stored B.stored := by
  have keyF : ∀ {a b : SMat F}, (SMat.mul a b >>= fun x => Except.ok (ofF x : TSMat F D)) = .ok C →
      ∃ x, C = ofF x ∧ x.isZero = (a.isZero || b.isZero) ∧ x.isSparse = (a.isSparse && b.isSparse) := by
    intro a b h
    cases e : SMat.mul a b with
    | error x => rw [e] at h; cases h
    | ok x => rw [e] at h; cases h; exact ⟨x, rfl, SMat.mul_kind e⟩
  have keyD : ∀ {a b : SMat D}, (SMat.mul a b >>= fun x => Except.ok (ofD x : TSMat F D)) = .ok C →
      ∃ x, C = ofD x ∧ x.isZero = (a.isZero || b.isZero) ∧ x.isSparse = (a.isSparse && b.isSparse) := by
    intro a b h
    cases e : SMat.mul a b with
    | error x => rw [e] at h; cases h
    | ok x => rw [e] at h; cases h; exact ⟨x, rfl, SMat.mul_kind e⟩
  cases A <;> cases B <;> (
    first
    | (replace h := keyF h; obtain ⟨x, rfl, h1, h2⟩ := h; cases x <;> first | exact ⟨rfl, rfl⟩ | (cases h1; done) | (cases h2; done))
    | (replace h := keyD h; obtain ⟨x, rfl, h1, h2⟩ := h; cases x <;> first | exact ⟨rfl, rfl⟩ | (cases h1; done) | (cases h2; done)))

theorem add_prec [Add F] [Add D] {up : F → D}
    {A B C : TSMat F D} (h : add up A B = .ok C) : C.prec = sumPrec A.prec B.prec ∧ C.stored = sumStored A.stored B.stored := by
  have keyF : ∀ {a b : SMat F}, (SMat.binop (· + ·) id a b >>= fun x => Except.ok (ofF x : TSMat F D)) = .ok C →
      ∃ x, C = ofF x ∧ x.isDense = (a.isDense || b.isDense) ∧ x.isZero = (a.isZero && b.isZero) := by
    intro a b h
    cases e : SMat.binop (· + ·) id a b with
    | error x => rw [e] at h; cases h
    | ok x => rw [e] at h; cases h; exact ⟨x, rfl, (SMat.binop_kind e).1, (SMat.binop_kind e).2.1⟩
  have keyD : ∀ {a b : SMat D}, (SMat.binop (· + ·) id a b >>= fun x => Except.ok (ofD x : TSMat F D)) = .ok C →
      ∃ x, C = ofD x ∧ x.isDense = (a.isDense || b.isDense) ∧ x.isZero = (a.isZero && b.isZero) := by
    intro a b h
    cases e : SMat.binop (· + ·) id a b with
    | error x => rw [e] at h; cases h
    | ok x => rw [e] at h; cases h; exact ⟨x, rfl, (SMat.binop_kind e).1, (SMat.binop_kind e).2.1⟩
  cases A <;> cases B <;> (
    first
    | (replace h := keyF h; obtain ⟨x, rfl, h1, h2⟩ := h; cases x <;> first | exact ⟨rfl, rfl⟩ | (cases h1; done) | (cases h2; done))
    | (replace h := keyD h; obtain ⟨x, rfl, h1, h2⟩ := h; cases x <;> first | exact ⟨rfl, rfl⟩ | (cases h1; done) | (cases h2; done)))

theorem sub_prec [Sub F] [Sub D] [Neg F] [Neg D] {up : F → D}
    {A B C : TSMat F D} (h : sub up A B = .ok C) : C.prec = sumPrec A.prec B.prec ∧ C.stored = sumStored A.stored B.stored := by
  have keyF : ∀ {a b : SMat F}, (SMat.binop (· - ·) (- ·) a b >>= fun x => Except.ok (ofF x : TSMat F D)) = .ok C →
      ∃ x, C = ofF x ∧ x.isDense = (a.isDense || b.isDense) ∧ x.isZero = (a.isZero && b.isZero) := by
    intro a b h
    cases e : SMat.binop (· - ·) (- ·) a b with
    | error x => rw [e] at h; cases h
    | ok x => rw [e] at h; cases h; exact ⟨x, rfl, (SMat.binop_kind e).1, (SMat.binop_kind e).2.1⟩
  have keyD : ∀ {a b : SMat D}, (SMat.binop (· - ·) (- ·) a b >>= fun x => Except.ok (ofD x : TSMat F D)) = .ok C →
      ∃ x, C = ofD x ∧ x.isDense = (a.isDense || b.isDense) ∧ x.isZero = (a.isZero && b.isZero) := by
    intro a b h
    cases e : SMat.binop (· - ·) (- ·) a b with
    | error x => rw [e] at h; cases h
    | ok x => rw [e] at h; cases h; exact ⟨x, rfl, (SMat.binop_kind e).1, (SMat.binop_kind e).2.1⟩
  cases A <;> cases B <;> (
    first
    | (replace h := keyF h; obtain ⟨x, rfl, h1, h2⟩ := h; cases x <;> first | exact ⟨rfl, rfl⟩ | (cases h1; done) | (cases h2; done))
    | (replace h := keyD h; obtain ⟨x, rfl, h1, h2⟩ := h; cases x <;> first | exact ⟨rfl, rfl⟩ | (cases h1; done) | (cases h2; done)))

/-- The elements of a product. -/
theorem mul_sat [Arith F] [Arith D] [DecidableEq F] [DecidableEq D] {up : F → D} (h0 : up 0 = 0) {A B : TSMat F D} {m k n : Nat}
    {f g : Nat → Nat → D} (hA : A.Is up m k f) (hB : B.Is up k n g) :
    Sat (mul up A B) (fun C =>
      (A.prec ≠ some .double ∧ B.prec ≠ some .double ∧ ∃ f0 g0 : Nat → Nat → F, (∀ i l, i < m → l < k → f i l = up (f0 i l)) ∧
        (∀ l j, l < k → j < n → g l j = up (g0 l j)) ∧ C.Is up m n (fun i j => up (dotSeq f0 g0 k i j))) ∨
      ((A.prec = some .double ∨ B.prec = some .double) ∧ C.Is up m n (fun i j => dotSeq f g k i j))) := by
  unfold mul
  cases eA : A.asF with
  | some a =>
    have pA : A.prec ≠ some .double := fun h => by rw [asF_none.2 h] at eA; cases eA
    cases eB : B.asF with
    | some b =>
      have pB : B.prec ≠ some .double := fun h => by rw [asF_none.2 h] at eB; cases eB
      obtain ⟨f0, hf0, ef⟩ := asF_is h0 eA hA
      obtain ⟨g0, hg0, eg⟩ := asF_is h0 eB hB
      exact Sat.bind (SMat.mul_seq hf0 hg0) fun C hC => Sat.pure (.inl ⟨pA, pB, f0, g0, ef, eg, ofF_is h0 hC⟩)
    | none =>
      exact Sat.bind (SMat.mul_seq (toD_is h0 hA) (toD_is h0 hB)) fun C hC => Sat.pure (.inr ⟨.inr (asF_none.1 eB), ofD_is hC⟩)
  | none =>
    exact Sat.bind (SMat.mul_seq (toD_is h0 hA) (toD_is h0 hB)) fun C hC => Sat.pure (.inr ⟨.inl (asF_none.1 eA), ofD_is hC⟩)

/-- The elements of a sum. -/
theorem add_sat [CommArith F] [CommArith D] {up : F → D} (h0 : up 0 = 0) {A B : TSMat F D} {r c : Nat}
    {f g : Nat → Nat → D} (hA : A.Is up r c f) (hB : B.Is up r c g) :
    Sat (add up A B) (fun C =>
      (A.prec ≠ some .double ∧ B.prec ≠ some .double ∧ ∃ f0 g0 : Nat → Nat → F, (∀ i j, i < r → j < c → f i j = up (f0 i j)) ∧
        (∀ i j, i < r → j < c → g i j = up (g0 i j)) ∧ C.Is up r c (fun i j => up (f0 i j + g0 i j))) ∨
      ((A.prec = some .double ∨ B.prec = some .double) ∧ C.Is up r c (fun i j => f i j + g i j))) := by
  unfold add
  cases eA : A.asF with
  | some a =>
    have pA : A.prec ≠ some .double := fun h => by rw [asF_none.2 h] at eA; cases eA
    cases eB : B.asF with
    | some b =>
      have pB : B.prec ≠ some .double := fun h => by rw [asF_none.2 h] at eB; cases eB
      obtain ⟨f0, hf0, ef⟩ := asF_is h0 eA hA
      obtain ⟨g0, hg0, eg⟩ := asF_is h0 eB hB
      exact Sat.bind (SMat.binop_add_seq CommArith.add_comm' hf0 hg0) fun C hC => Sat.pure (.inl ⟨pA, pB, f0, g0, ef, eg, ofF_is h0 hC⟩)
    | none =>
      exact Sat.bind (SMat.binop_add_seq CommArith.add_comm' (toD_is h0 hA) (toD_is h0 hB)) fun C hC => Sat.pure (.inr ⟨.inr (asF_none.1 eB), ofD_is hC⟩)
  | none =>
    exact Sat.bind (SMat.binop_add_seq CommArith.add_comm' (toD_is h0 hA) (toD_is h0 hB)) fun C hC => Sat.pure (.inr ⟨.inl (asF_none.1 eA), ofD_is hC⟩)

/-- Conversion to a dense matrix of `double`s is exact. -/
theorem denseOf_sat [Zero F] [Zero D] {up : F → D} (h0 : up 0 = 0) {A : TSMat F D} {r c : Nat} {f : Nat → Nat → D} (h : A.Is up r c f) :
    Sat (A.denseOf up) (fun C => C.Is r c f ∧ C.ori = .col) := by
  cases A with
  | denseF A =>
    obtain ⟨o, g, hg, he⟩ := h
    exact Sat.mono (Dense.convert_sat up .col hg) fun C hC => ⟨hC.2.congr (fun i j hi hj => (he i j hi hj).symm), hC.1⟩
  | sparseF A =>
    obtain ⟨o, g, hg, he⟩ := h
    exact Sat.mono (Sparse.toDense_sat up h0 .col hg) fun C hC => ⟨hC.2.congr (fun i j hi hj => (he i j hi hj).symm), hC.1⟩
  | denseD A => exact Mat.denseOf_sat (A := .dense A) ⟨h.2, h.1⟩
  | sparseD A => exact Mat.denseOf_sat (A := .sparse A) ⟨h.2, h.1⟩
  | zero d => exact Mat.denseOf_sat (A := .zero d) h

end TSMat

/-! ### Error calculus with two precisions -/

/-- `x` approximates `e` with an error of (1+ud)^n - 1 relative to `wd` and of (1+uf)^n - 1 relative to `wf`. -/
structure Near2 (ud uf : ℚ) (n : Nat) (x e wd wf : ℚ) : Prop where
  err : |x - e| ≤ ((1 + ud) ^ n - 1) * wd + ((1 + uf) ^ n - 1) * wf
  size : |e| ≤ wd + wf
  posD : 0 ≤ wd
  posF : 0 ≤ wf

namespace Near2

variable {ud uf : ℚ} {n n' : Nat} {x y e wd wf e' wd' wf' w : ℚ}

theorem mono (hd : 0 ≤ ud) (hf : 0 ≤ uf) (h : n ≤ n') (hx : Near2 ud uf n x e wd wf) : Near2 ud uf n' x e wd wf := by
  refine ⟨hx.err.trans (add_le_add ?_ ?_), hx.size, hx.posD, hx.posF⟩
  · have : (1 + ud) ^ n ≤ (1 + ud) ^ n' := pow_le_pow_right₀ (by linarith) h
    exact mul_le_mul_of_nonneg_right (by linarith) hx.posD
  · have : (1 + uf) ^ n ≤ (1 + uf) ^ n' := pow_le_pow_right₀ (by linarith) h
    exact mul_le_mul_of_nonneg_right (by linarith) hx.posF

theorem ofD (h : Near ud n x e w) : Near2 ud uf n x e w 0 :=
  ⟨by simpa using h.1, by simpa using h.2, (abs_nonneg _).trans h.2, le_refl _⟩

theorem ofF (h : Near uf n x e w) : Near2 ud uf n x e 0 w :=
  ⟨by simpa using h.1, by simpa using h.2, le_refl _, (abs_nonneg _).trans h.2⟩

theorem toF (h : Near2 ud uf n x e wd wf) (h0 : wd = 0) : Near uf n x e wf :=
  ⟨by simpa [h0] using h.err, by simpa [h0] using h.size⟩

/-- A sum rounded to the finer precision. -/
theorem add {s : ℚ} (hd : 0 ≤ ud) (hdf : ud ≤ uf) (hx : Near2 ud uf n x e wd wf) (hy : Near2 ud uf n y e' wd' wf')
    (hs : |s - (x + y)| ≤ ud * |x + y|) : Near2 ud uf (n + 1) s (e + e') (wd + wd') (wf + wf') := by
  have hxy : |x + y - (e + e')| ≤ ((1 + ud) ^ n - 1) * (wd + wd') + ((1 + uf) ^ n - 1) * (wf + wf') := by
    calc _ = |(x - e) + (y - e')| := by congr 1; ring
      _ ≤ |x - e| + |y - e'| := abs_add_le _ _
      _ ≤ _ := by have := hx.err; have := hy.err; linarith
  have hE : |e + e'| ≤ (wd + wd') + (wf + wf') := (abs_add_le _ _).trans (by have := hx.size; have := hy.size; linarith)
  have hsz : |x + y| ≤ (1 + ud) ^ n * (wd + wd') + (1 + uf) ^ n * (wf + wf') := by
    calc |x + y| = |(x + y - (e + e')) + (e + e')| := by congr 1; ring
      _ ≤ _ := abs_add_le _ _
      _ ≤ _ := add_le_add hxy hE
      _ = _ := by ring
  have pD : 0 ≤ wd + wd' := add_nonneg hx.posD hy.posD
  have pF : 0 ≤ wf + wf' := add_nonneg hx.posF hy.posF
  refine ⟨?_, hE, pD, pF⟩
  have hpow : 0 ≤ (1 + uf) ^ n * (wf + wf') := mul_nonneg (pow_nonneg (by linarith) _) pF
  calc |s - (e + e')| = |(s - (x + y)) + (x + y - (e + e'))| := by congr 1; ring
    _ ≤ _ := abs_add_le _ _
    _ ≤ ud * ((1 + ud) ^ n * (wd + wd') + (1 + uf) ^ n * (wf + wf')) + (((1 + ud) ^ n - 1) * (wd + wd') + ((1 + uf) ^ n - 1) * (wf + wf')) :=
      add_le_add (hs.trans (mul_le_mul_of_nonneg_left hsz hd)) hxy
    _ ≤ ud * ((1 + ud) ^ n * (wd + wd')) + uf * ((1 + uf) ^ n * (wf + wf')) + (((1 + ud) ^ n - 1) * (wd + wd') + ((1 + uf) ^ n - 1) * (wf + wf')) := by
      have := mul_le_mul_of_nonneg_right hdf hpow
      linarith
    _ = _ := by ring

end Near2

/-- The matrix approximates `e`, with weights `wd` and `wf`; the first are 0 unless it has `double` elements. -/
def TSMat.Approx [Zero F] [Zero D] (valD : D → ℚ) (up : F → D) (ud uf : ℚ) (N : Nat) (C : TSMat F D) (m n : Nat)
    (e wd wf : Nat → Nat → ℚ) : Prop :=
  ∃ h, C.Is up m n h ∧ ∀ i j, i < m → j < n → Near2 ud uf N (valD (h i j)) (e i j) (wd i j) (wf i j) ∧
    (C.prec ≠ some .double → wd i j = 0)

namespace TSMat

theorem Approx.mono [Zero F] [Zero D] {valD : D → ℚ} {up : F → D} {ud uf : ℚ} (hd : 0 ≤ ud) (hf : 0 ≤ uf) {N N' : Nat} (hN : N ≤ N')
    {C : TSMat F D} {m n : Nat} {e wd wf e' wd' wf' : Nat → Nat → ℚ} (h : C.Approx valD up ud uf N m n e wd wf)
    (he : ∀ i j, i < m → j < n → e i j = e' i j ∧ wd i j = wd' i j ∧ wf i j = wf' i j) :
    C.Approx valD up ud uf N' m n e' wd' wf' := by
  obtain ⟨g, hg, hN'⟩ := h
  refine ⟨g, hg, fun i j hi hj => ?_⟩
  obtain ⟨a, b, c⟩ := he i j hi hj
  rw [← a, ← b, ← c]
  exact ⟨(hN' i j hi hj).1.mono hd hf hN, (hN' i j hi hj).2⟩

theorem add_approx [CommArith F] [CommArith D] {valF : F → ℚ} {valD : D → ℚ} {up : F → D} {uf ud : ℚ}
    (H : Formats valF valD up uf ud) {N : Nat} {A B : TSMat F D} {r c : Nat} {e wd wf e' wd' wf' : Nat → Nat → ℚ}
    (hA : A.Approx valD up ud uf N r c e wd wf) (hB : B.Approx valD up ud uf N r c e' wd' wf') :
    Sat (add up A B) (fun C => C.Approx valD up ud uf (N + 1) r c (fun i j => e i j + e' i j) (fun i j => wd i j + wd' i j)
      (fun i j => wf i j + wf' i j)) := by
  obtain ⟨f, hf, nf⟩ := hA
  obtain ⟨g, hg, ng⟩ := hB
  obtain ⟨C, eC, hC⟩ := add_sat H.up_zero hf hg
  have hp := (add_prec eC).1
  refine ⟨C, eC, ?_⟩
  rcases hC with ⟨pA, pB, f0, g0, ef, eg, hC⟩ | ⟨hd, hC⟩
  · refine ⟨_, hC, fun i j hi hj => ?_⟩
    obtain ⟨n1, z1⟩ := nf i j hi hj
    obtain ⟨n2, z2⟩ := ng i j hi hj
    have z1 := z1 pA
    have z2 := z2 pB
    have m1 := n1.toF z1
    have m2 := n2.toF z2
    rw [ef i j hi hj, H.up_val] at m1
    rw [eg i j hi hj, H.up_val] at m2
    refine ⟨?_, fun _ => by simp only [z1, z2, add_zero]⟩
    simp only [z1, z2, add_zero, H.up_val]
    exact Near2.ofF (Near.add H.single m1 m2)
  · refine ⟨_, hC, fun i j hi hj => ⟨Near2.add H.double.nonneg H.finer (nf i j hi hj).1 (ng i j hi hj).1 (H.double.add _ _), fun hn => ?_⟩⟩
    refine absurd ?_ hn
    rw [hp]
    rcases hd with h | h
    · rw [h]; cases B.prec with
      | none => rfl
      | some p => cases p <;> rfl
    · rw [h]; cases A.prec with
      | none => rfl
      | some p => cases p <;> rfl

theorem Stands.none [Arith F] [Arith D] {valF : F → ℚ} {valD : D → ℚ} {up : F → D} {uf ud : ℚ} (H : Formats valF valD up uf ud)
    {A : TSMat F D} {r c : Nat} {f : Nat → Nat → D} (h : A.Is up r c f) (hp : A.prec = none) {i j : Nat} (hi : i < r) (hj : j < c) :
    valD (f i j) = 0 := by
  cases A with
  | zero d => rw [h.2.2 i j hi hj, H.double.zero]
  | _ => cases hp

theorem mul_approx [CommArith F] [CommArith D] [DecidableEq F] [DecidableEq D] {valF : F → ℚ} {valD : D → ℚ} {up : F → D} {uf ud : ℚ}
    (H : Formats valF valD up uf ud) {A B : TSMat F D} {m k n : Nat} {e p q e' p' q' : Nat → Nat → ℚ}
    (hA : A.Stands valD up m k e p q) (hB : B.Stands valD up k n e' p' q') :
    Sat (mul up A B) (fun C => C.Approx valD up ud uf k m n (fun i j => ∑ l ∈ Finset.range k, e i l * e' l j)
      (fun i j => ∑ l ∈ Finset.range k, (p i l * p' l j + p i l * q' l j + q i l * p' l j))
      (fun i j => ∑ l ∈ Finset.range k, q i l * q' l j)) := by
  obtain ⟨f, hf, nf⟩ := hA
  obtain ⟨g, hg, ng⟩ := hB
  obtain ⟨C, eC, hC⟩ := mul_sat H.up_zero hf hg
  have hp := (mul_prec eC).1
  refine ⟨C, eC, ?_⟩
  have sumc : ∀ {a b : Nat → ℚ}, (∀ l, l < k → a l = b l) → ∑ l ∈ Finset.range k, a l = ∑ l ∈ Finset.range k, b l :=
    fun h => Finset.sum_congr rfl fun l hl => h l (Finset.mem_range.1 hl)
  rcases hC with ⟨pA, pB, f0, g0, ef, eg, hC⟩ | ⟨hd, hC⟩
  · simp only [if_neg pA] at nf
    simp only [if_neg pB] at ng
    have wd0 : ∀ i j, i < m → j < n → ∑ l ∈ Finset.range k, (p i l * p' l j + p i l * q' l j + q i l * p' l j) = 0 := by
      intro i j hi hj
      refine Finset.sum_eq_zero fun l hl => ?_
      have hl := Finset.mem_range.1 hl
      rw [(nf i l hi hl).2.1, (ng l j hl hj).2.1]; ring
    refine ⟨_, hC, fun i j hi hj => ⟨?_, fun _ => wd0 i j hi hj⟩⟩
    have := Near.dot H.single f0 g0 k i j
    simp only [wd0 i j hi hj, H.up_val]
    rw [sumc (a := fun l => e i l * e' l j) (b := fun l => valF (f0 i l) * valF (g0 l j)) (fun l hl => by
        rw [(nf i l hi hl).1, (ng l j hl hj).1, ef i l hi hl, eg l j hl hj, H.up_val, H.up_val]),
      sumc (a := fun l => q i l * q' l j) (b := fun l => |valF (f0 i l)| * |valF (g0 l j)|) (fun l hl => by
        rw [(nf i l hi hl).2.2, (ng l j hl hj).2.2, ef i l hi hl, eg l j hl hj, H.up_val, H.up_val])]
    exact Near2.ofF this
  · have key : ∀ i j l, i < m → j < n → l < k → p i l * p' l j + p i l * q' l j + q i l * p' l j = |valD (f i l)| * |valD (g l j)| ∧
        q i l * q' l j = 0 := by
      intro i j l hi hj hl
      obtain ⟨-, a1, a2⟩ := nf i l hi hl
      obtain ⟨-, b1, b2⟩ := ng l j hl hj
      rw [a1, a2, b1, b2]
      by_cases hA : A.prec = some .double <;> by_cases hB : B.prec = some .double
      · simp [hA, hB]
      · simp [hA, hB]
      · simp [hA, hB]
      · exact absurd hd (by simp [hA, hB])
    refine ⟨_, hC, fun i j hi hj => ⟨?_, fun hn => ?_⟩⟩
    · have := Near.dot H.double f g k i j
      beta_reduce
      rw [sumc (fun l hl => (key i j l hi hj hl).1), sumc (fun l hl => (key i j l hi hj hl).2), Finset.sum_const_zero,
        sumc (a := fun l => e i l * e' l j) (b := fun l => valD (f i l) * valD (g l j)) (fun l hl => by
          rw [(nf i l hi hl).1, (ng l j hl hj).1])]
      exact Near2.ofD this
    · refine Finset.sum_eq_zero fun l hl => ?_
      have hl := Finset.mem_range.1 hl
      rw [(key i j l hi hj hl).1]
      have hz : A.prec = none ∨ B.prec = none := by
        rw [hp] at hn
        cases hA : A.prec with
        | none => exact .inl rfl
        | some x =>
          cases hB : B.prec with
          | none => exact .inr rfl
          | some y =>
            exfalso
            rw [hA, hB] at hn hd
            cases x <;> cases y <;> simp_all [productPrec]
      rcases hz with h | h
      · rw [Stands.none H hf h hi hl]; simp
      · rw [Stands.none H hg h hl hj]; simp

end TSMat

/-- Products of one- and two-part matrices: up to three additions more. -/
theorem TMat.mul_approx [CommArith F] [CommArith D] [DecidableEq F] [DecidableEq D] {valF : F → ℚ} {valD : D → ℚ} {up : F → D} {uf ud : ℚ}
    (H : Formats valF valD up uf ud) {A B : TMat F D} {m k n : Nat} {e p q e' p' q' : Nat → Nat → ℚ}
    (hA : A.Stands valD up m k e p q) (hB : B.Stands valD up k n e' p' q') :
    Sat (TMat.mul up A B) (fun C => C.Approx valD up ud uf (k + 3) m n (fun i j => ∑ l ∈ Finset.range k, e i l * e' l j)
      (fun i j => ∑ l ∈ Finset.range k, (p i l * p' l j + p i l * q' l j + q i l * p' l j))
      (fun i j => ∑ l ∈ Finset.range k, q i l * q' l j)) := by
  have hd := H.double.nonneg
  have hf := H.single.nonneg
  have sumc : ∀ {a b : Nat → ℚ}, (∀ l, l < k → a l = b l) → ∑ l ∈ Finset.range k, a l = ∑ l ∈ Finset.range k, b l :=
    fun h => Finset.sum_congr rfl fun l hl => h l (Finset.mem_range.1 hl)
  cases A with
  | one A =>
    cases B with
    | one B => exact Sat.mono (TSMat.mul_approx H hA hB) fun C hC => hC.mono hd hf (by omega) (fun _ _ _ _ => ⟨rfl, rfl, rfl⟩)
    | two B1 B2 =>
      obtain ⟨e1, p1, q1, e2, p2, q2, h1, h2, h3⟩ := hB
      refine Sat.bind (TSMat.mul_approx H hA h1) fun C1 hC1 => Sat.bind (TSMat.mul_approx H hA h2) fun C2 hC2 => ?_
      refine Sat.mono (TSMat.add_approx H hC1 hC2) fun C hC => hC.mono hd hf (by omega) (fun i j hi hj => ?_)
      simp only [← Finset.sum_add_distrib]
      refine ⟨sumc fun l hl => ?_, sumc fun l hl => ?_, sumc fun l hl => ?_⟩ <;> obtain ⟨a, b, c⟩ := h3 l j hl hj
      · rw [a]; ring
      · rw [b, c]; ring
      · rw [c]; ring
  | two A1 A2 =>
    obtain ⟨f1, r1, s1, f2, r2, s2, k1, k2, k3⟩ := hA
    cases B with
    | one B =>
      refine Sat.bind (TSMat.mul_approx H k1 hB) fun C1 hC1 => Sat.bind (TSMat.mul_approx H k2 hB) fun C2 hC2 => ?_
      refine Sat.mono (TSMat.add_approx H hC1 hC2) fun C hC => hC.mono hd hf (by omega) (fun i j hi hj => ?_)
      simp only [← Finset.sum_add_distrib]
      refine ⟨sumc fun l hl => ?_, sumc fun l hl => ?_, sumc fun l hl => ?_⟩ <;> obtain ⟨a, b, c⟩ := k3 i l hi hl
      · rw [a]; ring
      · rw [b, c]; ring
      · rw [c]; ring
    | two B1 B2 =>
      obtain ⟨e1, p1, q1, e2, p2, q2, h1, h2, h3⟩ := hB
      have same : ∀ {C : TSMat F D} {e wd wf : Nat → Nat → ℚ} {N N' : Nat}, N ≤ N' → C.Approx valD up ud uf N m n e wd wf →
          C.Approx valD up ud uf N' m n e wd wf := fun hN h => h.mono hd hf hN (fun _ _ _ _ => ⟨rfl, rfl, rfl⟩)
      refine Sat.bind (TSMat.mul_approx H k1 h1) fun C1 hC1 => Sat.bind (TSMat.mul_approx H k1 h2) fun C2 hC2 => ?_
      refine Sat.bind (TSMat.add_approx H hC1 hC2) fun C3 hC3 => ?_
      refine Sat.bind (TSMat.mul_approx H k2 h1) fun C4 hC4 => ?_
      refine Sat.bind (TSMat.add_approx H hC3 (same (by omega : k ≤ k + 1) hC4)) fun C5 hC5 => ?_
      refine Sat.bind (TSMat.mul_approx H k2 h2) fun C6 hC6 => ?_
      refine Sat.mono (TSMat.add_approx H hC5 (same (by omega : k ≤ k + 1 + 1) hC6)) fun C hC => hC.mono hd hf (by omega) (fun i j hi hj => ?_)
      simp only [← Finset.sum_add_distrib]
      refine ⟨sumc fun l hl => ?_, sumc fun l hl => ?_, sumc fun l hl => ?_⟩ <;> obtain ⟨a, b, c⟩ := h3 l j hl hj <;>
        obtain ⟨a', b', c'⟩ := k3 i l hi hl
      · rw [a, a']; ring
      · rw [b, c, b', c']; ring
      · rw [c, c']; ring

end BB
