import Verif.Lemmas.Typed
import Verif.Lemmas.TypedFp
import Verif.Props.Blocked
import Verif.Props.Float

/-!
# C96 – C99: `float` and `double`
-/

namespace BB

variable {F D : Type}

/-! ### C96: the types of results -/

/-- What the runtime type says about a matrix with one part. -/
theorem TSMat.kind_iff (A : TSMat F D) (k : Kind) : (TMat.one A).kind = some k ↔
    A.prec = (if k = .zero then none else some (if k.hasDouble then .double else .single)) ∧
    A.stored = (if k = .zero then none else some k.hasDense) ∧ k ≠ .multSS ∧ k ≠ .multSD := by
  cases A <;> cases k <;> simp [TMat.kind, TSMat.prec, TSMat.stored, Kind.hasDouble, Kind.hasDense]

theorem kind_one {A : TSMat F D} {a : Kind} (h : (TMat.one A).kind = some a) : a ≠ .multSS ∧ a ≠ .multSD :=
  ((TSMat.kind_iff A a).1 h).2.2

theorem kind_two {X Y : TSMat F D} {a : Kind} (h : (TMat.two X Y).kind = some a) :
    (TMat.one X).kind = some .sparseD ∧ ((TMat.one Y).kind = some .sparseF ∧ a = .multSS ∨ (TMat.one Y).kind = some .denseF ∧ a = .multSD) := by
  cases X <;> cases Y <;> simp [TMat.kind] at h ⊢ <;> exact h.symm

section types

variable [Zero F] [Add F] [Mul F] [DecidableEq F] [Zero D] [Add D] [Mul D] [DecidableEq D]

/-- C96: the element type and the storage of a product of dense, sparse and zero matrices. -/
theorem C96_product (up : F → D) (A B C : TSMat F D) (h : TSMat.mul up A B = .ok C) :
    C.prec = productPrec A.prec B.prec ∧ C.stored = productStored A.stored B.stored :=
  TSMat.mul_prec h

omit [Zero F] [Mul F] [DecidableEq F] [Zero D] [Mul D] [DecidableEq D] in
/-- C96: the element type and the storage of a sum. -/
theorem C96_sum (up : F → D) (A B C : TSMat F D) (h : TSMat.add up A B = .ok C) :
    C.prec = sumPrec A.prec B.prec ∧ C.stored = sumStored A.stored B.stored :=
  TSMat.add_prec h

omit [Zero F] [Add F] [Mul F] [DecidableEq F] [Zero D] [Add D] [Mul D] [DecidableEq D] in
/-- C96: the element type and the storage of a difference. -/
theorem C96_difference [Sub F] [Sub D] [Neg F] [Neg D] (up : F → D) (A B C : TSMat F D) (h : TSMat.sub up A B = .ok C) :
    C.prec = sumPrec A.prec B.prec ∧ C.stored = sumStored A.stored B.stored :=
  TSMat.sub_prec h

theorem kind_mul {up : F → D} {A B C : TSMat F D} {a b : Kind} (h : TSMat.mul up A B = .ok C)
    (ha : (TMat.one A).kind = some a) (hb : (TMat.one B).kind = some b) : (TMat.one C).kind = some (a.product b) := by
  obtain ⟨h1, h2⟩ := TSMat.mul_prec h
  obtain ⟨a1, a2, a3, a4⟩ := (TSMat.kind_iff A a).1 ha
  obtain ⟨b1, b2, b3, b4⟩ := (TSMat.kind_iff B b).1 hb
  rw [TSMat.kind_iff, h1, h2, a1, a2, b1, b2]
  clear h ha hb h1 h2 a1 a2 b1 b2
  revert a3 a4 b3 b4
  cases a <;> cases b <;> decide

omit [Zero F] [Mul F] [DecidableEq F] [Zero D] [Mul D] [DecidableEq D] in
theorem kind_add {up : F → D} {A B C : TSMat F D} {a b : Kind} (h : TSMat.add up A B = .ok C)
    (ha : (TMat.one A).kind = some a) (hb : (TMat.one B).kind = some b) : (TMat.one C).kind = some (a.sum b) := by
  obtain ⟨h1, h2⟩ := TSMat.add_prec h
  obtain ⟨a1, a2, a3, a4⟩ := (TSMat.kind_iff A a).1 ha
  obtain ⟨b1, b2, b3, b4⟩ := (TSMat.kind_iff B b).1 hb
  rw [TSMat.kind_iff, h1, h2, a1, a2, b1, b2]
  clear h ha hb h1 h2 a1 a2 b1 b2
  revert a3 a4 b3 b4
  cases a <;> cases b <;> decide

/-- C96: the runtime type of the product of two matrices of the type list, two-part matrices included, is determined by
the runtime types of the factors: zero if one of them is zero, else with `double` elements if one of them has some, else
`float`; dense if one of them has a dense part, else sparse. -/
theorem C96_product_type (up : F → D) (A B : TMat F D) (C : TSMat F D) (a b : Kind) (ha : A.kind = some a) (hb : B.kind = some b)
    (h : TMat.mul up A B = .ok C) : (TMat.one C).kind = some (a.product b) := by
  cases A with
  | one A =>
    cases B with
    | one B => exact kind_mul h ha hb
    | two B1 B2 =>
      obtain ⟨k1, k2⟩ := kind_two hb
      obtain ⟨n1, n2⟩ := kind_one ha
      simp only [TMat.mul] at h
      cases e1 : TSMat.mul up A B1 with
      | error x => rw [e1] at h; cases h
      | ok C1 =>
        cases e2 : TSMat.mul up A B2 with
        | error x => rw [e1, e2] at h; cases h
        | ok C2 =>
          rw [e1, e2] at h
          have h : TSMat.add up C1 C2 = .ok C := h
          rcases k2 with ⟨k2, rfl⟩ | ⟨k2, rfl⟩ <;>
          · rw [kind_add h (kind_mul e1 ha k1) (kind_mul e2 ha k2)]
            clear ha
            revert n1 n2
            cases a <;> decide
  | two A1 A2 =>
    obtain ⟨j1, j2⟩ := kind_two ha
    cases B with
    | one B =>
      obtain ⟨n1, n2⟩ := kind_one hb
      simp only [TMat.mul] at h
      cases e1 : TSMat.mul up A1 B with
      | error x => rw [e1] at h; cases h
      | ok C1 =>
        cases e2 : TSMat.mul up A2 B with
        | error x => rw [e1, e2] at h; cases h
        | ok C2 =>
          rw [e1, e2] at h
          have h : TSMat.add up C1 C2 = .ok C := h
          rcases j2 with ⟨j2, rfl⟩ | ⟨j2, rfl⟩ <;>
          · rw [kind_add h (kind_mul e1 j1 hb) (kind_mul e2 j2 hb)]
            clear hb
            revert n1 n2
            cases b <;> decide
    | two B1 B2 =>
      obtain ⟨k1, k2⟩ := kind_two hb
      simp only [TMat.mul] at h
      cases e1 : TSMat.mul up A1 B1 with
      | error x => rw [e1] at h; cases h
      | ok C1 =>
        cases e2 : TSMat.mul up A1 B2 with
        | error x => rw [e1, e2] at h; cases h
        | ok C2 =>
          rw [e1, e2] at h
          simp only [bind_ok'] at h
          cases e3 : TSMat.add up C1 C2 with
          | error x => rw [e3] at h; cases h
          | ok C3 =>
            cases e4 : TSMat.mul up A2 B1 with
            | error x => rw [e3, e4] at h; cases h
            | ok C4 =>
              rw [e3, e4] at h
              simp only [bind_ok'] at h
              cases e5 : TSMat.add up C3 C4 with
              | error x => rw [e5] at h; cases h
              | ok C5 =>
                cases e6 : TSMat.mul up A2 B2 with
                | error x => rw [e5, e6] at h; cases h
                | ok C6 =>
                  rw [e5, e6] at h
                  have h : TSMat.add up C5 C6 = .ok C := h
                  rcases j2 with ⟨j2, rfl⟩ | ⟨j2, rfl⟩ <;> rcases k2 with ⟨k2, rfl⟩ | ⟨k2, rfl⟩ <;>
                  rw [kind_add h (kind_add e5 (kind_add e3 (kind_mul e1 j1 k1) (kind_mul e2 j1 k2)) (kind_mul e4 j2 k1)) (kind_mul e6 j2 k2)] <;> rfl

omit [Zero F] [Mul F] [DecidableEq F] [Zero D] [Mul D] [DecidableEq D] in
/-- C96: the runtime type of a sum. -/
theorem C96_sum_type (up : F → D) (A B : TMat F D) (C : TSMat F D) (a b : Kind) (ha : A.kind = some a) (hb : B.kind = some b)
    (h : TMat.add up A B = .ok C) : (TMat.one C).kind = some (a.sum b) := by
  cases A with
  | one A =>
    cases B with
    | one B => exact kind_add h ha hb
    | two B1 B2 =>
      obtain ⟨k1, k2⟩ := kind_two hb
      obtain ⟨n1, n2⟩ := kind_one ha
      simp only [TMat.add] at h
      cases e1 : TSMat.add up A B1 with
      | error x => rw [e1] at h; cases h
      | ok C1 =>
        rw [e1] at h
        have h : TSMat.add up C1 B2 = .ok C := h
        rcases k2 with ⟨k2, rfl⟩ | ⟨k2, rfl⟩ <;>
        · rw [kind_add h (kind_add e1 ha k1) k2]
          clear ha
          revert n1 n2
          cases a <;> decide
  | two A1 A2 =>
    obtain ⟨j1, j2⟩ := kind_two ha
    cases B with
    | one B =>
      obtain ⟨n1, n2⟩ := kind_one hb
      simp only [TMat.add] at h
      cases e1 : TSMat.add up A1 A2 with
      | error x => rw [e1] at h; cases h
      | ok C1 =>
        rw [e1] at h
        have h : TSMat.add up C1 B = .ok C := h
        rcases j2 with ⟨j2, rfl⟩ | ⟨j2, rfl⟩ <;>
        · rw [kind_add h (kind_add e1 j1 j2) hb]
          clear hb
          revert n1 n2
          cases b <;> decide
    | two B1 B2 =>
      obtain ⟨k1, k2⟩ := kind_two hb
      simp only [TMat.add] at h
      cases e1 : TSMat.add up A1 A2 with
      | error x => rw [e1] at h; cases h
      | ok C1 =>
        rw [e1] at h
        simp only [bind_ok'] at h
        cases e2 : TSMat.add up C1 B1 with
        | error x => rw [e2] at h; cases h
        | ok C2 =>
          rw [e2] at h
          have h : TSMat.add up C2 B2 = .ok C := h
          rcases j2 with ⟨j2, rfl⟩ | ⟨j2, rfl⟩ <;> rcases k2 with ⟨k2, rfl⟩ | ⟨k2, rfl⟩ <;>
          rw [kind_add h (kind_add e2 (kind_add e1 j1 j2) k1) k2] <;> rfl

end types

/-- A matrix of the given size. -/
def TMat.Sized [Zero F] [Zero D] (up : F → D) : TMat F D → Nat → Nat → Prop
  | .one A, r, c => ∃ f, A.Is up r c f
  | .two X Y, r, c => (∃ f, X.Is up r c f) ∧ ∃ f, Y.Is up r c f

theorem TSMat.mul_sized [Arith F] [Arith D] [DecidableEq F] [DecidableEq D] {up : F → D} (h0 : up 0 = 0) {A B : TSMat F D} {m k n : Nat}
    (hA : ∃ f, A.Is up m k f) (hB : ∃ f, B.Is up k n f) : Sat (TSMat.mul up A B) (fun C => ∃ f, C.Is up m n f) := by
  obtain ⟨f, hf⟩ := hA
  obtain ⟨g, hg⟩ := hB
  refine Sat.mono (TSMat.mul_sat h0 hf hg) ?_
  rintro C (⟨-, -, f0, g0, -, -, hC⟩ | ⟨-, hC⟩)
  · exact ⟨_, hC⟩
  · exact ⟨_, hC⟩

theorem TSMat.add_sized [CommArith F] [CommArith D] {up : F → D} (h0 : up 0 = 0) {A B : TSMat F D} {m n : Nat}
    (hA : ∃ f, A.Is up m n f) (hB : ∃ f, B.Is up m n f) : Sat (TSMat.add up A B) (fun C => ∃ f, C.Is up m n f) := by
  obtain ⟨f, hf⟩ := hA
  obtain ⟨g, hg⟩ := hB
  refine Sat.mono (TSMat.add_sat h0 hf hg) ?_
  rintro C (⟨-, -, f0, g0, -, -, hC⟩ | ⟨-, hC⟩)
  · exact ⟨_, hC⟩
  · exact ⟨_, hC⟩

theorem TMat.mul_sized [CommArith F] [CommArith D] [DecidableEq F] [DecidableEq D] {up : F → D} (h0 : up 0 = 0) {A B : TMat F D} {m k n : Nat}
    (hA : A.Sized up m k) (hB : B.Sized up k n) : Sat (TMat.mul up A B) (fun C => ∃ f, C.Is up m n f) := by
  cases A with
  | one A =>
    cases B with
    | one B => exact TSMat.mul_sized h0 hA hB
    | two B1 B2 =>
      exact Sat.bind (TSMat.mul_sized h0 hA hB.1) fun C1 h1 => Sat.bind (TSMat.mul_sized h0 hA hB.2) fun C2 h2 => TSMat.add_sized h0 h1 h2
  | two A1 A2 =>
    cases B with
    | one B =>
      exact Sat.bind (TSMat.mul_sized h0 hA.1 hB) fun C1 h1 => Sat.bind (TSMat.mul_sized h0 hA.2 hB) fun C2 h2 => TSMat.add_sized h0 h1 h2
    | two B1 B2 =>
      exact Sat.bind (TSMat.mul_sized h0 hA.1 hB.1) fun C1 h1 => Sat.bind (TSMat.mul_sized h0 hA.1 hB.2) fun C2 h2 =>
        Sat.bind (TSMat.add_sized h0 h1 h2) fun C3 h3 => Sat.bind (TSMat.mul_sized h0 hA.2 hB.1) fun C4 h4 =>
        Sat.bind (TSMat.add_sized h0 h3 h4) fun C5 h5 => Sat.bind (TSMat.mul_sized h0 hA.2 hB.2) fun C6 h6 => TSMat.add_sized h0 h5 h6

/-- C96: the runtime type of a block of a product of blocked matrices: the type of the sum of the products of the blocks. -/
theorem C96_blocked_types [CommArith F] [CommArith D] [DecidableEq F] [DecidableEq D] (up : F → D) (h0 : up 0 = 0)
    (A B : TBlocked F D) (rs ks cs : List Nat) (ka kb : Nat → Nat → Kind) (hk : ks ≠ [])
    (hA : A.Grid rs.length ks.length (fun i l M => M.Sized up (rs.getD i 0) (ks.getD l 0) ∧ M.kind = some (ka i l)))
    (hB : B.Grid ks.length cs.length (fun l j M => M.Sized up (ks.getD l 0) (cs.getD j 0) ∧ M.kind = some (kb l j))) :
    ∃ C, TBlocked.mul up A B = .ok C ∧ C.Grid rs.length cs.length (fun i j M => M.Sized up (rs.getD i 0) (cs.getD j 0) ∧
      M.kind = some ((List.range ks.length).foldl (fun k l => k.sum ((ka i l).product (kb l j))) .zero)) := by
  have hk0 : 0 < ks.length := List.length_pos_iff.2 hk
  obtain ⟨C, e, -, -, hC⟩ := Blocks.mul_gen (mul := fun X Y => do return .one (← TMat.mul up X Y)) (add := fun X Y => do return .one (← TMat.add up X Y))
    (fun i j n M => M.Sized up (rs.getD i 0) (cs.getD j 0) ∧ (∃ S, M = .one S) ∧
      M.kind = some ((List.range n).foldl (fun k l => k.sum ((ka i l).product (kb l j))) .zero)) hA hB hk0
    (by
      rintro i j MA MB hi hj ⟨sA, kA⟩ ⟨sB, kB⟩
      obtain ⟨C, eC, hC⟩ := TMat.mul_sized h0 sA sB
      have := C96_product_type up MA MB C _ _ kA kB eC
      refine ⟨.one C, by rw [eC]; rfl, hC, ⟨C, rfl⟩, ?_⟩
      rw [this]
      simp only [List.range_one, List.foldl_cons, List.foldl_nil]
      congr 1
      generalize ka i 0 = a
      generalize kb 0 j = b
      cases a <;> cases b <;> rfl)
    (by
      rintro i j l _ MA MB hi hj hl ⟨sS, ⟨S, rfl⟩, kS⟩ ⟨sA, kA⟩ ⟨sB, kB⟩
      obtain ⟨C, eC, hC⟩ := TMat.mul_sized h0 sA sB
      have k1 := C96_product_type up MA MB C _ _ kA kB eC
      refine ⟨.one C, by rw [eC]; rfl, ?_⟩
      obtain ⟨T, eT, hT⟩ := TSMat.add_sized h0 sS hC
      refine ⟨.one T, ?_, hT, ⟨T, rfl⟩, ?_⟩
      · show (do return TMat.one (← TSMat.add up S C)) = _
        rw [eT]; rfl
      · rw [kind_add eT kS k1, List.range_succ (n := l + 1), List.foldl_append]; rfl)
  exact ⟨C, e, hC.mono fun i j M _ _ h => ⟨h.1, h.2.2⟩⟩

/-! ### C97: in which precision the elements of results are computed -/

/-- C97: the product of two matrices without `double` elements is accumulated in `float`. -/
theorem C97_single_product [Arith F] [Arith D] [DecidableEq F] [DecidableEq D] (up : F → D) (h0 : up 0 = 0) (A B : SMat F) (m k n : Nat)
    (f g : Nat → Nat → F) (hA : A.Is m k f) (hB : B.Is k n g) :
    ∃ C X, TSMat.mul up (.ofF A : TSMat F D) (.ofF B) = .ok C ∧ C.denseOf up = .ok X ∧
      ∀ i j, i < m → j < n → X.get i j = .ok (up (dotSeq f g k i j)) := by
  obtain ⟨c, e, hc⟩ := SMat.mul_seq hA hB
  have hA' : (TSMat.ofF A : TSMat F D).asF = some A := by cases A <;> rfl
  have hB' : (TSMat.ofF B : TSMat F D).asF = some B := by cases B <;> rfl
  obtain ⟨X, eX, hX, -⟩ := TSMat.denseOf_sat (D := D) h0 (TSMat.ofF_is h0 hc)
  exact ⟨.ofF c, X, by simp only [TSMat.mul, hA', hB', e]; rfl, eX, hX.elems⟩

/-- C97: if a factor has `double` elements, the product is accumulated in `double`; `float` elements of the other factor
are converted exactly. -/
theorem C97_double_product [Arith F] [Arith D] [DecidableEq F] [DecidableEq D] (up : F → D) (h0 : up 0 = 0) (A B : TSMat F D) (m k n : Nat)
    (f g : Nat → Nat → D) (hA : A.Is up m k f) (hB : B.Is up k n g) (hd : A.prec = some .double ∨ B.prec = some .double) :
    ∃ C X, TSMat.mul up A B = .ok C ∧ C.denseOf up = .ok X ∧ ∀ i j, i < m → j < n → X.get i j = .ok (dotSeq f g k i j) := by
  obtain ⟨C, e, h⟩ := TSMat.mul_sat h0 hA hB
  rcases h with ⟨h1, h2, -⟩ | ⟨-, hC⟩
  · rcases hd with h | h
    · exact absurd h h1
    · exact absurd h h2
  · obtain ⟨X, eX, hX, -⟩ := TSMat.denseOf_sat h0 hC
    exact ⟨C, X, e, eX, hX.elems⟩

/-- C97: sums of matrices without `double` elements are computed in `float`. -/
theorem C97_single_sum [CommArith F] [CommArith D] (up : F → D) (h0 : up 0 = 0) (A B : SMat F) (r c : Nat)
    (f g : Nat → Nat → F) (hA : A.Is r c f) (hB : B.Is r c g) :
    ∃ C X, TSMat.add up (.ofF A : TSMat F D) (.ofF B) = .ok C ∧ C.denseOf up = .ok X ∧
      ∀ i j, i < r → j < c → X.get i j = .ok (up (f i j + g i j)) := by
  obtain ⟨C, e, hc⟩ := SMat.binop_add_seq CommArith.add_comm' hA hB
  have hA' : (TSMat.ofF A : TSMat F D).asF = some A := by cases A <;> rfl
  have hB' : (TSMat.ofF B : TSMat F D).asF = some B := by cases B <;> rfl
  obtain ⟨X, eX, hX, -⟩ := TSMat.denseOf_sat (D := D) h0 (TSMat.ofF_is h0 hc)
  exact ⟨.ofF C, X, by simp only [TSMat.add, hA', hB', e]; rfl, eX, hX.elems⟩

/-- C97: if a term has `double` elements, the sum is computed in `double`. -/
theorem C97_double_sum [CommArith F] [CommArith D] (up : F → D) (h0 : up 0 = 0) (A B : TSMat F D) (r c : Nat)
    (f g : Nat → Nat → D) (hA : A.Is up r c f) (hB : B.Is up r c g) (hd : A.prec = some .double ∨ B.prec = some .double) :
    ∃ C X, TSMat.add up A B = .ok C ∧ C.denseOf up = .ok X ∧ ∀ i j, i < r → j < c → X.get i j = .ok (f i j + g i j) := by
  obtain ⟨C, e, h⟩ := TSMat.add_sat h0 hA hB
  rcases h with ⟨h1, h2, -⟩ | ⟨-, hC⟩
  · rcases hd with h | h
    · exact absurd h h1
    · exact absurd h h2
  · obtain ⟨X, eX, hX, -⟩ := TSMat.denseOf_sat h0 hC
    exact ⟨C, X, e, eX, hX.elems⟩

/-- The combinations for which `operator -` computes the difference (C65 is about the others). -/
def TSMat.CanSub (A B : TSMat F D) : Prop := ¬ (A.stored = some false ∧ B.stored = some true) ∧ ¬ (A.stored = none ∧ B.stored ≠ none)

/-- C97: differences of matrices without `double` elements are computed in `float`; so are the wrong results of a sparse
minus a dense matrix (the negative) and of a zero minus another matrix (the other matrix). -/
theorem C97_single_difference [Zero F] [Sub F] [Neg F] [Zero D] [Sub D] [Neg D] (hs : ∀ x : F, x - 0 = x) (hn : ∀ x : F, 0 - x = -x)
    (up : F → D) (h0 : up 0 = 0) (A B : SMat F) (r c : Nat) (f g : Nat → Nat → F) (hA : A.Is r c f) (hB : B.Is r c g) :
    ∃ C X, TSMat.sub up (.ofF A : TSMat F D) (.ofF B) = .ok C ∧ C.denseOf up = .ok X ∧
      ((TSMat.ofF A : TSMat F D).CanSub (.ofF B) → ∀ i j, i < r → j < c → X.get i j = .ok (up (f i j - g i j))) ∧
      ((TSMat.ofF A : TSMat F D).stored = some false → (TSMat.ofF B : TSMat F D).stored = some true →
        ∀ i j, i < r → j < c → X.get i j = .ok (up (g i j - f i j))) ∧
      ((TSMat.ofF A : TSMat F D).stored = none → (TSMat.ofF B : TSMat F D).stored ≠ none →
        ∀ i j, i < r → j < c → X.get i j = .ok (up (g i j))) := by
  obtain ⟨C, e, l1, l2, l3⟩ := SMat.binop_sub_law hs hn hA hB
  have hA' : (TSMat.ofF A : TSMat F D).asF = some A := by cases A <;> rfl
  have hB' : (TSMat.ofF B : TSMat F D).asF = some B := by cases B <;> rfl
  have eC : TSMat.sub up (.ofF A : TSMat F D) (.ofF B) = .ok (.ofF C) := by simp only [TSMat.sub, hA', hB', e]; rfl
  have key : ∀ h : Nat → Nat → F, C.Is r c h → ∃ X, (TSMat.ofF C : TSMat F D).denseOf up = .ok X ∧ ∀ i j, i < r → j < c → X.get i j = .ok (up (h i j)) := by
    intro h hC
    obtain ⟨X, eX, hX, -⟩ := TSMat.denseOf_sat (D := D) h0 (TSMat.ofF_is h0 hC)
    exact ⟨X, eX, hX.elems⟩
  clear e
  cases A with
  | dense A =>
    obtain ⟨X, eX, hX⟩ := key _ (l1 ⟨nofun, nofun⟩)
    exact ⟨_, X, eC, eX, fun _ => hX, nofun, nofun⟩
  | sparse A =>
    cases B with
    | dense B =>
      obtain ⟨X, eX, hX⟩ := key _ (l2 rfl rfl)
      exact ⟨_, X, eC, eX, fun h => absurd ⟨rfl, rfl⟩ h.1, fun _ _ => hX, nofun⟩
    | sparse B =>
      obtain ⟨X, eX, hX⟩ := key _ (l1 ⟨fun _ => rfl, nofun⟩)
      exact ⟨_, X, eC, eX, fun _ => hX, nofun, nofun⟩
    | zero d =>
      obtain ⟨X, eX, hX⟩ := key _ (l1 ⟨fun _ => rfl, nofun⟩)
      exact ⟨_, X, eC, eX, fun _ => hX, nofun, nofun⟩
  | zero d =>
    cases B with
    | dense B =>
      obtain ⟨X, eX, hX⟩ := key _ (l3 rfl rfl)
      exact ⟨_, X, eC, eX, fun h => absurd ⟨rfl, nofun⟩ h.2, nofun, fun _ _ => hX⟩
    | sparse B =>
      obtain ⟨X, eX, hX⟩ := key _ (l3 rfl rfl)
      exact ⟨_, X, eC, eX, fun h => absurd ⟨rfl, nofun⟩ h.2, nofun, fun _ _ => hX⟩
    | zero d =>
      obtain ⟨X, eX, hX⟩ := key _ (l1 ⟨nofun, fun _ => rfl⟩)
      exact ⟨_, X, eC, eX, fun _ => hX, nofun, fun _ h => absurd rfl h⟩

/-- C97: if an operand has `double` elements, the difference is computed in `double`. -/
theorem C97_double_difference [Zero F] [Sub F] [Neg F] [Zero D] [Sub D] [Neg D] (hs : ∀ x : D, x - 0 = x) (hn : ∀ x : D, 0 - x = -x)
    (up : F → D) (h0 : up 0 = 0) (A B : TSMat F D) (r c : Nat) (f g : Nat → Nat → D) (hA : A.Is up r c f) (hB : B.Is up r c g)
    (hd : A.prec = some .double ∨ B.prec = some .double) (hc : A.CanSub B) :
    ∃ C X, TSMat.sub up A B = .ok C ∧ C.denseOf up = .ok X ∧ ∀ i j, i < r → j < c → X.get i j = .ok (f i j - g i j) := by
  obtain ⟨C, e, l1, -, -⟩ := SMat.binop_sub_law hs hn (TSMat.toD_is h0 hA) (TSMat.toD_is h0 hB)
  have eC : TSMat.sub up A B = .ok (.ofD C) := by
    unfold TSMat.sub
    rcases hd with h | h
    · rw [TSMat.asF_none.2 h]; simp only [e]; rfl
    · rw [TSMat.asF_none.2 h]; cases A.asF <;> simp only [e] <;> rfl
  have ok : SMat.SubOk (A.toD up) (B.toD up) := by
    obtain ⟨c1, c2⟩ := hc
    cases A <;> cases B <;> simp [TSMat.stored, SMat.SubOk, TSMat.toD, SMat.isSparse, SMat.isDense, SMat.isZero] at c1 c2 ⊢
  obtain ⟨X, eX, hX, -⟩ := TSMat.denseOf_sat (F := F) (up := up) h0 (TSMat.ofD_is (up := up) (l1 ok))
  exact ⟨_, X, eC, eX, hX.elems⟩

/-! ### C98: error of the blocked product with both precisions -/

theorem TSMat.Approx.sized [Zero F] [Zero D] {valD : D → ℚ} {up : F → D} {ud uf : ℚ} {N : Nat} {C : TSMat F D} {m n : Nat}
    {e wd wf : Nat → Nat → ℚ} (h : C.Approx valD up ud uf N m n e wd wf) : ∃ f, C.Is up m n f := by
  obtain ⟨f, hf, -⟩ := h; exact ⟨f, hf⟩

/-- C98: the product of two blocked matrices, converted to a dense matrix of `double`s, differs from the exact product of
what the operands stand for by at most ((1+ud)^N - 1) times the products in which a `double` occurs plus ((1+uf)^N - 1)
times the products of two `float`s, N = K + b + 2, where b is the number of inner blocks and K bounds their sizes. -/
theorem C98_mixed_error [CommArith F] [CommArith D] [DecidableEq F] [DecidableEq D] (valF : F → ℚ) (valD : D → ℚ) (up : F → D)
    (uf ud : ℚ) (H : Formats valF valD up uf ud) (A B : TBlocked F D)
    (rs ks cs : List Nat) (e p q e' p' q' : Nat → Nat → ℚ) (hA : A.Stands valD up rs ks e p q) (hB : B.Stands valD up ks cs e' p' q')
    (hk : ks ≠ []) (K : Nat) (hK : ∀ x ∈ ks, x ≤ K) :
    ∃ C X G, TBlocked.mul up A B = .ok C ∧ TBlocked.toDense up C = .ok X ∧ X.Is rs.sum cs.sum G ∧ ∀ i j, i < rs.sum → j < cs.sum →
      |valD (G i j) - ∑ l ∈ Finset.range ks.sum, e i l * e' l j|
        ≤ ((1 + ud) ^ (K + ks.length + 2) - 1) * ∑ l ∈ Finset.range ks.sum, (p i l * p' l j + p i l * q' l j + q i l * p' l j)
        + ((1 + uf) ^ (K + ks.length + 2) - 1) * ∑ l ∈ Finset.range ks.sum, q i l * q' l j := by
  have hd := H.double.nonneg
  have hf := H.single.nonneg
  have hk0 : 0 < ks.length := List.length_pos_iff.2 hk
  have gA : A.Grid rs.length ks.length _ := ⟨hA.ori, hA.rows, hA.cols, hA.alloc, hA.blocks⟩
  have gB : B.Grid ks.length cs.length _ := ⟨hB.ori, hB.rows, hB.cols, hB.alloc, hB.blocks⟩
  have hKi : ∀ l, l < ks.length → ks.getD l 0 ≤ K := fun l hl => hK _ (getD_mem hl)
  have e1 : offs ks 1 = ks.getD 0 0 := by rw [show 1 = 0 + 1 from rfl, offs_succ ks hk0]; simp [offs]
  have e0 : offs ks 0 = 0 := by simp [offs]
  obtain ⟨C, eC, hu1, hu2, hC⟩ := Blocks.mul_gen (mul := fun X Y => do return .one (← TMat.mul up X Y)) (add := fun X Y => do return .one (← TMat.add up X Y))
    (fun i j l M => ∃ S, M = .one S ∧ S.Approx valD up ud uf (K + 2 + l) (rs.getD i 0) (cs.getD j 0)
      (fun a b => ∑ x ∈ Finset.range (offs ks l), e (offs rs i + a) x * e' x (offs cs j + b))
      (fun a b => ∑ x ∈ Finset.range (offs ks l), (p (offs rs i + a) x * p' x (offs cs j + b) + p (offs rs i + a) x * q' x (offs cs j + b)
        + q (offs rs i + a) x * p' x (offs cs j + b)))
      (fun a b => ∑ x ∈ Finset.range (offs ks l), q (offs rs i + a) x * q' x (offs cs j + b))) gA gB hk0
    (by
      intro i j MA MB hi hj iA iB
      refine Sat.bind (TMat.mul_approx H iA iB) fun P hP => Sat.pure ⟨P, rfl, ?_⟩
      refine hP.mono hd hf (show ks.getD 0 0 + 3 ≤ K + 2 + 1 by have := hKi 0 hk0; omega) (fun a b ha hb => ?_)
      simp only [e0, Nat.zero_add, e1, and_self])
    (by
      rintro i j l _ MA MB hi hj hl ⟨S, rfl, hS⟩ iA iB
      refine Sat.bind (TMat.mul_approx H iA iB) fun P hP => Sat.pure ?_
      have hP' := hP.mono hd hf (show ks.getD (l+1) 0 + 3 ≤ K + 2 + (l + 1) by have := hKi (l+1) hl; omega) (fun _ _ _ _ => ⟨rfl, rfl, rfl⟩)
      refine Sat.bind (TSMat.add_approx H hS hP') fun T hT => Sat.pure ⟨T, rfl, ?_⟩
      refine hT.mono hd hf (by omega) (fun a b ha hb => ?_)
      have e2 : offs ks (l + 2) = offs ks (l + 1) + ks.getD (l + 1) 0 := offs_succ ks hl
      simp only [e2, Finset.sum_range_add, and_self])
  -- the blocks denote the windows of one matrix
  have hG : ∀ i j, ∃ f : Nat → Nat → D, i < rs.length → j < cs.length →
      ∃ S, C.grid.get i j = .ok (.one S) ∧ S.Is up (rs.getD i 0) (cs.getD j 0) f ∧ ∀ a b, a < rs.getD i 0 → b < cs.getD j 0 →
        Near2 ud uf (K + 2 + ks.length) (valD (f a b))
        (∑ x ∈ Finset.range (offs ks ks.length), e (offs rs i + a) x * e' x (offs cs j + b))
        (∑ x ∈ Finset.range (offs ks ks.length), (p (offs rs i + a) x * p' x (offs cs j + b) + p (offs rs i + a) x * q' x (offs cs j + b)
          + q (offs rs i + a) x * p' x (offs cs j + b)))
        (∑ x ∈ Finset.range (offs ks ks.length), q (offs rs i + a) x * q' x (offs cs j + b)) := by
    intro i j
    by_cases h : i < rs.length ∧ j < cs.length
    · obtain ⟨M, eM, S, rfl, f, hS, hF⟩ := hC.blocks i j h.1 h.2
      exact ⟨f, fun _ _ => ⟨S, eM, hS, fun a b ha hb => (hF a b ha hb).1⟩⟩
    · exact ⟨fun _ _ => 0, fun h1 h2 => absurd ⟨h1, h2⟩ h⟩
  choose G hF using hG
  let W : Nat → Nat → D := fun I J => G (loc rs I).1 (loc cs J).1 (loc rs I).2 (loc cs J).2
  obtain ⟨X, eX, -, hX⟩ := Blocks.toDense_gen (dense := TMat.toDense up) (rows := TMat.rows) (cols := TMat.cols) (B := C) (rs := rs) (cs := cs) (f := W)
    ⟨hC.ori, hC.rows, hC.cols, hC.alloc, fun i j hi hj => by
      obtain ⟨S, eS, hS, -⟩ := hF i j hi hj
      refine ⟨_, eS, TSMat.is_rows hS, TSMat.is_cols hS, ?_⟩
      refine Sat.mono (TSMat.denseOf_sat H.up_zero hS) fun X hX => hX.1.congr (fun a b ha hb => ?_)
      show _ = G _ _ _ _
      rw [loc_offs rs hi ha, loc_offs cs hj hb]⟩
    (hu1.trans hA.ubRows) (hu2.trans hB.ubCols)
  refine ⟨C, X, W, eC, eX, hX, fun I J hI hJ => ?_⟩
  obtain ⟨a1, a2, a3⟩ := loc_spec rs hI
  obtain ⟨b1, b2, b3⟩ := loc_spec cs hJ
  obtain ⟨S, -, -, hN⟩ := hF _ _ a1 b1
  have := (hN _ _ a2 b2).err
  rw [a3, b3, offs_length, show K + 2 + ks.length = K + ks.length + 2 by omega] at this
  exact this


/-! ### C99: conversion to the types of the type list, with rounding to `float` -/

section conv

variable [CommArith F] [CommArith D] [DecidableEq F] [DecidableEq D] [LinearOrder D] [Neg D] [NatCast D] [Div D]

omit [DecidableEq F] [DecidableEq D] in
theorem Numbers.abs_val {valF : F → ℚ} {valD : D → ℚ} {up : F → D} {rnd : D → F} {uf ud : ℚ} (H : Numbers valF valD up rnd uf ud) (v : D) :
    valD (max v (-v)) = |valD v| := by
  have hm : valD (max v (-v)) = max (valD v) (valD (-v)) := by
    rcases le_total v (-v) with h | h
    · rw [max_eq_right h, max_eq_right ((H.le_iff _ _).1 h)]
    · rw [max_eq_left h, max_eq_left ((H.le_iff _ _).1 h)]
  rw [hm, H.neg_val]; rfl

omit [DecidableEq F] [DecidableEq D] in
theorem Numbers.inj {valF : F → ℚ} {valD : D → ℚ} {up : F → D} {rnd : D → F} {uf ud : ℚ} (H : Numbers valF valD up rnd uf ud) {v w : D}
    (h : valD v = valD w) : v = w :=
  le_antisymm ((H.le_iff _ _).2 h.le) ((H.le_iff _ _).2 h.ge)

omit [DecidableEq F] [DecidableEq D] in
theorem Numbers.eq_zero {valF : F → ℚ} {valD : D → ℚ} {up : F → D} {rnd : D → F} {uf ud : ℚ} (H : Numbers valF valD up rnd uf ud) {v : D}
    (h : ¬ 0 < max v (-v)) : v = 0 := by
  have h1 := (H.le_iff _ _).1 (not_lt.1 h)
  rw [H.abs_val, H.double.zero] at h1
  exact H.inj ((abs_nonpos_iff.1 h1).trans H.double.zero.symm)

omit [DecidableEq F] [DecidableEq D] [CommArith F] [CommArith D] [LinearOrder D] [Neg D] [NatCast D] [Div D] in
theorem TMat.mkTwo_ok {X1 X2 : TSMat F D} (h1 : X1.rows = X2.rows) (h2 : X1.cols = X2.cols) : TMat.mkTwo X1 X2 = .ok (.two X1 X2) := by
  simp [TMat.mkTwo, assertThat, h1, h2]

omit [DecidableEq F] [DecidableEq D] in
/-- C99: converting a submatrix to the type `k` yields an object of that type; its `double` part and its `float` part
hold what the thresholds prescribe. -/
theorem C99_contents (valF : F → ℚ) (valD : D → ℚ) (up : F → D) (rnd : D → F) (uf ud : ℚ) (H : Numbers valF valD up rnd uf ud) (t : Settings D)
    (A : Dense D) (nr nc r0 c0 r c : Nat) (f : Nat → Nat → D) (hs : (Src.sub A nr nc r0 c0).Is r c f)
    (hD : 0 ≤ t.sigDouble) (hDF : t.sigDouble < t.sigSingle) (k : Kind) :
    ∃ M, TMat.convertTo rnd t (.sub A nr nc r0 c0) k = .ok M ∧ M.kind = some k ∧
      M.Parts up r c (fun i j => storedD t k (f i j)) (fun i j => storedF rnd t k (f i j)) := by
  have hF : 0 ≤ t.sigSingle := hD.trans hDF.le
  have zero0 : ∀ v : D, (if (Checker.above (0 : D)).accepts v = true then v else 0) = v := by
    intro v
    by_cases h : (0 : D) < max v (-v)
    · rw [if_pos ((above_acc' _ _).2 h)]
    · rw [if_neg (fun a => h ((above_acc' _ _).1 a))]
      exact (H.eq_zero h).symm
  cases k with
  | zero =>
    refine ⟨_, rfl, rfl, .inr ⟨by simp [TSMat.prec], ⟨hs.rows, hs.cols, fun i j _ _ => ?_⟩, fun _ _ _ _ => rfl⟩⟩
    exact H.up_zero
  | denseF =>
    obtain ⟨X, e, h, o⟩ := Src.toDense_sat (.above 0) rnd hs
    refine ⟨.one (.denseF X), by simp only [TMat.convertTo, e, bind_ok']; rfl, rfl,
      .inr ⟨by simp [TSMat.prec], ⟨o, _, h, fun i j _ _ => ?_⟩, fun _ _ _ _ => rfl⟩⟩
    simp only [zero0, storedF]
  | denseD =>
    obtain ⟨X, e, h, o⟩ := Src.toDense_sat (.above 0) id hs
    refine ⟨.one (.denseD X), by simp only [TMat.convertTo, e, bind_ok']; rfl, rfl,
      .inl ⟨rfl, ⟨o, h.congr fun i j _ _ => ?_⟩, fun _ _ _ _ => rfl⟩⟩
    simp only [zero0, storedD, id]
  | sparseD =>
    obtain ⟨S, e, h, o⟩ := Src.toSparse_sat (.above t.sigSingle) id hs
    refine ⟨.one (.sparseD S), by simp only [TMat.convertTo, Settings.sig, mkAbove_ok hF, e, bind_ok']; rfl, rfl,
      .inl ⟨rfl, ⟨o, h.congr fun i j _ _ => ?_⟩, fun _ _ _ _ => rfl⟩⟩
    simp only [above_acc', storedD, id]
  | sparseF =>
    obtain ⟨S, e, h, o⟩ := Src.toSparse_sat (.exIn t.sigDouble t.sigSingle) rnd hs
    refine ⟨.one (.sparseF S), by simp only [TMat.convertTo, Settings.sig, mkExIn_ok hD hDF, e, bind_ok']; rfl, rfl,
      .inr ⟨by simp [TSMat.prec], ⟨o, _, h, fun i j _ _ => ?_⟩, fun _ _ _ _ => rfl⟩⟩
    simp only [exIn_acc', storedF]
  | multSS =>
    obtain ⟨S1, e1, h1, o1⟩ := Src.toSparse_sat (.above t.sigSingle) id hs
    obtain ⟨S2, e2, h2, o2⟩ := Src.toSparse_sat (.exIn t.sigDouble t.sigSingle) rnd hs
    refine ⟨.two (.sparseD S1) (.sparseF S2), ?_, rfl, rfl, ⟨o1, h1.congr fun i j _ _ => ?_⟩, rfl, ⟨o2, _, h2, fun i j _ _ => ?_⟩⟩
    · simp only [TMat.convertTo, Settings.sig, mkAbove_ok hF, mkExIn_ok hD hDF, e1, e2, bind_ok']
      exact TMat.mkTwo_ok (by simp [TSMat.rows, h1.rows, h2.rows]) (by simp [TSMat.cols, h1.cols, h2.cols])
    · simp only [above_acc', storedD, id]
    · simp only [exIn_acc', storedF]
  | multSD =>
    obtain ⟨S1, e1, h1, o1⟩ := Src.toSparse_sat (.above t.sigSingle) id hs
    obtain ⟨S2, e2, h2, o2⟩ := Src.toDense_sat (.exIn t.sigDouble t.sigSingle) rnd hs
    refine ⟨.two (.sparseD S1) (.denseF S2), ?_, rfl, rfl, ⟨o1, h1.congr fun i j _ _ => ?_⟩, rfl, ⟨o2, _, h2, fun i j _ _ => ?_⟩⟩
    · simp only [TMat.convertTo, Settings.sig, mkAbove_ok hF, mkExIn_ok hD hDF, e1, e2, bind_ok']
      exact TMat.mkTwo_ok (by simp [TSMat.rows, h1.rows, h2.rows]) (by simp [TSMat.cols, h1.cols, h2.cols])
    · simp only [above_acc', storedD, id]
    · simp only [exIn_acc', storedF]
      split
      · rfl
      · rw [H.rnd_zero]

omit [DecidableEq F] [DecidableEq D] in
/-- C99: the type chosen by the converter is the first of the type list whose occupation conditions, computed with
`double` quotients, are fulfilled. -/
theorem C99_first_match (valF : F → ℚ) (valD : D → ℚ) (up : F → D) (rnd : D → F) (uf ud : ℚ) (H : Numbers valF valD up rnd uf ud)
    (b : Build) (t : Settings D) (A : Dense D) (nr nc r0 c0 r c : Nat) (f : Nat → Nat → D) (hs : (Src.sub A nr nc r0 c0).Is r c f)
    (hD : 0 ≤ t.sigDouble) (hDF : t.sigDouble < t.sigSingle) (h1 : 1 ≤ valD t.denseDDouble) (h2 : 1 ≤ valD t.denseDSingle) :
    ∃ pre k post M, [Kind.zero, .sparseF, .denseF, .sparseD, .multSS, .multSD, .denseD] = pre ++ k :: post ∧
      TMat.convertMatrix b rnd t (.sub A nr nc r0 c0) = .ok M ∧ Fulfils t r c f k ∧ (∀ k' ∈ pre, ¬ Fulfils t r c f k') ∧
      M.kind = some k ∧ M.Parts up r c (fun i j => storedD t k (f i j)) (fun i j => storedF rnd t k (f i j)) := by
  obtain ⟨hr, hc⟩ : 0 < r ∧ 0 < c := ⟨hs.2.2.1, hs.2.2.2.1⟩
  have hpos : 0 < r * c := Nat.mul_pos hr hc
  have hdef : Fulfils t r c f .denseD := by
    have : ∀ x y : D, 1 ≤ valD y → (countAbove x r c f : D) / ((r * c : Nat) : D) ≤ y := by
      intro x y hy
      rw [H.le_iff]
      exact (H.ratio_le _ _ (countAbove_le x r c f) hpos).trans hy
    exact ⟨this _ _ h1, this _ _ h2⟩
  rcases C37_exec_if b (isConvertible t (.sub A nr nc r0 c0)) (Fulfils t r c f)
    (TMat.convertTo rnd t (.sub A nr nc r0 c0)) typeList (by simp [typeList])
    (fun k _ => isConvertible_eq hs hr hc hD (hD.trans hDF.le) k) with ⟨pre, k, post, e1, e2, e3, e4⟩ | ⟨h, -⟩
  · obtain ⟨M, hM, hm, hp⟩ := C99_contents valF valD up rnd uf ud H t A nr nc r0 c0 r c f hs hD hDF k
    refine ⟨pre, k, post, M, e1, ?_, e2, e3, hm, hp⟩
    rw [TMat.convertMatrix, e4, hM]
  · exact absurd hdef (h .denseD (by simp [typeList]))

omit [DecidableEq F] [DecidableEq D] in
/-- What the two parts hold, with safe thresholds. -/
theorem storedAs {valF : F → ℚ} {valD : D → ℚ} {up : F → D} {rnd : D → F} {uf ud : ℚ} (H : Numbers valF valD up rnd uf ud)
    {t : Settings D} (ht : t.Safe valD) {r c : Nat} {f : Nat → Nat → D} (hr : 0 < r) (hc : 0 < c) {k : Kind} (hk : Fulfils t r c f k)
    {i j : Nat} (hi : i < r) (hj : j < c) : StoredAs rnd t (f i j) (storedD t k (f i j)) (storedF rnd t k (f i j)) := by
  have hpos : 0 < r * c := Nat.mul_pos hr hc
  have none : ∀ {x y : D}, valD y ≤ 0 → (countAbove x r c f : D) / ((r * c : Nat) : D) ≤ y → max (f i j) (-f i j) ≤ x := by
    intro x y hy h
    have h0 : countAbove x r c f = 0 := by
      by_contra hn
      have h1 := H.ratio_pos _ _ (Nat.pos_of_ne_zero hn) hpos
      have h2 := (H.le_iff _ _).1 h
      linarith
    exact countAbove_zero' h0 hi hj
  cases k with
  | zero => exact .inr (.inr ⟨rfl, rfl, (none ht.zero hk.1).trans ht.sigLt.le⟩)
  | denseF => exact .inr (.inl ⟨rfl, rfl, none ht.denseF hk.2⟩)
  | denseD => exact .inl ⟨rfl, rfl⟩
  | sparseD =>
    by_cases a : t.sigSingle < max (f i j) (-f i j)
    · exact .inl ⟨by simp only [storedD, if_pos a], rfl⟩
    · exact .inr (.inr ⟨by simp only [storedD, if_neg a], rfl, not_lt.1 a⟩)
  | sparseF =>
    have hle := none ht.sparseF hk.2
    by_cases a : t.sigDouble < max (f i j) (-f i j)
    · exact .inr (.inl ⟨rfl, by simp only [storedF, if_pos (And.intro a hle)], hle⟩)
    · exact .inr (.inr ⟨rfl, by simp only [storedF]; rw [if_neg (fun h => a h.1)], hle⟩)
  | multSS =>
    by_cases a : t.sigSingle < max (f i j) (-f i j)
    · exact .inl ⟨by simp only [storedD, if_pos a], by simp only [storedF]; rw [if_neg (fun h => absurd h.2 (not_le.2 a))]⟩
    · have hle := not_lt.1 a
      by_cases a' : t.sigDouble < max (f i j) (-f i j)
      · exact .inr (.inl ⟨by simp only [storedD, if_neg a], by simp only [storedF, if_pos (And.intro a' hle)], hle⟩)
      · exact .inr (.inr ⟨by simp only [storedD, if_neg a], by simp only [storedF]; rw [if_neg (fun h => a' h.1)], hle⟩)
  | multSD =>
    by_cases a : t.sigSingle < max (f i j) (-f i j)
    · exact .inl ⟨by simp only [storedD, if_pos a], by simp only [storedF]; rw [if_neg (fun h => absurd h.2 (not_le.2 a))]⟩
    · have hle := not_lt.1 a
      by_cases a' : t.sigDouble < max (f i j) (-f i j)
      · exact .inr (.inl ⟨by simp only [storedD, if_neg a], by simp only [storedF, if_pos (And.intro a' hle)], hle⟩)
      · exact .inr (.inr ⟨by simp only [storedD, if_neg a], by simp only [storedF]; rw [if_neg (fun h => a' h.1)], hle⟩)

end conv

section parts

theorem TMat.Parts.congr [Zero F] [Zero D] {up : F → D} {M : TMat F D} {r c : Nat} {d d' : Nat → Nat → D} {s s' : Nat → Nat → F}
    (h : M.Parts up r c d s) (hd : ∀ i j, i < r → j < c → d i j = d' i j) (hs : ∀ i j, i < r → j < c → s i j = s' i j) :
    M.Parts up r c d' s' := by
  cases M with
  | one A =>
    rcases h with ⟨a, b, e⟩ | ⟨a, b, e⟩
    · exact .inl ⟨a, b.congr hd, fun i j hi hj => (hs i j hi hj).symm.trans (e i j hi hj)⟩
    · exact .inr ⟨a, b.congr (fun i j hi hj => by rw [hs i j hi hj]), fun i j hi hj => (hd i j hi hj).symm.trans (e i j hi hj)⟩
  | two X Y => exact ⟨h.1, h.2.1.congr hd, h.2.2.1, h.2.2.2.congr (fun i j hi hj => by rw [hs i j hi hj])⟩

theorem TMat.Parts.rows [Zero F] [Zero D] {up : F → D} {M : TMat F D} {r c : Nat} {d : Nat → Nat → D} {s : Nat → Nat → F}
    (h : M.Parts up r c d s) : M.rows = r ∧ M.cols = c := by
  cases M with
  | one A =>
    rcases h with ⟨a, b, e⟩ | ⟨a, b, e⟩
    · exact ⟨TSMat.is_rows b, TSMat.is_cols b⟩
    · exact ⟨TSMat.is_rows b, TSMat.is_cols b⟩
  | two X Y => exact ⟨TSMat.is_rows h.2.1, TSMat.is_cols h.2.1⟩

theorem TMat.Parts.stands [Arith F] [Arith D] {valF : F → ℚ} {valD : D → ℚ} {up : F → D} {uf ud : ℚ} (H : Formats valF valD up uf ud)
    {M : TMat F D} {r c : Nat} {d : Nat → Nat → D} {s : Nat → Nat → F} (h : M.Parts up r c d s) :
    M.Stands valD up r c (fun i j => valD (d i j) + valF (s i j)) (fun i j => |valD (d i j)|) (fun i j => |valF (s i j)|) := by
  cases M with
  | one A =>
    rcases h with ⟨a, b, e⟩ | ⟨a, b, e⟩
    · refine ⟨d, b, fun i j hi hj => ?_⟩
      simp [a, e i j hi hj, H.single.zero]
    · refine ⟨_, b, fun i j hi hj => ?_⟩
      simp [a, e i j hi hj, H.double.zero, H.up_val]
  | two X Y =>
    obtain ⟨a, b, a', b'⟩ := h
    refine ⟨_, _, _, _, _, _, ⟨d, b, fun _ _ _ _ => ⟨rfl, rfl, rfl⟩⟩, ⟨_, b', fun _ _ _ _ => ⟨rfl, rfl, rfl⟩⟩, fun i j hi hj => ?_⟩
    simp [a, a', H.up_val]

/-- Conversion to a dense matrix of `double`s adds the two parts. -/
theorem TMat.Parts.toDense_sat [Arith F] [Arith D] {up : F → D} (h0 : up 0 = 0)
    {M : TMat F D} {r c : Nat} {d : Nat → Nat → D} {s : Nat → Nat → F} (h : M.Parts up r c d s) :
    Sat (M.toDense up) (fun X => X.Is r c (fun i j => d i j + up (s i j)) ∧ X.ori = .col) := by
  cases M with
  | one A =>
    rcases h with ⟨a, b, e⟩ | ⟨a, b, e⟩
    · exact TSMat.denseOf_sat h0 (b.congr fun i j hi hj => by rw [e i j hi hj, h0, add_zero])
    · exact TSMat.denseOf_sat h0 (b.congr fun i j hi hj => by rw [e i j hi hj, zero_add])
  | two X Y =>
    obtain ⟨a, b, a', b'⟩ := h
    refine Sat.bind (TSMat.denseOf_sat h0 b) fun C hC => ?_
    refine Sat.bind (SMat.binassign_dense_sat (· + ·) add_zero (A := C) ⟨hC.1, hC.2⟩ (TSMat.toD_is h0 b')) ?_
    rintro _ ⟨X, rfl, hX⟩
    exact Sat.pure ⟨hX.1, hX.2⟩

end parts

section pipeline

variable [CommArith F] [CommArith D] [LinearOrder D] [Neg D] [NatCast D] [Div D]

/-- Splitting into blocks: each block has two parts that hold what is stored of its elements. -/
theorem TBlocked.generate_sat {valF : F → ℚ} {valD : D → ℚ} {up : F → D} {rnd : D → F} {uf ud : ℚ} (H : Numbers valF valD up rnd uf ud)
    (b : Build) {t : Settings D} (ht : t.Safe valD) {A : Dense D} {rs cs : List Nat} {f : Nat → Nat → D}
    (hA : A.Is rs.sum cs.sum f) (ho : A.ori = .col) (hp : Partition rs cs) :
    Sat (TBlocked.generate b rnd t A rs cs) (fun B => B.ubRows = rs.sum ∧ B.ubCols = cs.sum ∧ ∃ d : Nat → Nat → D, ∃ s : Nat → Nat → F,
      (∀ i j, i < rs.sum → j < cs.sum → StoredAs rnd t (f i j) (d i j) (s i j)) ∧
      B.Grid rs.length cs.length (fun i j M => (∃ k, M.kind = some k ∧
          Fulfils t (rs.getD i 0) (cs.getD j 0) (fun a b => f (offs rs i + a) (offs cs j + b)) k) ∧
        M.Parts up (rs.getD i 0) (cs.getD j 0) (fun a b => d (offs rs i + a) (offs cs j + b)) (fun a b => s (offs rs i + a) (offs cs j + b)))) := by
  refine Sat.mono (Blocks.generate_gen (In := fun i j M => ∃ k, M.kind = some k ∧
      Fulfils t (rs.getD i 0) (cs.getD j 0) (fun a b => f (offs rs i + a) (offs cs j + b)) k ∧
      M.Parts up (rs.getD i 0) (cs.getD j 0) (fun a b => storedD t k (f (offs rs i + a) (offs cs j + b)))
        (fun a b => storedF rnd t k (f (offs rs i + a) (offs cs j + b)))) ?_) ?_
  · intro i j hi hj
    obtain ⟨pre, k, post, M, -, e, h1, -, h2, h3⟩ := C99_first_match valF valD up rnd uf ud H b t A _ _ _ _ _ _ _ (block_is hA ho hp hi hj)
      ht.sigPos ht.sigLt ht.denseD1 ht.denseD2
    exact ⟨M, e, k, h2, h1, h3⟩
  · rintro B ⟨h1, h2, hB⟩
    have hG : ∀ i j, ∃ k : Kind, i < rs.length → j < cs.length → ∃ M, B.grid.get i j = .ok M ∧ M.kind = some k ∧
        Fulfils t (rs.getD i 0) (cs.getD j 0) (fun a b => f (offs rs i + a) (offs cs j + b)) k ∧
        M.Parts up (rs.getD i 0) (cs.getD j 0) (fun a b => storedD t k (f (offs rs i + a) (offs cs j + b)))
          (fun a b => storedF rnd t k (f (offs rs i + a) (offs cs j + b))) := by
      intro i j
      by_cases h : i < rs.length ∧ j < cs.length
      · obtain ⟨M, e, k, hM⟩ := hB.blocks i j h.1 h.2
        exact ⟨k, fun _ _ => ⟨M, e, hM⟩⟩
      · exact ⟨.zero, fun h1 h2 => absurd ⟨h1, h2⟩ h⟩
    choose k hk using hG
    refine ⟨h1.trans hA.rows, h2.trans hA.cols, fun I J => storedD t (k (loc rs I).1 (loc cs J).1) (f I J),
      fun I J => storedF rnd t (k (loc rs I).1 (loc cs J).1) (f I J), ?_, ?_⟩
    · intro I J hI hJ
      obtain ⟨a1, a2, a3⟩ := loc_spec rs hI
      obtain ⟨b1, b2, b3⟩ := loc_spec cs hJ
      obtain ⟨M, -, -, hf, -⟩ := hk _ _ a1 b1
      have := storedAs H ht (hp.rowPos _ (getD_mem a1)) (hp.colPos _ (getD_mem b1)) hf a2 b2
      simp only [a3, b3] at this
      exact this
    · refine ⟨hB.ori, hB.rows, hB.cols, hB.alloc, fun i j hi hj => ?_⟩
      obtain ⟨M, e, hkd, hf, hM⟩ := hk i j hi hj
      refine ⟨M, e, ⟨_, hkd, hf⟩, hM.congr (fun a b ha hb => ?_) (fun a b ha hb => ?_)⟩
      · simp only [loc_offs rs hi ha, loc_offs cs hj hb]
      · simp only [loc_offs rs hi ha, loc_offs cs hj hb]

/-- C99: splitting a matrix of `double`s into blocks and converting the blocked matrix back to a dense matrix of
`double`s returns, for every element v, v itself, or v rounded to `float`, or 0; the latter two only if |v| is at most the
single-precision significance. -/
theorem C99_round_trip (valF : F → ℚ) (valD : D → ℚ) (up : F → D) (rnd : D → F) (uf ud : ℚ) (H : Numbers valF valD up rnd uf ud)
    (b : Build) (t : Settings D) (ht : t.Safe valD) (A : Dense D) (rs cs : List Nat) (f : Nat → Nat → D)
    (hA : A.Is rs.sum cs.sum f) (ho : A.ori = .col) (hp : Partition rs cs) :
    ∃ B X, TBlocked.generate b rnd t A rs cs = .ok B ∧ TBlocked.toDense up B = .ok X ∧ X.dim.rows = rs.sum ∧ X.dim.cols = cs.sum ∧
      ∀ i j, i < rs.sum → j < cs.sum → ∃ w, X.get i j = .ok w ∧
        (w = f i j ∨ (w = up (rnd (f i j)) ∧ |valD (f i j)| ≤ valD t.sigSingle) ∨ (w = 0 ∧ |valD (f i j)| ≤ valD t.sigSingle)) := by
  obtain ⟨B, e, h1, h2, d, s, hds, hB⟩ := TBlocked.generate_sat H b ht hA ho hp
  obtain ⟨X, eX, -, hX⟩ := Blocks.toDense_gen (dense := TMat.toDense up) (rows := TMat.rows) (cols := TMat.cols) (B := B)
    (f := fun I J => d I J + up (s I J))
    (hB.mono fun i j M _ _ hM => ⟨hM.2.rows.1, hM.2.rows.2, (hM.2.toDense_sat H.up_zero).mono fun _ hS => hS.1⟩) h1 h2
  refine ⟨B, X, e, eX, hX.rows, hX.cols, fun i j hi hj => ⟨_, hX.elems i j hi hj, ?_⟩⟩
  have hle : max (f i j) (-f i j) ≤ t.sigSingle → |valD (f i j)| ≤ valD t.sigSingle := by
    intro h
    rw [← H.abs_val]
    exact (H.le_iff _ _).1 h
  rcases hds i j hi hj with ⟨a, b⟩ | ⟨a, b, c⟩ | ⟨a, b, c⟩
  · left; simp only [a, b, H.up_zero, add_zero]
  · right; left; exact ⟨by simp only [a, b, zero_add], hle c⟩
  · right; right; exact ⟨by simp only [a, b, H.up_zero, add_zero], hle c⟩

/-- What is stored of one element, in numbers. -/
theorem StoredAs.bounds {valF : F → ℚ} {valD : D → ℚ} {up : F → D} {rnd : D → F} {uf ud : ℚ} (H : Numbers valF valD up rnd uf ud) (huf : uf ≤ 1)
    {t : Settings D} {v d : D} {s : F} (hσ : 0 ≤ valD t.sigSingle) (h : StoredAs rnd t v d s) :
    |valD d + valF s - valD v| ≤ valD t.sigSingle ∧ |valD d + valF s| ≤ (1 + uf) * |valD v| ∧
    |valD d| ≤ |valD v| ∧ |valF s| ≤ (1 + uf) * |valD v| ∧ |valF s| ≤ (1 + uf) * valD t.sigSingle ∧ (valD d = 0 ∨ valF s = 0) := by
  have hu := H.single.nonneg
  have hv := abs_nonneg (valD v)
  have hle : max v (-v) ≤ t.sigSingle → |valD v| ≤ valD t.sigSingle := by
    intro h
    rw [← H.abs_val]
    exact (H.le_iff _ _).1 h
  have huv : 0 ≤ uf * |valD v| := mul_nonneg hu hv
  have huσ : 0 ≤ uf * valD t.sigSingle := mul_nonneg hu hσ
  rcases h with ⟨rfl, rfl⟩ | ⟨rfl, rfl, c⟩ | ⟨rfl, rfl, c⟩
  · simp only [H.single.zero, add_zero, sub_self, abs_zero]
    refine ⟨hσ, by linarith, le_refl _, by nlinarith, by nlinarith, .inr trivial⟩
  · have hc := hle c
    have hr := H.rnd_val v
    simp only [H.double.zero, zero_add, abs_zero]
    have h1 : |valF (rnd v)| ≤ (1 + uf) * |valD v| := by
      calc |valF (rnd v)| = |(valF (rnd v) - valD v) + valD v| := by congr 1; ring
        _ ≤ _ := abs_add_le _ _
        _ ≤ _ := by linarith
    refine ⟨by nlinarith, h1, hv, h1, h1.trans (mul_le_mul_of_nonneg_left hc (by linarith)), .inl trivial⟩
  · have hc := hle c
    simp only [H.double.zero, H.single.zero, add_zero, zero_sub, abs_neg, abs_zero]
    refine ⟨hc, by nlinarith, hv, by nlinarith, by nlinarith, .inl trivial⟩

variable [DecidableEq F] [DecidableEq D]

/-- C100: the whole pipeline in mixed precision.  Two dense matrices of `double`s are split into blocks (each stored as
one of the seven types), multiplied and converted back to a dense matrix of `double`s.  The result differs from the exact
product of the two matrices by at most

  σ Σ(|a| + (1+uf)|b|)              (elements rounded to `float` or dropped)
  + ((1+ud)^N - 1)(1+uf) Σ|a||b|    (`double` arithmetic)
  + ((1+uf)^N - 1)(1+uf)² k σ²      (`float` arithmetic)

where σ is the single-precision significance threshold, k the inner dimension, N = K + b + 2 for b inner blocks of sizes
at most K: rounding of `float` arithmetic only enters with σ². -/
theorem C100_pipeline_error (valF : F → ℚ) (valD : D → ℚ) (up : F → D) (rnd : D → F) (uf ud : ℚ) (H : Numbers valF valD up rnd uf ud)
    (huf : uf ≤ 1) (b : Build) (t : Settings D) (ht : t.Safe valD) (A B : Dense D) (rs ks cs : List Nat) (f g : Nat → Nat → D)
    (hA : A.Is rs.sum ks.sum f) (hoA : A.ori = .col) (hpA : Partition rs ks)
    (hB : B.Is ks.sum cs.sum g) (hoB : B.ori = .col) (hpB : Partition ks cs)
    (hk : ks ≠ []) (K : Nat) (hK : ∀ x ∈ ks, x ≤ K) :
    ∃ BA BB BC X, TBlocked.generate b rnd t A rs ks = .ok BA ∧ TBlocked.generate b rnd t B ks cs = .ok BB ∧
      TBlocked.mul up BA BB = .ok BC ∧ TBlocked.toDense up BC = .ok X ∧ X.dim.rows = rs.sum ∧ X.dim.cols = cs.sum ∧
      ∀ i j, i < rs.sum → j < cs.sum → ∃ w, X.get i j = .ok w ∧
        |valD w - ∑ l ∈ Finset.range ks.sum, valD (f i l) * valD (g l j)| ≤
          valD t.sigSingle * ∑ l ∈ Finset.range ks.sum, (|valD (f i l)| + (1 + uf) * |valD (g l j)|)
          + ((1 + ud) ^ (K + ks.length + 2) - 1) * ((1 + uf) * ∑ l ∈ Finset.range ks.sum, |valD (f i l)| * |valD (g l j)|)
          + ((1 + uf) ^ (K + ks.length + 2) - 1) * ((1 + uf) ^ 2 * ks.sum * valD t.sigSingle ^ 2) := by
  have hu := H.single.nonneg
  have hud := H.double.nonneg
  have hσ : 0 ≤ valD t.sigSingle := by
    have := (H.le_iff _ _).1 (ht.sigPos.trans ht.sigLt.le)
    rwa [H.double.zero] at this
  obtain ⟨BA, eA, a1, a2, d, s, hds, gA⟩ := TBlocked.generate_sat H b ht hA hoA hpA
  obtain ⟨BB, eB, b1, b2, d', s', hds', gB⟩ := TBlocked.generate_sat H b ht hB hoB hpB
  have sA : BA.Stands valD up rs ks (fun i j => valD (d i j) + valF (s i j)) (fun i j => |valD (d i j)|) (fun i j => |valF (s i j)|) :=
    ⟨gA.ori, gA.rows, gA.cols, gA.alloc, a1, a2, fun i j hi hj => by
      obtain ⟨M, e, -, hM⟩ := gA.blocks i j hi hj
      exact ⟨M, e, hM.stands H.toFormats⟩⟩
  have sB : BB.Stands valD up ks cs (fun i j => valD (d' i j) + valF (s' i j)) (fun i j => |valD (d' i j)|) (fun i j => |valF (s' i j)|) :=
    ⟨gB.ori, gB.rows, gB.cols, gB.alloc, b1, b2, fun i j hi hj => by
      obtain ⟨M, e, -, hM⟩ := gB.blocks i j hi hj
      exact ⟨M, e, hM.stands H.toFormats⟩⟩
  obtain ⟨BC, X, G, eC, eX, hX, hG⟩ := C98_mixed_error valF valD up uf ud H.toFormats BA BB rs ks cs _ _ _ _ _ _ sA sB hk K hK
  refine ⟨BA, BB, BC, X, eA, eB, eC, eX, hX.rows, hX.cols, fun i j hi hj => ⟨_, hX.elems i j hi hj, ?_⟩⟩
  have hN := hG i j hi hj
  generalize hσ' : valD t.sigSingle = σ at *
  generalize (K + ks.length + 2) = N at *
  have pd : 0 ≤ (1 + ud) ^ N - 1 := by have : 1 ≤ (1 + ud) ^ N := one_le_pow₀ (by linarith); linarith
  have pf : 0 ≤ (1 + uf) ^ N - 1 := by have : 1 ≤ (1 + uf) ^ N := one_le_pow₀ (by linarith); linarith
  have bA := fun l (hl : l < ks.sum) => StoredAs.bounds H huf (by rw [hσ']; exact hσ) (hds i l hi hl)
  have bB := fun l (hl : l < ks.sum) => StoredAs.bounds H huf (by rw [hσ']; exact hσ) (hds' l j hl hj)
  rw [hσ'] at bA bB
  -- the two matrices stand for something near to them
  have h1 : |∑ l ∈ Finset.range ks.sum, (valD (d i l) + valF (s i l)) * (valD (d' l j) + valF (s' l j))
      - ∑ l ∈ Finset.range ks.sum, valD (f i l) * valD (g l j)| ≤ σ * ∑ l ∈ Finset.range ks.sum, (|valD (f i l)| + (1 + uf) * |valD (g l j)|) := by
    rw [← Finset.sum_sub_distrib, Finset.mul_sum]
    refine (Finset.abs_sum_le_sum_abs _ _).trans (Finset.sum_le_sum fun l hl => ?_)
    have hl := Finset.mem_range.1 hl
    obtain ⟨x1, -⟩ := bA l hl
    obtain ⟨y1, y2, -⟩ := bB l hl
    generalize valD (d i l) + valF (s i l) = x at *
    generalize valD (d' l j) + valF (s' l j) = y at *
    calc |x * y - valD (f i l) * valD (g l j)| = |(x - valD (f i l)) * y + valD (f i l) * (y - valD (g l j))| := by congr 1; ring
      _ ≤ _ := abs_add_le _ _
      _ = |x - valD (f i l)| * |y| + |valD (f i l)| * |y - valD (g l j)| := by rw [abs_mul, abs_mul]
      _ ≤ σ * ((1 + uf) * |valD (g l j)|) + |valD (f i l)| * σ :=
        add_le_add (mul_le_mul x1 y2 (abs_nonneg _) hσ) (mul_le_mul_of_nonneg_left y1 (abs_nonneg _))
      _ = _ := by ring
  have h2 : ∑ l ∈ Finset.range ks.sum, (|valD (d i l)| * |valD (d' l j)| + |valD (d i l)| * |valF (s' l j)| + |valF (s i l)| * |valD (d' l j)|)
      ≤ (1 + uf) * ∑ l ∈ Finset.range ks.sum, |valD (f i l)| * |valD (g l j)| := by
    rw [Finset.mul_sum]
    refine Finset.sum_le_sum fun l hl => ?_
    have hl := Finset.mem_range.1 hl
    obtain ⟨-, -, x3, x4, -, x6⟩ := bA l hl
    obtain ⟨-, -, y3, y4, -, y6⟩ := bB l hl
    have pa := abs_nonneg (valD (f i l))
    have pb := abs_nonneg (valD (g l j))
    have hab := mul_nonneg pa pb
    have m1 : |valD (d i l)| * |valD (d' l j)| ≤ |valD (f i l)| * |valD (g l j)| := mul_le_mul x3 y3 (abs_nonneg _) pa
    have m2 : |valD (d i l)| * |valF (s' l j)| ≤ |valD (f i l)| * ((1 + uf) * |valD (g l j)|) := mul_le_mul x3 y4 (abs_nonneg _) pa
    have m3 : |valF (s i l)| * |valD (d' l j)| ≤ ((1 + uf) * |valD (f i l)|) * |valD (g l j)| :=
      mul_le_mul x4 y3 (abs_nonneg _) (by nlinarith)
    have hnn : 0 ≤ uf * (|valD (f i l)| * |valD (g l j)|) := mul_nonneg hu hab
    rcases x6 with x | x <;> rcases y6 with y | y <;> simp only [x, y, abs_zero, zero_mul, mul_zero, zero_add, add_zero] at * <;> nlinarith
  have h3 : ∑ l ∈ Finset.range ks.sum, |valF (s i l)| * |valF (s' l j)| ≤ (1 + uf) ^ 2 * ks.sum * σ ^ 2 := by
    calc _ ≤ ∑ l ∈ Finset.range ks.sum, ((1 + uf) * σ) * ((1 + uf) * σ) := by
          refine Finset.sum_le_sum fun l hl => ?_
          have hl := Finset.mem_range.1 hl
          exact mul_le_mul (bA l hl).2.2.2.2.1 (bB l hl).2.2.2.2.1 (abs_nonneg _) (by nlinarith)
      _ = _ := by rw [Finset.sum_const, Finset.card_range, nsmul_eq_mul]; ring
  have h4 := mul_le_mul_of_nonneg_left h2 pd
  have h5 := mul_le_mul_of_nonneg_left h3 pf
  calc |valD (G i j) - ∑ l ∈ Finset.range ks.sum, valD (f i l) * valD (g l j)|
      = |(valD (G i j) - ∑ l ∈ Finset.range ks.sum, (valD (d i l) + valF (s i l)) * (valD (d' l j) + valF (s' l j)))
        + (∑ l ∈ Finset.range ks.sum, (valD (d i l) + valF (s i l)) * (valD (d' l j) + valF (s' l j))
          - ∑ l ∈ Finset.range ks.sum, valD (f i l) * valD (g l j))| := by congr 1; ring
    _ ≤ _ := abs_add_le _ _
    _ ≤ _ := by linarith

end pipeline

/-! ### `float` and `double` -/

/-- `float`: 24-bit significand, round to nearest even. -/
abbrev Single := Fp 24 ieee

/-- `double`: 53-bit significand, round to nearest even. -/
abbrev Double := Fp 53 ieee

/-- The conversion `float → double`. -/
def toDouble : Single → Double := Fp.widen (by decide)

/-- The conversion `double → float`. -/
def toSingle : Double → Single := Fp.narrow

/-- The default thresholds (Threshold.h:16-36) with the given significance thresholds. -/
def defaultSettings (sigF sigD : ℚ) : Settings Double where
  sigSingle := .of sigF
  sigDouble := .of sigD
  zeroSingle := 0
  zeroDouble := 0
  sparseFSingle := 0
  sparseFDouble := .of (1 / 5)
  denseFSingle := 0
  denseFDouble := .of 1
  sparseDSingle := .of (1 / 5)
  sparseDDouble := .of (1 / 5)
  multSSSingle := .of (1 / 5)
  multSSDouble := .of (2 / 5)
  multSDSingle := .of (1 / 5)
  multSDDouble := .of 1
  denseDSingle := .of 1
  denseDDouble := .of 1

theorem doubleNumbers : Numbers (Fp.val (p := 24) (md := ieee)) (Fp.val (p := 53) (md := ieee)) toDouble toSingle (1 / 2 ^ 24) (1 / 2 ^ 53) := by
  have h := Fp.numbers (p := 24) (q := 53) (md := ieee) (by decide)
  rwa [show (2 : ℚ) ^ (-((24 : Nat) : Int)) = 1 / 2 ^ 24 by rw [zpow_neg, zpow_natCast, one_div],
    show (2 : ℚ) ^ (-((53 : Nat) : Int)) = 1 / 2 ^ 53 by rw [zpow_neg, zpow_natCast, one_div]] at h

/-- The default thresholds, with significance thresholds 2^-23 and 2^-52 (the machine epsilons), are safe. -/
theorem defaultSettings_safe : (defaultSettings (1 / 2 ^ 23) (1 / 2 ^ 52)).Safe Fp.val := by
  have e : ∀ n : Nat, fl 53 ieee (1 / 2 ^ n) = 1 / 2 ^ n := fun n =>
    fl_id (by decide) ieee ⟨1, -(n : Int), by rw [abs_one]; exact one_le_pow₀ (by norm_num), by rw [zpow_neg, zpow_natCast]; simp⟩
  have one : fl 53 ieee 1 = 1 := fl_one (by decide) ieee
  refine ⟨?_, ?_, one.ge, one.ge, le_refl _, le_refl _, le_refl _⟩
  · show (0 : ℚ) ≤ fl 53 ieee (1 / 2 ^ 52)
    rw [e]; positivity
  · show fl 53 ieee (1 / 2 ^ 52) < fl 53 ieee (1 / 2 ^ 23)
    rw [e, e]; norm_num

/-- C100 for `float` and `double`: matrices of `double`s, any safe thresholds. -/
theorem C100_float_double (b : Build) (t : Settings Double) (ht : t.Safe Fp.val) (A B : Dense Double) (rs ks cs : List Nat)
    (f g : Nat → Nat → Double) (hA : A.Is rs.sum ks.sum f) (hoA : A.ori = .col) (hpA : Partition rs ks)
    (hB : B.Is ks.sum cs.sum g) (hoB : B.ori = .col) (hpB : Partition ks cs) (hk : ks ≠ []) (K : Nat) (hK : ∀ x ∈ ks, x ≤ K) :
    ∃ BA BB BC X, TBlocked.generate b toSingle t A rs ks = .ok BA ∧ TBlocked.generate b toSingle t B ks cs = .ok BB ∧
      TBlocked.mul toDouble BA BB = .ok BC ∧ TBlocked.toDense toDouble BC = .ok X ∧ X.dim.rows = rs.sum ∧ X.dim.cols = cs.sum ∧
      ∀ i j, i < rs.sum → j < cs.sum → ∃ w, X.get i j = .ok w ∧
        |w.val - ∑ l ∈ Finset.range ks.sum, (f i l).val * (g l j).val| ≤
          t.sigSingle.val * ∑ l ∈ Finset.range ks.sum, (|(f i l).val| + (1 + 1 / 2 ^ 24) * |(g l j).val|)
          + ((1 + 1 / 2 ^ 53) ^ (K + ks.length + 2) - 1) * ((1 + 1 / 2 ^ 24) * ∑ l ∈ Finset.range ks.sum, |(f i l).val| * |(g l j).val|)
          + ((1 + 1 / 2 ^ 24) ^ (K + ks.length + 2) - 1) * ((1 + 1 / 2 ^ 24) ^ 2 * ks.sum * t.sigSingle.val ^ 2) :=
  C100_pipeline_error Fp.val Fp.val toDouble toSingle _ _ doubleNumbers (by norm_num) b t ht A B rs ks cs f g hA hoA hpA hB hoB hpB hk K hK

/-- The hypotheses of `C99_round_trip` and `C100_float_double` are met by the default thresholds and matrices with a large
element, elements between the thresholds and one below both. -/
example : (defaultSettings (1 / 2 ^ 23) (1 / 2 ^ 52)).Safe Fp.val ∧ Partition [2, 1] [1, 2] ∧
    (Dense.ofFn .col 3 3 (fun i j => if i = 0 then (.of 7 : Double) else if i = 1 then .of (j / 2 ^ 30) else .of (1 / 2 ^ 60))).Is
      [2, 1].sum [1, 2].sum (fun i j => if i = 0 then (.of 7 : Double) else if i = 1 then .of (j / 2 ^ 30) else .of (1 / 2 ^ 60)) :=
  ⟨defaultSettings_safe, ⟨by decide, by decide, by decide, by decide⟩, Dense.ofFn_is _ _ _ _⟩

/-- The precision of a product matters: 3·3 with two-bit and four-bit significands. -/
example : (TSMat.mul (F := Fp 2 ieee) (D := Fp 4 ieee) (Fp.widen (by decide)) (.denseF (Dense.ofFn .col 1 1 (fun _ _ => .of 3)))
      (.denseF (Dense.ofFn .col 1 1 (fun _ _ => .of 3))) >>= TSMat.denseOf (Fp.widen (by decide)) >>= fun X => X.get 0 0) = .ok (.of 8) ∧
    (TSMat.mul (F := Fp 2 ieee) (D := Fp 4 ieee) (Fp.widen (by decide)) (.denseF (Dense.ofFn .col 1 1 (fun _ _ => .of 3)))
      (.denseD (Dense.ofFn .col 1 1 (fun _ _ => .of 3))) >>= TSMat.denseOf (Fp.widen (by decide)) >>= fun X => X.get 0 0) = .ok (.of 9) :=
  ⟨by decide +kernel, by decide +kernel⟩

/-- The types of products: `float` sparse by two-part gives `double`; anything by zero gives zero. -/
example : Kind.product .sparseF .multSD = .denseD ∧ Kind.product .sparseF .sparseF = .sparseF ∧ Kind.product .denseF .sparseF = .denseF ∧
    Kind.product .multSS .sparseF = .sparseD ∧ Kind.product .denseD .zero = .zero ∧ Kind.sum .zero .multSS = .sparseD := by decide

end BB
