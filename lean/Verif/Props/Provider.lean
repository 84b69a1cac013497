import Verif.Model.Provider
import Verif.Lemmas.Dense
import Verif.Props.Cache

/-!
# C54 (band matrices of the provider), C56 (band matrix generator), C57 (matrix sets)
-/

namespace BB.Provider

attribute [local irreducible] sizeMod bandDiag

variable {R : Type}

/-- Distance of an element from the diagonal. -/
def dist (i j : Nat) : Nat := if i ≤ j then j - i else i - j

theorem setElem_eq (asserts : Bool) (A : Dense R) (i j : Nat) (x : R) (hi : i < A.dim.rows) (hj : j < A.dim.cols) :
    setElem asserts A i j x = A.set i j x := by
  unfold setElem Dense.set
  rw [View.set_eq (by exact hi) (by exact hj)]
  cases asserts <;> simp [Dense.view, View.plain]

/-- Writing one element of a denoted matrix. -/
theorem setElem_is {asserts : Bool} {A : Dense R} {r c : Nat} {f : Nat → Nat → R} (h : A.Is r c f) (hdim : A.dim = Dim.mk' r c) {i j : Nat} {x : R}
    (hi : i < r) (hj : j < c) :
    Sat (setElem asserts A i j x) (fun A' => A'.Is r c (fun k l => if k = i ∧ l = j then x else f k l) ∧ A'.dim = A.dim ∧ A'.ori = A.ori) := by
  rw [setElem_eq asserts A i j x (by rw [h.rows]; exact hi) (by rw [h.cols]; exact hj)]
  unfold Dense.set
  rw [View.set_eq (by rw [h.view_rows]; exact hi) (by rw [h.view_rows]; exact hj)]
  refine Sat.writeCell h.cells h.fits (i := i) (j := j) (by rw [h.view_rows]; exact hi) (by rw [h.view_rows]; exact hj) rfl ?_
  intro b' hl hc
  refine Sat.pure ⟨?_, rfl, rfl⟩
  refine Dense.is_of_cells h.rows h.cols h.size (hl.trans h.alloc) ?_
  rw [h.view_rows] at hc
  refine hc.congr ?_
  intro k l _ _
  by_cases hkl : k = i ∧ l = j <;> simp [hkl]

theorem bandDiag_sat (asserts : Bool) (r c : Nat) (value : R) (b : Nat) (hb : b ≤ r) (hrc : r ≤ c) (hr : r < sizeMod) (A : Dense R) (f : Nat → Nat → R)
    (hA : A.Is r c f) (hdim : A.dim = Dim.mk' r c) :
    Sat (bandDiag asserts r value b A) (fun A' => A'.dim = Dim.mk' r c ∧ A'.ori = A.ori ∧ A'.Is r c (fun i j => if dist i j = b ∧ j < r then value else f i j)) := by
  unfold bandDiag
  have hn : (r + sizeMod - b) % sizeMod = (r - b) % sizeMod := by
    rw [show r + sizeMod - b = (r - b) + sizeMod by omega, Nat.add_mod_right]
  rw [hn, Nat.mod_eq_of_lt (by omega)]
  refine Sat.mono (Sat.loop (fun n A' => A'.dim = Dim.mk' r c ∧ A'.ori = A.ori ∧
      A'.Is r c (fun i j => if (i = j + b ∧ j < n) ∨ (j = i + b ∧ i < n) then value else f i j)) ⟨hdim, rfl, hA.congr (by simp)⟩ ?_) ?_
  · rintro n B hn' ⟨hd, ho, hB⟩
    unfold bandCell
    rw [Nat.mod_eq_of_lt (show n + b < sizeMod by omega)]
    refine Sat.bind (setElem_is (asserts := asserts) (i := n + b) (j := n) (x := value) hB hd (by omega) (by omega)) ?_
    rintro B1 ⟨h1, hd1, ho1⟩
    refine Sat.mono (setElem_is (asserts := asserts) (i := n) (j := n + b) (x := value) h1 (hd1.trans hd) (by omega) (by omega)) ?_
    rintro B2 ⟨h2, hd2, ho2⟩
    refine ⟨hd2.trans (hd1.trans hd), ho2.trans (ho1.trans ho), h2.congr ?_⟩
    intro i j _ _
    by_cases e1 : i = n ∧ j = n + b
    · rw [if_pos e1, if_pos (by omega)]
    · rw [if_neg e1]
      by_cases e2 : i = n + b ∧ j = n
      · rw [if_pos e2, if_pos (by omega)]
      · rw [if_neg e2]
        by_cases e3 : (i = j + b ∧ j < n) ∨ (j = i + b ∧ i < n)
        · rw [if_pos e3, if_pos (by omega)]
        · rw [if_neg e3, if_neg (by omega)]
  · rintro A' ⟨hd, ho, h⟩
    refine ⟨hd, ho, h.congr ?_⟩
    intro i j hi hj
    have : ((i = j + b ∧ j < r - b) ∨ (j = i + b ∧ i < r - b)) ↔ (dist i j = b ∧ j < r) := by
      unfold dist
      split <;> omega
    simp only [this]

theorem bandMatrix_sat [Zero R] (asserts : Bool) (r c w : Nat) (value : R) (hw : w ≤ r + 1) (hrc : r ≤ c) (hr : r < sizeMod) :
    Sat (bandMatrix asserts r c w value) (fun A => A.ori = .col ∧ A.Is r c (fun i j => if dist i j < w ∧ j < r then value else 0)) := by
  unfold bandMatrix
  have h0 : Sat ((Dense.new .col r c).fillAll (0 : R)) (fun A => A.dim = Dim.mk' r c ∧ A.ori = .col ∧ A.Is r c (fun _ _ => 0)) := by
    rw [Dense.fillAll_ok]
    refine Sat.ok ⟨rfl, rfl, ?_⟩
    have := Dense.is_mk (o := .col) (r := r) (c := c) (d := List.replicate (r * c) (some (0 : R))) (f := fun _ _ => 0) (by simp)
      (Dense.replicate_cells _ _ _ _)
    simpa [Dense.new] using this
  refine Sat.bind h0 ?_
  rintro A ⟨hd, ho, hA⟩
  refine Sat.mono (Sat.loop (fun b B => B.dim = Dim.mk' r c ∧ B.ori = .col ∧ B.Is r c (fun i j => if dist i j < b ∧ j < r then value else 0))
    ⟨hd, ho, hA.congr (by simp)⟩ ?_) (fun B h => ⟨h.2.1, h.2.2⟩)
  rintro b B hb ⟨hd', ho', hB⟩
  refine Sat.mono (bandDiag_sat asserts r c value b (by omega) hrc hr B _ hB hd') ?_
  rintro B' ⟨h1, h2, h3⟩
  refine ⟨h1, h2.trans ho', h3.congr ?_⟩
  intro i j _ _
  by_cases e1 : dist i j = b ∧ j < r
  · rw [if_pos e1, if_pos (by omega)]
  · rw [if_neg e1]
    by_cases e2 : dist i j < b ∧ j < r
    · rw [if_pos e2, if_pos (by omega)]
    · rw [if_neg e2, if_neg (by omega)]

/-- C54: for every dimension and every band width up to dimension + 1 the provider's matrix has the value exactly where
|i-j| is less than the band width and 0 elsewhere, with or without assertions.  (Outside the claim: larger band widths,
`C56_too_wide_is_wrong`, `C69_too_wide_band_is_ub`.) -/
theorem C54_band [Zero R] (asserts : Bool) (dim w : Nat) (value : R) (hw : w ≤ dim + 1) (hd : dim < 2 ^ 64) :
    ∃ A, bandSquare asserts dim w value = .ok A ∧
      A.Is dim dim (fun i j => if ((i : Int) - j).natAbs < w then value else 0) := by
  obtain ⟨A, hA, -, hi⟩ := bandMatrix_sat asserts dim dim w value hw (Nat.le_refl _) (by rw [sizeMod]; exact hd)
  refine ⟨A, hA, hi.congr ?_⟩
  intro i j hi' hj
  have : (dist i j < w ∧ j < dim) ↔ ((i : Int) - j).natAbs < w := by unfold dist; split <;> omega
  simp only [this]

/-- A loop one of whose first steps fails in every state it can be in. -/
theorem loopN_error {σ : Type} (f : Nat → σ → Res σ) (e : Fault) (I : σ → Prop) (hI : ∀ i s, I s → f i s = .error e ∨ ∃ s', f i s = .ok s' ∧ I s')
    (n i0 : Nat) (h0 : i0 < n) (hbad : ∀ s, I s → f i0 s = .error e) (s : σ) (hs : I s) : loopN n f s = .error e := by
  have key : ∀ m, (m ≤ i0 → loopN m f s = .error e ∨ ∃ s', loopN m f s = .ok s' ∧ I s') ∧ (i0 < m → loopN m f s = .error e) := by
    intro m
    induction m with
    | zero => exact ⟨fun _ => .inr ⟨s, rfl, hs⟩, fun h => absurd h (Nat.not_lt_zero _)⟩
    | succ m ih =>
      constructor
      · intro hm
        rcases ih.1 (by omega) with h | ⟨s', h, hi⟩
        · left; rw [loopN, h]; rfl
        · rcases hI m s' hi with h' | ⟨s'', h', hi'⟩
          · left; rw [loopN, h]; exact h'
          · right; exact ⟨s'', by rw [loopN, h]; exact h', hi'⟩
      · intro hm
        by_cases e1 : i0 < m
        · rw [loopN, ih.2 e1]; rfl
        · have : m = i0 := by omega
          subst this
          rcases ih.1 (Nat.le_refl _) with h | ⟨s', h, hi⟩
          · rw [loopN, h]; rfl
          · rw [loopN, h]; exact hbad s' hi
  exact (key n).2 h0

theorem loopN_first {σ : Type} {f : Nat → σ → Res σ} {e : Fault} {s : σ} (h : f 0 s = .error e) (n : Nat) : loopN (n + 1) f s = .error e := by
  induction n with
  | zero => exact h
  | succ n ih => rw [loopN, ih]; rfl

theorem loopN_prefix {σ : Type} {f : Nat → σ → Res σ} {e : Fault} {s : σ} {m : Nat} (h : loopN m f s = .error e) (n : Nat) (hmn : m ≤ n) :
    loopN n f s = .error e := by
  induction n with
  | zero =>
    have : m = 0 := by omega
    subst this; exact h
  | succ n ih =>
    by_cases hm : m = n + 1
    · subst hm; exact h
    · rw [loopN, ih (by omega)]; rfl

theorem loopN_last {σ : Type} {f : Nat → σ → Res σ} {e : Fault} {s a : σ} {m : Nat} (h : loopN m f s = .ok a) (h' : f m a = .error e) :
    loopN (m + 1) f s = .error e := by
  rw [loopN, h]; exact h'

theorem count_wraps' {dim M : Nat} (hd : dim + 1 < M) : ∃ n, (dim + M - (dim + 1)) % M = n + 1 ∧ dim ≤ n := by
  refine ⟨M - 2, ?_, by omega⟩
  rw [show dim + M - (dim + 1) = M - 1 by omega, Nat.mod_eq_of_lt (by omega)]
  omega

theorem count_wraps {dim : Nat} (hd : dim + 1 < sizeMod) : ∃ n, (dim + sizeMod - (dim + 1)) % sizeMod = n + 1 ∧ dim ≤ n :=
  count_wraps' hd

/-- The extra diagonal. -/
theorem bandMatrix_tooWide [Zero R] (asserts : Bool) (dim w : Nat) (value : R) (hw : dim + 1 < w) (hd : dim < sizeMod) (e : Fault)
    (h : ∀ A f, A.Is dim dim f → A.ori = .col → bandDiag asserts dim value (dim + 1) A = .error e) :
    bandSquare asserts dim w value = .error e := by
  unfold bandSquare bandMatrix
  obtain ⟨A, hA, ho, hi⟩ := bandMatrix_sat asserts dim dim (dim + 1) value (Nat.le_refl _) (Nat.le_refl _) hd
  unfold bandMatrix at hA
  have h' := h A _ hi ho
  clear h hi ho
  generalize bandDiag asserts dim value = g at *
  rw [Dense.fillAll_ok, bind_ok'] at hA ⊢
  refine loopN_prefix (m := dim + 2) ?_ w (by omega)
  exact loopN_last hA h'

/-- C56, negative: with a band width larger than dimension + 1 the construction of the provider fails: the loop bound
wraps and the first access of the extra diagonal violates an assertion … -/
theorem C56_too_wide_is_wrong [Zero R] (dim w : Nat) (value : R) (hw : dim + 1 < w) (hd : dim + 1 < 2 ^ 64) :
    bandSquare true dim w value = .error .assertFail := by
  have hd' : dim + 1 < sizeMod := by rw [sizeMod]; exact hd
  refine bandMatrix_tooWide true dim w value hw (by omega) _ ?_
  intro A f hA _
  unfold bandDiag
  obtain ⟨n, hn, -⟩ := count_wraps hd'
  rw [hn]
  refine loopN_first ?_ n
  unfold bandCell
  rw [Nat.zero_add, Nat.mod_eq_of_lt hd']
  have : setElem true A (dim + 1) 0 value = .error .assertFail := by
    have hr := hA.rows
    simp [setElem, Dense.set, View.set, Dense.view, View.plain, assertThat, hr]
  rw [this]; rfl

/-- … or, without assertions, the loop runs over the end of the array. -/
theorem C69_too_wide_band_is_ub [Zero R] (dim w : Nat) (value : R) (hw : dim + 1 < w) (hd : dim + 1 < 2 ^ 64) :
    bandSquare false dim w value = .error .ub := by
  have hd' : dim + 1 < sizeMod := by rw [sizeMod]; exact hd
  refine bandMatrix_tooWide false dim w value hw (by omega) _ ?_
  intro A f hA ho
  unfold bandDiag
  obtain ⟨n, hn, hdn⟩ := count_wraps hd'
  rw [hn]
  -- every store either fails or keeps the array length
  have hset : ∀ (B : Dense R) (i j : Nat), setElem false B i j value = .error .ub ∨
      ∃ B', setElem false B i j value = .ok B' ∧ B'.dim = B.dim ∧ B'.ori = B.ori ∧ B'.data.length = B.data.length := by
    intro B i j
    unfold setElem
    simp only [Bool.false_eq_true, if_false, Buf.write]
    by_cases h : B.view.pos i j < B.data.length
    · right
      rw [if_pos h]
      exact ⟨{ B with data := List.set B.data (B.view.pos i j) (some value) }, rfl, rfl, rfl, by simp⟩
    · left; rw [if_neg h]; rfl
  refine loopN_error _ .ub (fun B => B.dim = A.dim ∧ B.ori = A.ori ∧ B.data.length = A.data.length) ?_ (n + 1) dim (by omega) ?_ A ⟨rfl, rfl, rfl⟩
  · rintro i B ⟨h1, h2, h3⟩
    unfold bandCell
    rcases hset B ((i + (dim + 1)) % sizeMod) i with h | ⟨B', h, g1, g2, g3⟩
    · left; rw [h]; rfl
    · rw [h, bind_ok']
      rcases hset B' i ((i + (dim + 1)) % sizeMod) with h' | ⟨B'', h', k1, k2, k3⟩
      · exact .inl h'
      · exact .inr ⟨B'', h', k1.trans (g1.trans h1), k2.trans (g2.trans h2), k3.trans (g3.trans h3)⟩
  · rintro B ⟨h1, h2, h3⟩
    unfold bandCell
    have : setElem false B ((dim + (dim + 1)) % sizeMod) dim value = .error .ub := by
      unfold setElem
      simp only [Bool.false_eq_true, if_false, Buf.write]
      rw [if_neg]
      · rfl
      · rw [h3, hA.alloc]
        simp only [Dense.view, View.plain, View.pos, h2, ho, h1, hA.rows]
        omega
    rw [this]; rfl

/-- Non-vacuity: the 4×4 matrix of band width 2. -/
example : ∃ A, bandSquare true 4 2 (7 : Int) = .ok A ∧ A.Is 4 4 (fun i j => if ((i : Int) - j).natAbs < 2 then 7 else 0) :=
  C54_band true 4 2 7 (by decide) (by decide)

/-! ### C56 -/

/-- C56, square matrices: the generator writes the band exactly.  (Missing: rectangular matrices, where the claim is
false: `C56_wide_is_wrong`, `C56_tall_is_wrong`; band widths above rows + 1 as in C54.) -/
theorem C56_band_partial [Zero R] (asserts : Bool) (rows w : Nat) (value : R) (hw : w ≤ rows + 1) (hd : rows < 2 ^ 64) :
    ∃ A, bandMatrix asserts rows rows w value = .ok A ∧
      A.Is rows rows (fun i j => if ((i : Int) - j).natAbs < w then value else 0) :=
  C54_band asserts rows w value hw hd

/-- C56, wide matrices (at least as many columns as rows): what is really written is the band of the leading square
part only. -/
theorem C56_wide_partial [Zero R] (asserts : Bool) (rows cols w : Nat) (value : R) (hw : w ≤ rows + 1) (hc : rows ≤ cols) (hd : rows < 2 ^ 64) :
    ∃ A, bandMatrix asserts rows cols w value = .ok A ∧
      A.Is rows cols (fun i j => if ((i : Int) - j).natAbs < w ∧ j < rows then value else 0) := by
  obtain ⟨A, hA, -, hi⟩ := bandMatrix_sat asserts rows cols w value hw hc (by rw [sizeMod]; exact hd)
  refine ⟨A, hA, hi.congr ?_⟩
  intro i j hi' hj
  have : (dist i j < w ∧ j < rows) ↔ (((i : Int) - j).natAbs < w ∧ j < rows) := by unfold dist; split <;> omega
  simp only [this]

/-- C56, negative: whenever there are more columns than rows, at least one row and the band is at least two wide, the
element to the right of the square part is missing from the band. -/
theorem C56_wide_is_wrong [Zero R] (asserts : Bool) (rows cols w : Nat) (value : R) (hv : value ≠ 0) (hr : 0 < rows) (hw2 : 2 ≤ w) (hw : w ≤ rows + 1)
    (hc : rows < cols) (hd : rows < 2 ^ 64) :
    ∃ A, bandMatrix asserts rows cols w value = .ok A ∧ (((rows - 1 : Nat) : Int) - rows).natAbs < w ∧
      A.get (rows - 1) rows = .ok 0 ∧ value ≠ 0 := by
  obtain ⟨A, hA, hi⟩ := C56_wide_partial asserts rows cols w value hw (by omega) hd
  refine ⟨A, hA, by omega, ?_, hv⟩
  rw [hi.elems (rows - 1) rows (by omega) hc, if_neg (by omega)]

/-- C56, negative: with more rows than columns the generator violates an assertion. -/
theorem C56_tall_is_wrong [Zero R] (rows cols w : Nat) (value : R) (hw : 1 ≤ w) (hc : cols < rows) (hd : rows < 2 ^ 64) :
    bandMatrix true rows cols w value = .error .assertFail := by
  have hd' : rows < sizeMod := by rw [sizeMod]; exact hd
  unfold bandMatrix
  rw [Dense.fillAll_ok]
  simp only [bind_ok']
  refine loopN_prefix (m := 1) ?_ w hw
  rw [loopN, loopN, res_bind_ok]
  unfold bandDiag
  rw [Nat.sub_zero, Nat.add_mod_right, Nat.mod_eq_of_lt hd']
  have hA0 : ({ Dense.new (R := R) .col rows cols with data := List.replicate (Dense.new (R := R) .col rows cols).data.length (some 0) } : Dense R).Is
      rows cols (fun _ _ => 0) := by
    have := Dense.is_mk (o := .col) (r := rows) (c := cols) (d := List.replicate (rows * cols) (some (0 : R))) (f := fun _ _ => 0) (by simp)
      (Dense.replicate_cells _ _ _ _)
    simpa [Dense.new] using this
  generalize hg : ({ Dense.new (R := R) .col rows cols with data := List.replicate (Dense.new (R := R) .col rows cols).data.length (some 0) } : Dense R) = A0 at *
  have hdim0 : A0.dim = Dim.mk' rows cols := by rw [← hg]; rfl
  have hpre : Sat (loopN cols (bandCell true value 0) A0) (fun A => A.dim = Dim.mk' rows cols ∧ ∃ f, A.Is rows cols f) := by
    refine Sat.loop (fun _ (A : Dense R) => A.dim = Dim.mk' rows cols ∧ ∃ f, A.Is rows cols f) ⟨hdim0, _, hA0⟩ ?_
    rintro i B hi ⟨hdB, f, hB⟩
    unfold bandCell
    rw [Nat.add_zero, Nat.mod_eq_of_lt (by omega)]
    refine Sat.bind (setElem_is (asserts := true) (i := i) (j := i) (x := value) hB hdB (by omega) hi) ?_
    rintro B1 ⟨h1, hd1, -⟩
    refine Sat.mono (setElem_is (asserts := true) (i := i) (j := i) (x := value) h1 (hd1.trans hdB) (by omega) hi) ?_
    rintro B2 ⟨h2, hd2, -⟩
    exact ⟨hd2.trans (hd1.trans hdB), _, h2⟩
  obtain ⟨A, hA, hdA, f, hiA⟩ := hpre
  refine loopN_prefix (m := cols + 1) ?_ rows (by omega)
  rw [loopN, hA, res_bind_ok]
  unfold bandCell
  rw [Nat.add_zero, Nat.mod_eq_of_lt (by omega)]
  have : setElem true A cols cols value = .error .assertFail := by
    simp [setElem, Dense.set, View.set, Dense.view, View.plain, assertThat, hiA.rows, hiA.cols, hc]
  rw [this]; rfl

end BB.Provider
