import Verif.SpecOrient
import Verif.Props.Cross

/-!
# C62, exactly: operations that go through the arrays without looking at the orientation

For every combination of orientations and all sizes.
-/
namespace BB

variable {R : Type}

theorem reread_same (o : Ori) (r c : Nat) (f : Nat → Nat → R) : reread o o r c f = f := by
  funext i j; simp [reread]

/-- The same array under another orientation. -/
theorem Dense.Is.reread {A : Dense R} {r c : Nat} {f : Nat → Nat → R} (h : A.Is r c f) (o : Ori) :
    ({ A with ori := o } : Dense R).Is r c (reread A.ori o r c f) := by
  obtain ⟨ori, ⟨a, b, n⟩, d⟩ := A
  have h1 : a = r := h.rows
  have h2 : b = c := h.cols
  have h3 : n = r * c := h.size
  subst h1 h2 h3
  refine Dense.is_of_raw h.alloc fun t ht => ?_
  have := h.raw ht
  rw [Buf.read_ok.mp this]
  congr 2
  have hr : 0 < a := Nat.pos_of_ne_zero fun h0 => by simp [h0] at ht
  have hc : 0 < b := Nat.pos_of_ne_zero fun h0 => by simp [h0] at ht
  cases ori <;> cases o <;> simp only [Dense.unpos, BB.reread, reduceCtorEq, if_true, if_false]
  · rw [Nat.mul_comm, Nat.div_add_mod]
  · rw [Nat.mul_comm (t / a) a, Nat.mod_add_div]

theorem Dense.Is.reread_back {A : Dense R} {o : Ori} {r c : Nat} {f : Nat → Nat → R} (h : ({ A with ori := o } : Dense R).Is r c f) :
    A.Is r c (BB.reread o A.ori r c f) := h.reread A.ori

/-- C62, exactly when: whatever the matrix contains, reading its array in orientation `o'` instead of `o` shows the matrix if and only
if the orientations agree or the matrix has at most one row or at most one column. -/
theorem C62_reread_iff (o o' : Ori) (r c : Nat) :
    (∀ f : Nat → Nat → Nat, ∀ i j, i < r → j < c → reread o o' r c f i j = f i j) ↔ (o = o' ∨ r ≤ 1 ∨ c ≤ 1) := by
  constructor
  · intro h
    by_contra hc
    simp only [not_or, not_le] at hc
    obtain ⟨h1, h2, h3⟩ := hc
    cases o' with
    | col =>
      have := h (fun i _ => i) 1 0 (by omega) (by omega)
      simp only [reread, if_neg h1] at this
      rw [Nat.zero_mul, Nat.add_zero, Nat.div_eq_of_lt (by omega)] at this
      omega
    | row =>
      have := h (fun _ j => j) 0 1 (by omega) (by omega)
      simp only [reread, if_neg h1] at this
      rw [Nat.zero_mul, Nat.zero_add, Nat.div_eq_of_lt (by omega)] at this
      omega
  · intro h f i j hi hj
    unfold reread
    split
    · rfl
    · rename_i hne
      rcases h with h | h | h
      · exact absurd h hne
      · have hr : r = 1 := by omega
        have hi0 : i = 0 := by omega
        subst hr hi0
        cases o' <;> simp [Nat.mod_eq_of_lt hj, Nat.div_eq_of_lt hj, Nat.mod_one]
      · have hc : c = 1 := by omega
        have hj0 : j = 0 := by omega
        subst hc hj0
        cases o' <;> simp [Nat.mod_eq_of_lt hi, Nat.div_eq_of_lt hi, Nat.mod_one]

/-- C62: the native product for operands and results of any orientations: the arrays of the operands are read column by column,
whatever they are, and the array of the result is written column by column. -/
theorem C62_native_product_exact [Zero R] [Add R] [Mul R] (A B C : Dense R) (m k n : Nat) (f g : Nat → Nat → R) (hA : A.Is m k f)
    (hB : B.Is k n g) :
    ∃ D, Dense.mulGeneral A B C = .ok D ∧ D.ori = C.ori ∧
      D.Is m n (reread .col C.ori m n (dotSeq (reread A.ori .col m k f) (reread B.ori .col k n g) k)) := by
  obtain ⟨D, e, hDo, hD⟩ := Dense.mulGeneral_sat { C with ori := .col } (hA.reread .col) (hB.reread .col) rfl rfl rfl
  have key : Dense.mulGeneral A B C = (Dense.mulGeneral { A with ori := .col } { B with ori := .col } { C with ori := .col }).map
      (fun D => { D with ori := C.ori }) := by
    simp only [Dense.mulGeneral, Dense.resizeFill, Dense.resize, Dense.fillAll, Dense.fillBuf_ok, bind_ok', pure_ok']
    cases assertThat (A.dim.cols == B.dim.rows) with
    | error x => rfl
    | ok u =>
      simp only [bind_ok']
      generalize loopN B.dim.cols _ _ = L
      cases L <;> rfl
  rw [key, e]
  have := hD.reread C.ori
  rw [hDo] at this
  exact ⟨_, rfl, rfl, this⟩

/-- C62: the sum, difference, … for operands and results of any orientations: arrays are combined cell by cell. -/
theorem C62_sum_exact (op : R → R → R) (A B C : Dense R) (r c : Nat) (f g : Nat → Nat → R) (hA : A.Is r c f) (hB : B.Is r c g) :
    ∃ D, Dense.binop op A B C = .ok D ∧ D.ori = C.ori ∧
      D.Is r c (reread A.ori C.ori r c (fun i j => op (f i j) (reread B.ori A.ori r c g i j))) := by
  obtain ⟨D, e, hDo, hD⟩ := Dense.binop_sat op { C with ori := A.ori } hA (hB.reread A.ori) rfl rfl
  have key : Dense.binop op A B C = (Dense.binop op A { B with ori := A.ori } { C with ori := A.ori }).map
      (fun D => { D with ori := C.ori }) := by
    simp only [Dense.binop, Dense.resize]
    cases assertThat (A.dim.rows == B.dim.rows) with
    | error x => rfl
    | ok u =>
      cases assertThat (A.dim.cols == B.dim.cols) with
      | error x => rfl
      | ok u =>
        simp only [bind_ok']
        generalize ptrLoop 0 A.data.length 1 _ _ = L
        cases L <;> rfl
  rw [key, e]
  have := hD.reread C.ori
  rw [hDo] at this
  exact ⟨_, rfl, rfl, this⟩

/-- C62: the same for the in-place operations. -/
theorem C62_sum_assign_exact (op : R → R → R) (A B : Dense R) (r c : Nat) (f g : Nat → Nat → R) (hA : A.Is r c f) (hB : B.Is r c g) :
    ∃ D, Dense.binassign op A B = .ok D ∧ D.ori = A.ori ∧ D.Is r c (fun i j => op (f i j) (reread B.ori A.ori r c g i j)) :=
  Dense.binassign_sat op (B := { B with ori := A.ori }) hA (hB.reread A.ori) rfl

/-- C62: `equal` for any orientations compares with the array of the second matrix as if it were stored like the first. -/
theorem C62_equal_exact [LinearOrder R] [AddCommGroup R] (a1 a2 : R) (A B : Dense R) (r c r' c' : Nat) (f g : Nat → Nat → R)
    (hA : A.Is r c f) (hB : B.Is r' c' g) :
    ∃ b, A.equal a1 a2 B = .ok b ∧
      (b = true ↔ r = r' ∧ c = c' ∧ ∀ i j, i < r → j < c → |f i j - reread B.ori A.ori r' c' g i j| ≤ max a1 a2) :=
  C48_dense a1 a2 A { B with ori := A.ori } r c r' c' f _ hA (hB.reread A.ori) rfl

/-- C62: so does the maximal deviation … -/
theorem C62_max_deviation_exact (A B : Dense ℝ) (r c : Nat) (f g : Nat → Nat → ℝ) (hA : A.Is r c f) (hB : B.Is r c g) :
    ∃ m, A.maxDeviation B = .ok m ∧ (∀ i j, i < r → j < c → |f i j - reread B.ori A.ori r c g i j| ≤ m) ∧
      ((r * c = 0 ∧ m = 0) ∨ ∃ i j, i < r ∧ j < c ∧ |f i j - reread B.ori A.ori r c g i j| = m) := by
  obtain ⟨m, e, h1, h2, -⟩ := C45_max A { B with ori := A.ori } r c f _ hA (hB.reread A.ori) rfl
  exact ⟨m, e, h1, h2⟩

/-- … and the root mean square deviation. -/
theorem C62_rms_deviation_exact (A B : Dense ℝ) (r c : Nat) (f g : Nat → Nat → ℝ) (hA : A.Is r c f) (hB : B.Is r c g) (hne : 0 < r * c) :
    ∃ x, A.rmsDeviation B = .ok (some x) ∧ 0 ≤ x ∧
      x ^ 2 = (∑ i ∈ Finset.range r, ∑ j ∈ Finset.range c, (f i j - reread B.ori A.ori r c g i j) ^ 2) / ((r * c : Nat) : ℝ) := by
  obtain ⟨x, e, h1, h2, -⟩ := C45_rms A { B with ori := A.ori } r c f _ hA (hB.reread A.ori) rfl hne
  exact ⟨x, e, h1, h2⟩

/-- C62: loading what a matrix of another orientation saved. -/
theorem C62_load_exact (A B : Dense R) (r c : Nat) (f : Nat → Nat → R) (hA : A.Is r c f) (rest : Archive R) :
    ∃ ar B', A.save = .ok ar ∧ B.load (ar ++ rest) = (B', .ok rest) ∧ B'.ori = B.ori ∧ B'.Is r c (reread A.ori B.ori r c f) := by
  obtain ⟨ar, h1, h2⟩ := Dense.load_save (B := B) hA rest
  exact ⟨ar, _, h1, h2, rfl, hA.reread B.ori⟩

/-- C62: what reading in the wrong orientation means for square matrices: they appear transposed. -/
theorem C62_square_is_transposed (o o' : Ori) (ho : o ≠ o') (n : Nat) (f : Nat → Nat → R) (i j : Nat) (hi : i < n) (hj : j < n) :
    reread o o' n n f i j = f j i := by
  have hn : 0 < n := by omega
  unfold reread
  rw [if_neg ho]
  cases o' with
  | col => simp only; rw [Nat.add_mul_div_right _ _ hn, Nat.add_mul_mod_self_right, Nat.div_eq_of_lt hi, Nat.mod_eq_of_lt hi, Nat.zero_add]
  | row => simp only; rw [Nat.add_comm, Nat.add_mul_div_right _ _ hn, Nat.add_mul_mod_self_right, Nat.div_eq_of_lt hj, Nat.mod_eq_of_lt hj, Nat.zero_add]

/-- A concrete case: a 2×3 matrix stored by rows, read by columns. -/
example : (List.range 2).map (fun i => (List.range 3).map (fun j => reread .row .col 2 3 (fun i j => 10 * i + j) i j)) =
    [[0, 2, 11], [1, 10, 12]] := rfl

end BB
