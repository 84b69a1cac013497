import Verif.Props.FileIO
import Verif.Props.Cross
import Verif.Props.Spare

/-!
# C70, exactly: which windows are accepted, and what the target holds afterwards, for files of any length
-/

namespace BB.FileIO

variable {R : Type}

theorem read_any (d : List R) (pos n : Nat) : ∃ st, (⟨d, pos, false⟩ : Stream R).read n = (st, (d.drop pos).take n) ∧
    (pos + n ≤ d.length ∨ n = 0 → st = ⟨d, pos + n, false⟩) ∧ (¬ (pos + n ≤ d.length ∨ n = 0) → st.fail = true) := by
  unfold Stream.read
  rw [if_neg (by simp)]
  by_cases h : pos + n ≤ d.length ∨ n = 0
  · have : ((d.drop pos).take n).length = n := by rw [List.length_take, List.length_drop]; omega
    exact ⟨_, by simp only [this, if_true], fun _ => rfl, fun h' => absurd h h'⟩
  · have : ((d.drop pos).take n).length ≠ n := by rw [List.length_take, List.length_drop]; omega
    exact ⟨⟨d, d.length, true⟩, by simp only [if_neg this], fun h' => absurd h' h, fun _ => rfl⟩

/-- What a read of the file puts in a cell that is read from position `p`: the element there, if the file has one. -/
def got (data : List R) (p : Nat) (old : Option (Option R)) : Option (Option R) :=
  if p < data.length then some data[p]? else old

theorem readBody_any (s : Settings) (data : List R) (b : Buf R) (hfit : s.Fits) (hb : b.length = s.nbRows * s.nbCols) :
    ∃ b', readBody s data b = .ok b' ∧ b'.length = b.length ∧ ∀ i j, i < s.nbRows → j < s.nbCols →
      b'[j * s.nbRows + i]? = got data ((s.colOffset + j) * s.rowLD + (s.rowOffset + i)) b[j * s.nbRows + i]? := by
  obtain ⟨hr, hc⟩ := hfit
  unfold readBody
  by_cases hfull : s.nbCols = s.colLD ∧ s.nbRows = s.rowLD
  · have hro : s.rowOffset = 0 := by omega
    have hco : s.colOffset = 0 := by omega
    rw [if_pos hfull]
    obtain ⟨st, e, -, -⟩ := read_any data 0 (s.nbRows * s.nbCols)
    rw [e]
    have hl : ((data.drop 0).take (s.nbRows * s.nbCols)).length ≤ s.nbRows * s.nbCols := List.length_take_le _ _
    obtain ⟨b', h1, h2, h3⟩ := writeAt_ok b 0 ((data.drop 0).take (s.nbRows * s.nbCols)) (by omega)
    refine ⟨b', h1, h2, fun i j hi hj => ?_⟩
    have hlt : j * s.nbRows + i < s.nbRows * s.nbCols := by
      have : (j + 1) * s.nbRows ≤ s.nbCols * s.nbRows := Nat.mul_le_mul_right _ hj
      rw [Nat.mul_comm s.nbRows s.nbCols, Nat.succ_mul] at *
      omega
    rw [h3]
    simp only [got, hro, hco, Nat.zero_add, ← hfull.2, List.drop_zero, List.length_take, Nat.sub_zero, Nat.zero_le, true_and]
    by_cases hd : j * s.nbRows + i < data.length
    · rw [if_pos (by omega), if_pos hd, List.getElem?_take, if_pos hlt]
    · rw [if_neg (by omega), if_neg hd]
  · rw [if_neg hfull]
    have key := loopN_spec (n := s.nbCols)
      (f := fun _ => readColumn s)
      (s := ((⟨data, 0, false⟩ : Stream R).skip (s.colOffset * s.rowLD + s.rowOffset), b, 0))
      (fun k x => (x.1 = ⟨data, (s.colOffset + k) * s.rowLD + s.rowOffset, false⟩ ∨
          (x.1.fail = true ∧ data.length < (s.colOffset + k) * s.rowLD + s.rowOffset)) ∧
        x.2.2 = k * s.nbRows ∧ x.2.1.length = b.length ∧
        (∀ i j, i < s.nbRows → j < k → x.2.1[j * s.nbRows + i]? = got data ((s.colOffset + j) * s.rowLD + (s.rowOffset + i)) b[j * s.nbRows + i]?) ∧
        ∀ p, k * s.nbRows ≤ p → x.2.1[p]? = b[p]?)
      ⟨Or.inl (by simp [Stream.skip]), by simp, rfl, fun i j _ hj => absurd hj (Nat.not_lt_zero j), fun _ _ => rfl⟩
      (by
        rintro k ⟨st, c, p⟩ hk ⟨hst, hp, hlc, hcells, hrest⟩
        simp only at hst hp hlc hcells hrest
        subst hp
        have hnext : (s.colOffset + (k + 1)) * s.rowLD = (s.colOffset + k) * s.rowLD + s.rowLD := by
          rw [show s.colOffset + (k + 1) = s.colOffset + k + 1 from by omega, Nat.succ_mul]
        have hkk : k * s.nbRows + s.nbRows ≤ b.length := by
          have : (k + 1) * s.nbRows ≤ s.nbCols * s.nbRows := Nat.mul_le_mul_right _ hk
          rw [Nat.succ_mul, Nat.mul_comm s.nbCols] at this
          omega
        have hold : ∀ i j, j < k → i < s.nbRows → j * s.nbRows + i < k * s.nbRows := by
          intro i j hj hi
          have : (j + 1) * s.nbRows ≤ k * s.nbRows := Nat.mul_le_mul_right _ hj
          rw [Nat.succ_mul] at this
          omega
        rcases hst with rfl | ⟨hst, hlt⟩
        · obtain ⟨st, e, e1, e2⟩ := read_any data ((s.colOffset + k) * s.rowLD + s.rowOffset) s.nbRows
          have hl : ((data.drop ((s.colOffset + k) * s.rowLD + s.rowOffset)).take s.nbRows).length =
            min s.nbRows (data.length - ((s.colOffset + k) * s.rowLD + s.rowOffset)) := by rw [List.length_take, List.length_drop]
          obtain ⟨b', h1, h2, h3⟩ := writeAt_ok c (k * s.nbRows)
            ((data.drop ((s.colOffset + k) * s.rowLD + s.rowOffset)).take s.nbRows) (by rw [hl]; omega)
          simp only [readColumn, e, h1, bind_ok']
          refine ⟨_, rfl, ?_, ?_, ?_, ?_, ?_⟩
          · by_cases hs : (s.colOffset + k) * s.rowLD + s.rowOffset + s.nbRows ≤ data.length ∨ s.nbRows = 0
            · left
              rw [e1 hs]
              simp only [Stream.skip, Bool.false_eq_true, if_false]
              congr 1
              omega
            · right
              have := e2 hs
              refine ⟨by simp [Stream.skip, this], ?_⟩
              omega
          · simp only; rw [Nat.succ_mul]
          · simp only; omega
          · intro i j hi hj
            simp only
            rw [h3, hl]
            by_cases hjk : j = k
            · subst hjk
              simp only [got]
              rw [hrest _ (by omega)]
              by_cases hd : (s.colOffset + j) * s.rowLD + (s.rowOffset + i) < data.length
              · rw [if_pos (by omega), if_pos hd, show j * s.nbRows + i - j * s.nbRows = i from by omega, List.getElem?_take, if_pos hi, List.getElem?_drop]
                congr 2
                omega
              · rw [if_neg (by omega), if_neg hd]
            · have := hold i j (by omega) hi
              rw [if_neg (by omega)]
              exact hcells i j hi (by omega)
          · intro p hp
            rw [Nat.succ_mul] at hp
            simp only
            rw [h3, if_neg (by rw [hl]; omega)]
            exact hrest p (by omega)
        · have e : st.read s.nbRows = (st, []) := by unfold Stream.read; rw [if_pos hst]
          simp only [readColumn, e, writeAt, bind_ok']
          refine ⟨_, rfl, ?_, ?_, ?_, ?_, ?_⟩
          · right
            exact ⟨by simp [Stream.skip, hst], by omega⟩
          · simp only; rw [Nat.succ_mul]
          · exact hlc
          · intro i j hi hj
            simp only
            by_cases hjk : j = k
            · subst hjk
              rw [hrest _ (by omega), got, if_neg (by omega)]
            · exact hcells i j hi (by omega)
          · intro p hp
            rw [Nat.succ_mul] at hp
            exact hrest p (by omega))
    obtain ⟨⟨st, b', p⟩, h1, -, -, h4, h5, -⟩ := key
    refine ⟨b', ?_, h4, h5⟩
    simp only [h1, bind_ok', pure_ok']

theorem read_length (st : Stream R) (n : Nat) : (st.read n).2.length ≤ n := by
  unfold Stream.read
  split
  · simp
  · dsimp only
    split <;> exact List.length_take_le _ _

theorem readBody_returns (s : Settings) (data : List R) (b : Buf R) (hb : b.length = s.nbRows * s.nbCols) : ∃ b', readBody s data b = .ok b' := by
  unfold readBody
  dsimp only
  split
  · have := read_length (⟨data, 0, false⟩ : Stream R) (s.nbRows * s.nbCols)
    obtain ⟨b', e, -⟩ := writeAt_ok b 0 ((⟨data, 0, false⟩ : Stream R).read (s.nbRows * s.nbCols)).2 (by omega)
    exact ⟨b', e⟩
  · obtain ⟨x, e, -⟩ := loopN_spec (n := s.nbCols) (f := fun _ => readColumn s)
      (s := ((⟨data, 0, false⟩ : Stream R).skip (s.colOffset * s.rowLD + s.rowOffset), b, 0))
      (fun k x => x.2.2 = k * s.nbRows ∧ x.2.1.length = b.length) ⟨by simp, rfl⟩ (by
        rintro k ⟨st, c, p⟩ hk ⟨hp, hl⟩
        simp only at hp hl
        subst hp
        have hkk : k * s.nbRows + s.nbRows ≤ b.length := by
          have : (k + 1) * s.nbRows ≤ s.nbCols * s.nbRows := Nat.mul_le_mul_right _ hk
          rw [Nat.succ_mul, Nat.mul_comm s.nbCols] at this
          omega
        have := read_length st s.nbRows
        obtain ⟨b', e, h2, -⟩ := writeAt_ok c (k * s.nbRows) (st.read s.nbRows).2 (by omega)
        simp only [readColumn, e, bind_ok']
        exact ⟨_, rfl, by simp only; rw [Nat.succ_mul], h2.trans hl⟩)
    rw [e]
    exact ⟨_, rfl⟩

/-- C70, acceptance, exactly: reading a window succeeds if the file exists and the sums of sizes and offsets, reduced modulo
2^64, do not exceed the leading dimensions, and is reported by an exception in all other cases – whatever the file holds,
however short it is. -/
theorem C70_window_accepted_iff (s : Settings) (file : Option (List R)) (A : Dense R) :
    ((readWindow s file A).2 = .ok () ↔
      file ≠ none ∧ (s.nbRows + s.rowOffset) % 2 ^ 64 ≤ s.rowLD ∧ (s.nbCols + s.colOffset) % 2 ^ 64 ≤ s.colLD) ∧
    ((readWindow s file A).2 = .ok () ∨ ∃ m, (readWindow s file A).2 = .error (.throw m)) := by
  unfold readWindow
  dsimp only
  rw [show sizeMod = 2 ^ 64 from rfl]
  split
  · rename_i h
    exact ⟨⟨fun h => (nomatch h), fun ⟨_, h1, _⟩ => absurd h (by omega)⟩, Or.inr ⟨_, rfl⟩⟩
  split
  · rename_i h
    exact ⟨⟨fun h => (nomatch h), fun ⟨_, _, h1⟩ => absurd h (by omega)⟩, Or.inr ⟨_, rfl⟩⟩
  rename_i h1 h2
  cases file with
  | none => exact ⟨⟨fun h => (nomatch h), fun ⟨h, _⟩ => absurd rfl h⟩, Or.inr ⟨_, rfl⟩⟩
  | some data =>
    obtain ⟨b, e⟩ := readBody_returns s data (A.resize s.nbRows s.nbCols).data (by simp [Dense.resize, Dense.length_resizeBuf])
    dsimp only
    rw [e]
    exact ⟨⟨fun _ => ⟨by simp, by omega, by omega⟩, fun _ => rfl⟩, Or.inl rfl⟩

/-- C70, so: the windows that are accepted although they do not fit are those with a sum that wraps and what remains of
it fits. -/
theorem C70_wrapped_window_accepted_iff (s : Settings) (data : List R) (A : Dense R) (hr : s.nbRows < 2 ^ 64 ∧ s.rowOffset < 2 ^ 64)
    (hc : s.nbCols < 2 ^ 64 ∧ s.colOffset < 2 ^ 64) (hsm : s.Small) :
    (readWindow s (some data) A).2 = .ok () ↔
      (s.nbRows + s.rowOffset ≤ s.rowLD ∨ (2 ^ 64 ≤ s.nbRows + s.rowOffset ∧ s.nbRows + s.rowOffset - 2 ^ 64 ≤ s.rowLD)) ∧
      (s.nbCols + s.colOffset ≤ s.colLD ∨ (2 ^ 64 ≤ s.nbCols + s.colOffset ∧ s.nbCols + s.colOffset - 2 ^ 64 ≤ s.colLD)) := by
  rw [(C70_window_accepted_iff s (some data) A).1]
  obtain ⟨hs1, hs2⟩ := hsm
  have wrap : ∀ x ld : Nat, x < 2 ^ 65 → ld < 2 ^ 64 → (x % 2 ^ 64 ≤ ld ↔ x ≤ ld ∨ (2 ^ 64 ≤ x ∧ x - 2 ^ 64 ≤ ld)) := by
    intro x ld hx hl
    omega
  rw [wrap _ _ (by omega) hs1, wrap _ _ (by omega) hs2]
  simp

/-- C70, contents, exactly: after reading a window that fits from a file of any length, element (i,j) of the (column-major)
target is the element of the file at the position of (rowOffset+i, colOffset+j), if the file is long enough to have one;
otherwise the cell is what `resize` left there, and nothing is reported. -/
theorem C70_window_exact (s : Settings) (data : List R) (A : Dense R) (hfit : s.Fits) (hsm : s.Small) :
    ∃ B, readWindow s (some data) A = (B, .ok ()) ∧ B.ori = A.ori ∧ B.dim = Dim.mk' s.nbRows s.nbCols ∧ B.data.length = s.nbRows * s.nbCols ∧
      ∀ i j, i < s.nbRows → j < s.nbCols → B.data[j * s.nbRows + i]? =
        if (s.colOffset + j) * s.rowLD + (s.rowOffset + i) < data.length then some data[(s.colOffset + j) * s.rowLD + (s.rowOffset + i)]?
        else (A.resize s.nbRows s.nbCols).data[j * s.nbRows + i]? := by
  have hlenA : (A.resize s.nbRows s.nbCols).data.length = s.nbRows * s.nbCols := by
    simp [Dense.resize, Dense.length_resizeBuf]
  obtain ⟨b, h1, h2, h3⟩ := readBody_any s data (A.resize s.nbRows s.nbCols).data hfit hlenA
  obtain ⟨hf1, hf2⟩ := hfit
  obtain ⟨hs1, hs2⟩ := hsm
  refine ⟨{ A.resize s.nbRows s.nbCols with data := b }, ?_, rfl, rfl, h2.trans hlenA, h3⟩
  unfold readWindow
  simp only
  rw [if_neg, if_neg, h1]
  · rw [sizeMod, Nat.mod_eq_of_lt (by omega)]; omega
  · rw [sizeMod, Nat.mod_eq_of_lt (by omega)]; omega

/-- C70, so: the window read from a file into a new matrix is complete exactly if the file reaches to its last element. -/
theorem C70_window_complete_iff (s : Settings) (data : List R) (hfit : s.Fits) (hsm : s.Small) (hr : 0 < s.nbRows) (hc : 0 < s.nbCols) :
    (∃ B f, readWindow s (some data) (Dense.empty .col) = (B, .ok ()) ∧ B.Is s.nbRows s.nbCols f) ↔
      (s.colOffset + (s.nbCols - 1)) * s.rowLD + (s.rowOffset + (s.nbRows - 1)) < data.length := by
  obtain ⟨B, e, ho, hd, hl, h⟩ := C70_window_exact s data (Dense.empty .col) hfit hsm
  obtain ⟨o, d, b⟩ := B
  simp only at ho hd hl h
  subst ho hd
  have hlast : (s.nbCols - 1) * s.nbRows + (s.nbRows - 1) < s.nbRows * s.nbCols := by
    have : (s.nbCols - 1 + 1) * s.nbRows ≤ s.nbCols * s.nbRows := Nat.mul_le_mul_right _ (by omega)
    rw [Nat.succ_mul, Nat.mul_comm s.nbCols] at this
    omega
  constructor
  · rintro ⟨B', f, e', hB⟩
    rw [e] at e'; cases e'
    by_contra hn
    have h1 := h (s.nbRows - 1) (s.nbCols - 1) (by omega) (by omega)
    rw [if_neg hn] at h1
    have h2 := hB.raw (t := (s.nbCols - 1) * s.nbRows + (s.nbRows - 1)) hlast
    have h3 : ((Dense.empty .col : Dense R).resize s.nbRows s.nbCols).data[(s.nbCols - 1) * s.nbRows + (s.nbRows - 1)]? = some none := by
      simp only [Dense.resize, Dense.empty]
      exact resizeBuf_fresh _ _ _ (by simp only [List.length_nil]; omega) hlast
    rw [h3] at h1
    simp only [Buf.read, h1] at h2
    cases h2
  · intro hlt
    refine ⟨_, fun i j => (data[(s.colOffset + j) * s.rowLD + (s.rowOffset + i)]?).getD (data[0]'(by omega)), e, Dense.is_mk hl ?_⟩
    intro i j hi hj
    have hi : i < s.nbRows := hi
    have hj : j < s.nbCols := hj
    have hp : (s.colOffset + j) * s.rowLD + (s.rowOffset + i) < data.length := by
      have : (s.colOffset + j) * s.rowLD ≤ (s.colOffset + (s.nbCols - 1)) * s.rowLD := Nat.mul_le_mul_right _ (by omega)
      omega
    have h1 := h i j hi hj
    rw [if_pos hp] at h1
    show b[0 + (i + j * s.nbRows)]? = _
    rw [show 0 + (i + j * s.nbRows) = j * s.nbRows + i by omega, h1]
    simp [hp]

/-- A 2×1 window at (1,1) of a 3×2 matrix, in a file with five of its six elements: accepted, the last element is missing. -/
example : (readWindow ⟨2, 1, 3, 2, 1, 1⟩ (some [1, 2, 3, 4, 5]) (Dense.empty .col) : Dense Int × Res Unit) =
    (⟨.col, Dim.mk' 2 1, [some 5, none]⟩, .ok ()) := by rfl

end BB.FileIO
