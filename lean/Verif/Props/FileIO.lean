import Verif.Model.FileIO
import Verif.Lemmas.Dense
import Mathlib.Tactic.IntervalCases

/-!
# C42: reading matrix files
-/

namespace BB.FileIO

variable {R : Type}

theorem writeAt_ok (b : Buf R) (p : Nat) (vs : List R) (h : p + vs.length ≤ b.length) :
    ∃ b', writeAt b p vs = .ok b' ∧ b'.length = b.length ∧
      ∀ i, b'[i]? = if p ≤ i ∧ i < p + vs.length then some (vs[i - p]?) else b[i]? := by
  induction vs generalizing b p with
  | nil =>
    refine ⟨b, rfl, rfl, fun i => ?_⟩
    rw [if_neg (by simp)]
  | cons v vs ih =>
    rw [List.length_cons] at h
    have hp : p < b.length := by omega
    obtain ⟨b', h1, h2, h3⟩ := ih (b.set p (some v)) (p + 1) (by rw [List.length_set]; omega)
    refine ⟨b', ?_, by rw [h2, List.length_set], fun i => ?_⟩
    · rw [writeAt, Buf.write, if_pos hp]; exact h1
    · rw [h3, List.length_cons]
      by_cases e : i = p
      · subst e
        rw [if_neg (by omega), if_pos (by omega), List.getElem?_set_self hp]
        simp
      · by_cases hin : p + 1 ≤ i ∧ i < p + 1 + vs.length
        · rw [if_pos hin, if_pos (by omega)]
          obtain ⟨k, rfl⟩ : ∃ k, i = p + 1 + k := ⟨i - (p + 1), by omega⟩
          rw [show p + 1 + k - (p + 1) = k from by omega, show p + 1 + k - p = k + 1 from by omega, List.getElem?_cons_succ]
        · rw [if_neg hin, if_neg (by omega), List.getElem?_set_ne (by omega)]

theorem read_enough (d : List R) (pos n : Nat) (h : pos + n ≤ d.length) :
    (⟨d, pos, false⟩ : Stream R).read n = (⟨d, pos + n, false⟩, (d.drop pos).take n) := by
  unfold Stream.read
  rw [if_neg (by simp)]
  have : ((d.drop pos).take n).length = n := by rw [List.length_take, List.length_drop]; omega
  simp only [this, if_true]

/-- The window described by the settings lies inside the rectangle of the leading dimensions. -/
def Settings.Fits (s : Settings) : Prop := s.rowOffset + s.nbRows ≤ s.rowLD ∧ s.colOffset + s.nbCols ≤ s.colLD

/-- All settings are `size_t` values. -/
def Settings.Small (s : Settings) : Prop := s.rowLD < 2 ^ 64 ∧ s.colLD < 2 ^ 64


/-- Column-major position of element (i,j) in a file with `ld` elements per column. -/
def fileElem (data : List R) (ld i j : Nat) : Option R := data[j * ld + i]?

theorem readBody_ok (s : Settings) (data : List R) (b : Buf R) (hfit : s.Fits) (hlen : s.rowLD * s.colLD ≤ data.length)
    (hb : b.length = s.nbRows * s.nbCols) :
    ∃ b', readBody s data b = .ok b' ∧ b'.length = b.length ∧
      ∀ i j, i < s.nbRows → j < s.nbCols → b'[j * s.nbRows + i]? = some (fileElem data s.rowLD (s.rowOffset + i) (s.colOffset + j)) := by
  obtain ⟨hr, hc⟩ := hfit
  unfold readBody
  by_cases hfull : s.nbCols = s.colLD ∧ s.nbRows = s.rowLD
  · have hro : s.rowOffset = 0 := by omega
    have hco : s.colOffset = 0 := by omega
    have hn : 0 + s.nbRows * s.nbCols ≤ data.length := by rw [hfull.1, hfull.2]; omega
    rw [if_pos hfull, read_enough data 0 _ hn]
    have hl : ((data.drop 0).take (s.nbRows * s.nbCols)).length = s.nbRows * s.nbCols := by
      rw [List.length_take, List.length_drop]; omega
    obtain ⟨b', h1, h2, h3⟩ := writeAt_ok b 0 ((data.drop 0).take (s.nbRows * s.nbCols)) (by rw [hl]; omega)
    refine ⟨b', h1, h2, fun i j hi hj => ?_⟩
    have hlt : j * s.nbRows + i < s.nbRows * s.nbCols := by
      have : (j + 1) * s.nbRows ≤ s.nbCols * s.nbRows := Nat.mul_le_mul_right _ hj
      rw [Nat.mul_comm s.nbRows s.nbCols, Nat.succ_mul] at *
      omega
    rw [h3, if_pos ⟨by omega, by rw [hl]; omega⟩]
    rw [List.getElem?_take, if_pos (by omega)]
    simp [fileElem, hro, hco, hfull.2]
  · rw [if_neg hfull]
    have key := loopN_spec (n := s.nbCols)
      (f := fun _ => readColumn s)
      (s := ((⟨data, 0, false⟩ : Stream R).skip (s.colOffset * s.rowLD + s.rowOffset), b, 0))
      (fun k x => x.1 = ⟨data, (s.colOffset + k) * s.rowLD + s.rowOffset, false⟩ ∧ x.2.2 = k * s.nbRows ∧ x.2.1.length = b.length ∧
        ∀ i j, i < s.nbRows → j < k → x.2.1[j * s.nbRows + i]? = some (fileElem data s.rowLD (s.rowOffset + i) (s.colOffset + j)))
      ⟨by simp [Stream.skip], by simp, rfl, fun i j _ hj => absurd hj (Nat.not_lt_zero j)⟩
      (by
        rintro k ⟨st, c, p⟩ hk ⟨hst, hp, hlc, hcells⟩
        simp only at hst hp hlc hcells
        subst hst hp
        have hend : (s.colOffset + k) * s.rowLD + s.rowOffset + s.nbRows ≤ data.length := by
          have : (s.colOffset + k + 1) * s.rowLD ≤ s.colLD * s.rowLD := Nat.mul_le_mul_right _ (by omega)
          rw [Nat.succ_mul, Nat.mul_comm s.colLD] at this
          omega
        have hl : ((data.drop ((s.colOffset + k) * s.rowLD + s.rowOffset)).take s.nbRows).length = s.nbRows := by
          rw [List.length_take, List.length_drop]; omega
        have hkk : k * s.nbRows + s.nbRows ≤ b.length := by
          have : (k + 1) * s.nbRows ≤ s.nbCols * s.nbRows := Nat.mul_le_mul_right _ hk
          rw [Nat.succ_mul, Nat.mul_comm s.nbCols] at this
          omega
        obtain ⟨b', h1, h2, h3⟩ := writeAt_ok c (k * s.nbRows)
          ((data.drop ((s.colOffset + k) * s.rowLD + s.rowOffset)).take s.nbRows) (by rw [hl]; omega)
        simp only [readColumn, read_enough data _ _ hend, h1, bind_ok']
        refine ⟨_, rfl, ?_, ?_, ?_, ?_⟩
        · simp only [Stream.skip, Bool.false_eq_true, if_false]
          congr 1
          rw [show s.colOffset + (k + 1) = s.colOffset + k + 1 from by omega, Nat.succ_mul]
          omega
        · simp only; rw [Nat.succ_mul]
        · simp only; omega
        · intro i j hi hj
          simp only
          rw [h3, hl]
          by_cases hjk : j = k
          · subst hjk
            rw [if_pos (by omega), show j * s.nbRows + i - j * s.nbRows = i from by omega, List.getElem?_take, if_pos hi,
              List.getElem?_drop]
            simp only [fileElem]
            congr 2
            omega
          · have hjk' : j < k := by omega
            have : (j + 1) * s.nbRows ≤ k * s.nbRows := Nat.mul_le_mul_right _ hjk'
            rw [Nat.succ_mul] at this
            rw [if_neg (by omega)]
            exact hcells i j hi hjk')
    obtain ⟨⟨st, b', p⟩, h1, -, -, h4, h5⟩ := key
    refine ⟨b', ?_, h4, h5⟩
    simp only [h1, bind_ok', pure_ok']

/-- The binary file holds the `ldR` × `ldC` matrix `f` column by column. -/
def Holds (data : List R) (ldR ldC : Nat) (f : Nat → Nat → R) : Prop :=
  data.length = ldR * ldC ∧ ∀ i j, i < ldR → j < ldC → data[j * ldR + i]? = some (f i j)

/-- C42, reading: for every file that holds a rowLD × colLD matrix `f` column by column, every window that fits and
every target object of the default (column-major) orientation, whatever it held before: the call succeeds and the
target is the nbRows × nbCols matrix with element (i,j) = f (rowOffset+i) (colOffset+j).
(Outside the claim: row-major targets, `C62_file_window_is_wrong`; shorter files, `C70_short_file_is_silent`.) -/
theorem C42_window (s : Settings) (data : List R) (f : Nat → Nat → R) (A : Dense R) (hfit : s.Fits) (hsm : s.Small)
    (hfile : Holds data s.rowLD s.colLD f) (ho : A.ori = .col) :
    ∃ B : Dense R, readWindow s (some data) A = (B, .ok ()) ∧
      B.Is s.nbRows s.nbCols (fun i j => f (s.rowOffset + i) (s.colOffset + j)) := by
  have hlenA : (A.resize s.nbRows s.nbCols).data.length = s.nbRows * s.nbCols := by
    simp [Dense.resize, Dense.length_resizeBuf]
  obtain ⟨b, h1, h2, h3⟩ := readBody_ok s data (A.resize s.nbRows s.nbCols).data hfit (Nat.le_of_eq hfile.1.symm) hlenA
  obtain ⟨hf1, hf2⟩ := hfit
  obtain ⟨hs1, hs2⟩ := hsm
  refine ⟨{ A.resize s.nbRows s.nbCols with data := b }, ?_, ?_⟩
  · unfold readWindow
    simp only
    rw [if_neg, if_neg, h1]
    · rw [sizeMod, Nat.mod_eq_of_lt (by omega)]; omega
    · rw [sizeMod, Nat.mod_eq_of_lt (by omega)]; omega
  · refine Dense.is_of_cells rfl rfl rfl (h2.trans hlenA) ?_
    intro i j hi hj
    have hi' : i < s.nbRows := hi
    have hj' : j < s.nbCols := hj
    have e := h3 i j hi' hj'
    rw [fileElem, hfile.2 _ _ (by omega) (by omega)] at e
    show b[0 + (View.plain A.ori s.nbRows s.nbCols).pos i j]? = _
    rw [ho]
    simp only [View.pos, View.plain]
    rw [Nat.zero_add, Nat.add_comm]
    exact e

/-- C42, rejection: a window that does not fit (with sums representable in `size_t`) is rejected by an exception
whatever the file, present or not, and nothing is read: the target is what `resize` alone leaves. -/
theorem C42_rejected (s : Settings) (file : Option (List R)) (A : Dense R) (hfit : ¬ s.Fits)
    (hov : s.nbRows + s.rowOffset < 2 ^ 64 ∧ s.nbCols + s.colOffset < 2 ^ 64) :
    readWindow s file A = (A.resize s.nbRows s.nbCols, .error (.throw "")) := by
  unfold readWindow
  simp only
  rw [sizeMod, Nat.mod_eq_of_lt hov.1, Nat.mod_eq_of_lt hov.2]
  by_cases h : s.nbRows + s.rowOffset > s.rowLD
  · rw [if_pos h]
  · rw [if_neg h, if_pos]
    unfold Settings.Fits at hfit
    omega

/-- C70, negative: the checks overflow; a window far outside the file is accepted and nothing is reported. -/
theorem C70_file_overflow_is_accepted :
    let s : Settings := ⟨1, 1, 0, 1, 2 ^ 64 - 1, 0⟩
    ¬ s.Fits ∧ (readWindow s (some ([] : List Int)) (Dense.empty .col)).2 = .ok () := by
  refine ⟨by unfold Settings.Fits; simp, by decide +kernel⟩

/-- C70, negative: a file with no data at all (any window that fits) is accepted silently, and the target holds
what `resize` left in it: indeterminate cells or, if the number of elements is unchanged, its old elements. -/
theorem C70_short_file_is_silent (s : Settings) (A : Dense R) (hfit : s.Fits) (hsm : s.Small) :
    readWindow s (some []) A = (A.resize s.nbRows s.nbCols, .ok ()) := by
  obtain ⟨hf1, hf2⟩ := hfit
  obtain ⟨hs1, hs2⟩ := hsm
  have hnone : ∀ (st : Stream R) (n : Nat), st.data = [] → (st.read n).2 = [] ∧ (st.read n).1.data = [] := by
    intro st n h
    unfold Stream.read
    split
    · exact ⟨rfl, h⟩
    · simp only [h, List.drop_nil, List.take_nil]
      split <;> simp [h]
  have hbody : ∀ b : Buf R, readBody s [] b = .ok b := by
    intro b
    unfold readBody
    split
    · simp only [(hnone ⟨[], 0, false⟩ (s.nbRows * s.nbCols) rfl).1, writeAt]
    · obtain ⟨x, h1, h2, h3⟩ := loopN_spec (n := s.nbCols) (f := fun _ => readColumn s)
        (s := ((⟨[], 0, false⟩ : Stream R).skip (s.colOffset * s.rowLD + s.rowOffset), b, 0))
        (fun _ x => x.1.data = [] ∧ x.2.1 = b)
        ⟨by simp [Stream.skip], rfl⟩
        (by
          rintro k ⟨st, c, p⟩ hk ⟨hd, hb⟩
          simp only at hd hb
          refine ⟨((st.read s.nbRows).1.skip (s.rowLD - s.nbRows), c, p + s.nbRows), ?_, ?_, hb⟩
          · simp only [readColumn, (hnone st s.nbRows hd).1, writeAt, bind_ok', pure_ok']
          · simp only [Stream.skip]
            split
            · exact (hnone st s.nbRows hd).2
            · exact (hnone st s.nbRows hd).2)
      simp only [h1, bind_ok', pure_ok', h3]
  unfold readWindow
  simp only
  rw [if_neg, if_neg, hbody]
  · rw [sizeMod, Nat.mod_eq_of_lt (by omega)]; omega
  · rw [sizeMod, Nat.mod_eq_of_lt (by omega)]; omega

/-- C62, negative: a row-major target is filled column by column all the same; here the file holds the matrix
with rows (1,2),(3,4) and the target gets the rows (1,3),(2,4). -/
theorem C62_file_window_is_wrong :
    let s : Settings := ⟨2, 2, 2, 2, 0, 0⟩
    Holds [1, 3, 2, 4] 2 2 (fun i j => ((1 + 2 * i + j : Nat) : Int)) ∧
    ((readWindow s (some [1, 3, 2, 4]) (Dense.empty .row)).1.get 0 1) = .ok (3 : Int) := by
  refine ⟨⟨rfl, fun i j hi hj => by interval_cases i <;> interval_cases j <;> rfl⟩, by decide +kernel⟩

/-- C66, a consequence of resizing first: a rejected read still destroys the target.  Here a 1×1 matrix holding 7
becomes a 2×2 matrix of indeterminate elements. -/
theorem C66_rejected_window_destroys_target :
    (readWindow ⟨2, 2, 1, 1, 0, 0⟩ none (Dense.ofFn .col 1 1 (fun _ _ => (7 : Int)))) =
      (⟨.col, Dim.mk' 2 2, [none, none, none, none]⟩, .error (.throw "")) := by rfl

/-- The importer of whole matrices: for every file with enough elements the result is the matrix stored column by
column, and every shorter or missing file is reported by an exception. -/
theorem C42_importer (r c : Nat) (data : List R) :
    (∀ f, Holds data r c f → ∃ B, importFile r c (some data) = .ok B ∧ B.Is r c f) ∧
    (data.length < r * c → importFile r c (some data) = .error (.throw "Error reading file ")) ∧
    (importFile r c (none : Option (List R))) = .error (.throw "Can't open file ") := by
  refine ⟨?_, ?_, rfl⟩
  · rintro f ⟨hl, hf⟩
    have hl' : ((data.drop 0).take (r * c)).length = r * c := by rw [List.length_take, List.length_drop]; omega
    obtain ⟨b, h1, h2, h3⟩ := writeAt_ok (Dense.new (R := R) .col r c).data 0 ((data.drop 0).take (r * c))
      (by rw [hl']; simp [Dense.new, Buf.alloc])
    refine ⟨⟨.col, Dim.mk' r c, b⟩, ?_, ?_⟩
    · simp only [importFile, read_enough data 0 (r * c) (by omega), h1, bind_ok', Bool.false_eq_true, if_false]
      rfl
    · refine Dense.is_mk (h2.trans (by simp [Dense.new, Buf.alloc])) ?_
      intro i j hi hj
      have hi' : i < r := hi
      have hj' : j < c := hj
      have hlt : j * r + i < r * c := by
        have : (j + 1) * r ≤ c * r := Nat.mul_le_mul_right _ hj'
        rw [Nat.succ_mul, Nat.mul_comm c] at this
        omega
      simp only [View.pos, View.plain]
      rw [Nat.zero_add, Nat.add_comm, h3, hl', if_pos (by omega), List.getElem?_take, if_pos (by omega)]
      simp only [List.drop_zero, Nat.sub_zero]
      rw [hf i j hi' hj']
  · intro hlt
    have hl : ((data.drop 0).take (r * c)).length = data.length := by rw [List.length_take, List.length_drop]; omega
    have hr : (⟨data, 0, false⟩ : Stream R).read (r * c) = (⟨data, data.length, true⟩, (data.drop 0).take (r * c)) := by
      unfold Stream.read
      rw [if_neg (by simp)]
      simp only
      rw [if_neg (by omega)]
    obtain ⟨b, h1, -, -⟩ := writeAt_ok (Dense.new (R := R) .col r c).data 0 ((data.drop 0).take (r * c))
      (by rw [hl]; simp [Dense.new, Buf.alloc]; omega)
    simp only [importFile, hr, h1, bind_ok', if_true]

/-- Non-vacuity: a 2×1 window at (1,1) of a 3×2 file, read into a matrix that held something else. -/
example : let s : Settings := ⟨2, 1, 3, 2, 1, 1⟩
    s.Fits ∧ s.Small ∧ Holds [0, 10, 20, 1, 11, 21] 3 2 (fun i j => ((10 * i + j : Nat) : Int)) ∧
    ((readWindow s (some [0, 10, 20, 1, 11, 21]) (Dense.ofFn .col 5 1 (fun _ _ => (7 : Int)))).1.get 1 0) = .ok 21 := by
  refine ⟨by unfold Settings.Fits; simp, by unfold Settings.Small; simp, ⟨rfl, fun i j hi hj => by interval_cases i <;> interval_cases j <;> rfl⟩, by decide +kernel⟩

end BB.FileIO
