import Verif.Model.Files
import Verif.Props.Provider
import Verif.Props.FileIO
import Verif.Props.BlockedList
import Verif.Props.Dense

/-! C127: matrix files written by the generator program. -/

namespace BB.Files

open FileIO (Holds)

variable {R : Type}

theorem dump_ok (b : Buf R) (g : Nat → R) (p n : Nat) (h : ∀ t, p ≤ t → t < p + n → b.read t = .ok (g t)) :
    dump b p n = .ok ((List.range' p n).map g) := by
  induction n generalizing p with
  | zero => rfl
  | succ n ih =>
    rw [dump, h p (Nat.le_refl _) (by omega), bind_ok', ih (p + 1) (fun t h1 h2 => h t (by omega) (by omega)), bind_ok', pure_ok']
    simp [List.range'_succ]

/-- The bytes of a column-major matrix are the file that holds it. -/
theorem dump_holds {A : Dense R} {r c : Nat} {f : Nat → Nat → R} (h : A.Is r c f) (ho : A.ori = .col) :
    ∃ l, dump A.data 0 A.dim.fullSize = .ok l ∧ Holds l r c f := by
  have hr : ∀ t, 0 ≤ t → t < 0 + r * c → A.data.read t = .ok (f (Dense.unpos A.ori r c t).1 (Dense.unpos A.ori r c t).2) :=
    fun t _ ht => h.raw (by omega)
  rw [h.size]
  refine ⟨_, dump_ok _ _ _ _ hr, by simp, fun i j hi hj => ?_⟩
  have hlt : j * r + i < r * c := by
    have : (j + 1) * r ≤ c * r := Nat.mul_le_mul_right _ hj
    rw [Nat.add_mul, Nat.one_mul] at this
    rw [Nat.mul_comm r c]; omega
  have e := hr (j * r + i) (by omega) (by omega)
  have e2 := h.read hi hj
  have hp : (View.plain A.ori r c).pos i j = j * r + i := by
    rw [ho]; simp [View.plain, View.pos, Nat.add_comm, Nat.mul_comm]
  rw [hp] at e2
  rw [e2] at e
  rw [List.getElem?_map, List.getElem?_range' hlt]
  simp only [Option.map_some, Nat.one_mul, Nat.zero_add]
  rw [Except.ok.inj e]

/-- What the program does once it has its matrix. -/
theorem main_written [Zero R] [Add R] {asserts : Bool} {x y : R} {o : Options R} {A : Dense R} {r c : Nat} {f : Nat → Nat → R}
    (e : matrixOf asserts x y o = .ok A) (h : A.Is r c f) (ho : A.ori = .col) (w : Disk R) :
    ∃ l, Holds l r c f ∧
      main asserts x y o w = (if w.writable o.file then { w with bin := fun p => if p = o.file then some l else w.bin p } else w, .ok 0) := by
  obtain ⟨l, h1, h2⟩ := dump_holds h ho
  exact ⟨l, h2, by simp only [main, e, h1]⟩

/-- `w'` is `w` except for the data file `p`, which holds the `r` × `c` matrix `f` column by column. -/
def Wrote (w w' : Disk R) (p : String) (r c : Nat) (f : Nat → Nat → R) : Prop :=
  w'.xml = w.xml ∧ w'.writable = w.writable ∧ (∀ q, q ≠ p → w'.bin q = w.bin q) ∧ ∃ l, w'.bin p = some l ∧ Holds l r c f

theorem wrote_of {asserts : Bool} [Zero R] [Add R] {x y : R} {o : Options R} {A : Dense R} {r c : Nat} {f : Nat → Nat → R}
    (e : matrixOf asserts x y o = .ok A) (h : A.Is r c f) (ho : A.ori = .col) (w : Disk R) (hw : w.writable o.file = true) :
    ∃ w', main asserts x y o w = (w', .ok 0) ∧ Wrote w w' o.file r c f := by
  obtain ⟨l, h1, h2⟩ := main_written e h ho w
  rw [if_pos hw] at h2
  exact ⟨_, h2, rfl, rfl, fun q hq => by simp [hq], l, by simp, h1⟩

/-- C127, square band matrices: the program exits with 0 and the file holds the band matrix column by column; no other file changes.
(Missing: matrices that are not square and wide bands, where the claim is false, `C127_tall_fails`, `C56_wide_is_wrong`,
`C69_too_wide_band_is_ub`; other types, `C127_other_types`; files that cannot be written, `C127_unwritable_is_silent`.) -/
theorem C127_band_partial [Zero R] [Add R] (asserts : Bool) (x y : R) (o : Options R) (w : Disk R) (ht : o.type = "band") (hsq : o.rows = o.cols)
    (hb : o.bandWidth ≤ o.rows + 1) (hd : o.rows < 2 ^ 64) (hw : w.writable o.file = true) :
    ∃ w', main asserts x y o w = (w', .ok 0) ∧
      Wrote w w' o.file o.rows o.cols (fun i j => if ((i : Int) - j).natAbs < o.bandWidth then o.value else 0) := by
  obtain ⟨A, e, ho, h⟩ := Provider.bandMatrix_sat asserts o.rows o.cols o.bandWidth o.value hb (Nat.le_of_eq hsq) (by rw [sizeMod]; exact hd)
  refine wrote_of (by rw [matrixOf, if_pos ht]; exact e) (h.congr fun i j hi hj => ?_) ho w hw
  have : (Provider.dist i j < o.bandWidth ∧ j < o.rows) ↔ ((i : Int) - j).natAbs < o.bandWidth := by
    unfold Provider.dist; split <;> omega
  simp only [this]

/-- C127: a matrix constructed from a description of the file that was written – any window that fits – holds the elements of that
window of the matrix. -/
theorem C127_read_back {w w' : Disk R} {p : String} {r c : Nat} {f : Nat → Nat → R} (h : Wrote w w' p r c f) (xml : String) (s : FileIO.Settings)
    (hx : w.xml xml = some (some (s, p))) (hr : s.rowLD = r) (hc : s.colLD = c) (hfit : s.rowOffset + s.nbRows ≤ r ∧ s.colOffset + s.nbCols ≤ c)
    (hsm : r < 2 ^ 64 ∧ c < 2 ^ 64) :
    ∃ B, ofFile w' xml = .ok B ∧ B.Is s.nbRows s.nbCols (fun i j => f (s.rowOffset + i) (s.colOffset + j)) := by
  obtain ⟨h1, -, -, l, h3, h4⟩ := h
  subst hr hc
  obtain ⟨B, e, hB⟩ := FileIO.C42_window s l f (Dense.empty .col) hfit hsm h4 rfl
  exact ⟨B, by simp only [ofFile, h1, hx, h3, e], hB⟩

/-- C127: a description that does not exist, that is none, that names a missing file, or whose window does not fit, is reported. -/
theorem C127_read_reports (w : Disk R) (xml : String)
    (h : match w.xml xml with
      | none => True
      | some none => True
      | some (some (s, p)) => w.bin p = none ∨
          ¬ (s.rowOffset + s.nbRows ≤ s.rowLD ∧ s.colOffset + s.nbCols ≤ s.colLD) ∧ s.nbRows + s.rowOffset < 2 ^ 64 ∧ s.nbCols + s.colOffset < 2 ^ 64) :
    ∃ m, ofFile w xml = .error (.throw m) := by
  unfold ofFile
  split
  · exact ⟨_, rfl⟩
  · exact ⟨_, rfl⟩
  · rename_i s p e
    rw [e] at h
    simp only at h
    rcases h with h | ⟨h, ho⟩
    · rw [h]
      have : ∃ B m, FileIO.readWindow s none (Dense.empty .col : Dense R) = (B, .error (.throw m)) := by
        unfold FileIO.readWindow
        dsimp only
        split
        · exact ⟨_, _, rfl⟩
        · split
          · exact ⟨_, _, rfl⟩
          · exact ⟨_, _, rfl⟩
      obtain ⟨B, m, e'⟩ := this
      rw [e']
      exact ⟨m, rfl⟩
    · rw [FileIO.C42_rejected s _ _ h ho]
      exact ⟨_, rfl⟩

/-- C127: whatever the options, only the named data file changes, and none if the program does not exit with 0. -/
theorem C127_other_files [Zero R] [Add R] (asserts : Bool) (x y : R) (o : Options R) (w : Disk R) :
    (main asserts x y o w).1.xml = w.xml ∧ (∀ q, q ≠ o.file → (main asserts x y o w).1.bin q = w.bin q) ∧
    ((main asserts x y o w).2 ≠ .ok 0 → (main asserts x y o w).1 = w) := by
  unfold main
  split
  · exact ⟨rfl, fun _ _ => rfl, fun _ => rfl⟩
  · exact ⟨rfl, fun _ _ => rfl, fun _ => rfl⟩
  · split
    · exact ⟨rfl, fun _ _ => rfl, fun _ => rfl⟩
    · split
      · exact ⟨rfl, fun q hq => by simp [hq], fun h => absurd rfl h⟩
      · exact ⟨rfl, fun _ _ => rfl, fun _ => rfl⟩

/-- C127, negative: a file that cannot be opened for writing is not reported: the exit status is the same as if it had been written, and nothing is written. -/
theorem C127_unwritable_is_silent [Zero R] [Add R] (asserts : Bool) (x y : R) (o : Options R) (w : Disk R) (ht : o.type = "band") (hsq : o.rows = o.cols)
    (hb : o.bandWidth ≤ o.rows + 1) (hd : o.rows < 2 ^ 64) (hw : w.writable o.file = false) : main asserts x y o w = (w, .ok 0) := by
  obtain ⟨A, e, ho, h⟩ := Provider.bandMatrix_sat asserts o.rows o.cols o.bandWidth o.value hb (Nat.le_of_eq hsq) (by rw [sizeMod]; exact hd)
  obtain ⟨l, -, h2⟩ := main_written (x := x) (y := y) (asserts := asserts) (o := o) (by rw [matrixOf, if_pos ht]; exact e) h ho w
  rwa [if_neg (by simp [hw])] at h2

/-! ### Other types -/

/-- The pattern of the blocks: blocks (0,0), (2,2) and (3,3) are `x` on the diagonal, block (1,1) is `y` everywhere, all others are 0. -/
def blockPattern [Zero R] (n : Nat) (x y : R) (i j : Nat) : R :=
  if i / n = j / n then (if i / n = 1 then y else if i = j then x else 0) else 0

theorem blockMatrix_sat [AddZeroClass R] (n : Nat) (x y : R) :
    ∃ A, blockMatrix n x y = .ok A ∧ A.ori = .col ∧ A.Is (4 * n) (4 * n) (blockPattern n x y) := by
  obtain ⟨d, e1, o1, h1⟩ := C44_diagonal_filler (R := R) .col n x
  have hfill : ∀ v : R, ∃ A, (Dense.new .col n n).fillAll v = .ok A ∧ A.ori = .col ∧ A.Is n n (fun _ _ => v) := fun v =>
    ⟨_, Dense.fillAll_ok _ _, rfl, Dense.is_mk (by simp [Dense.new]) (by simpa [Dense.new] using Dense.replicate_cells .col n n v)⟩
  obtain ⟨g, e2, o2, h2⟩ := hfill y
  obtain ⟨z, e3, o3, h3⟩ := hfill 0
  have key : ∀ (i j a b : Nat), a < n → b < n → blockPattern n x y (i * n + a) (j * n + b) =
      if i = j then (if i = 1 then y else if a = b then x else 0) else 0 := by
    intro i j a b ha hb
    have hn : 0 < n := by omega
    have d1 : (i * n + a) / n = i := by rw [Nat.mul_comm, Nat.mul_add_div hn, Nat.div_eq_of_lt ha, Nat.add_zero]
    have d2 : (j * n + b) / n = j := by rw [Nat.mul_comm, Nat.mul_add_div hn, Nat.div_eq_of_lt hb, Nat.add_zero]
    unfold blockPattern
    rw [d1, d2]
    by_cases hij : i = j
    · subst hij; simp
    · simp [hij]
  obtain ⟨B, e4, h4⟩ := Blocked.C49_block_lists
    [[(Mat.one (.dense d) : Mat R), .one (.dense z), .one (.dense z), .one (.dense z)], [.one (.dense z), .one (.dense g), .one (.dense z), .one (.dense z)],
      [.one (.dense z), .one (.dense z), .one (.dense d), .one (.dense z)], [.one (.dense z), .one (.dense z), .one (.dense z), .one (.dense d)]]
    [n, n, n, n] [n, n, n, n] (blockPattern n x y) rfl (by simp) (by simp) (by simp) (by
      have hD : ∀ k, k ≠ 1 → (Mat.one (.dense d) : Mat R).Is n n (fun a b => blockPattern n x y (k * n + a) (k * n + b)) := fun k hk =>
        ⟨h1.congr fun a b ha hb => by rw [key k k a b ha hb]; simp [hk], o1⟩
      have hF : (Mat.one (.dense g) : Mat R).Is n n (fun a b => blockPattern n x y (1 * n + a) (1 * n + b)) :=
        ⟨h2.congr fun a b ha hb => by rw [key 1 1 a b ha hb]; simp, o2⟩
      have hZ : ∀ k l, k ≠ l → (Mat.one (.dense z) : Mat R).Is n n (fun a b => blockPattern n x y (k * n + a) (l * n + b)) := fun k l hk =>
        ⟨h3.congr fun a b ha hb => by rw [key k l a b ha hb]; simp [hk], o3⟩
      have ho : ∀ k, k < 4 → offs [n, n, n, n] k = k * n ∧ [n, n, n, n].getD k 0 = n := by
        intro k hk
        obtain rfl | rfl | rfl | rfl : k = 0 ∨ k = 1 ∨ k = 2 ∨ k = 3 := by omega
        all_goals exact ⟨by simp [offs]; try omega, rfl⟩
      intro i j hi hj
      have hi' : i < 4 := hi
      have hj' : j < 4 := hj
      rw [(ho i hi').1, (ho j hj').1, (ho i hi').2, (ho j hj').2]
      obtain rfl | rfl | rfl | rfl : i = 0 ∨ i = 1 ∨ i = 2 ∨ i = 3 := by omega
      all_goals obtain rfl | rfl | rfl | rfl : j = 0 ∨ j = 1 ∨ j = 2 ∨ j = 3 := by omega
      all_goals first
        | exact ⟨_, rfl, hD _ (by decide)⟩
        | exact ⟨_, rfl, hF⟩
        | exact ⟨_, rfl, hZ _ _ (by decide)⟩)
  obtain ⟨A, e5, o5, h5⟩ := Blocked.toDense_sat h4
  refine ⟨A, ?_, o5, ?_⟩
  · simp only [blockMatrix, e1, e2, e3, bind_ok', e4, e5]
  · have : [n, n, n, n].sum = 4 * n := by simp; omega
    rwa [this] at h5

/-- C127, negative: with any type other than "band" – also a misspelt one – the program writes the 4000 × 4000 matrix of blocks,
whatever rows, columns, band width and value were asked for, and exits with 0. -/
theorem C127_other_types [AddZeroClass R] (asserts : Bool) (x y : R) (o : Options R) (w : Disk R) (ht : o.type ≠ "band") (hw : w.writable o.file = true) :
    ∃ w', main asserts x y o w = (w', .ok 0) ∧ Wrote w w' o.file 4000 4000 (blockPattern 1000 x y) := by
  obtain ⟨A, e, ho, h⟩ := blockMatrix_sat 1000 x y
  exact wrote_of (by rw [matrixOf, if_neg ht]; exact e) h ho w hw

/-! ### Matrices with more rows than columns -/

/-- Without assertions the band of a matrix with more rows than columns is written past the end of the array. -/
theorem tall_ub [Zero R] (rows cols w : Nat) (value : R) (hw : 1 ≤ w) (hc : cols < rows) (hd : rows < 2 ^ 64) :
    Provider.bandMatrix false rows cols w value = .error .ub := by
  have hd' : rows < sizeMod := by rw [sizeMod]; exact hd
  unfold Provider.bandMatrix
  rw [Dense.fillAll_ok]
  simp only [bind_ok']
  refine Provider.loopN_prefix (m := 1) ?_ w hw
  rw [loopN, loopN, res_bind_ok]
  unfold Provider.bandDiag
  rw [Nat.sub_zero, Nat.add_mod_right, Nat.mod_eq_of_lt hd']
  have hset : ∀ (B : Dense R) (i j : Nat), Provider.setElem false B i j value = .error .ub ∨
      ∃ B', Provider.setElem false B i j value = .ok B' ∧ B'.dim = B.dim ∧ B'.ori = B.ori ∧ B'.data.length = B.data.length := by
    intro B i j
    unfold Provider.setElem
    simp only [Bool.false_eq_true, if_false, Buf.write]
    by_cases h : B.view.pos i j < B.data.length
    · right
      rw [if_pos h]
      exact ⟨{ B with data := List.set B.data (B.view.pos i j) (some value) }, rfl, rfl, rfl, by simp⟩
    · left; rw [if_neg h]; rfl
  refine Provider.loopN_error _ .ub (fun B => B.dim = Dim.mk' rows cols ∧ B.ori = .col ∧ B.data.length = rows * cols) ?_ rows cols hc ?_ _
    ⟨rfl, rfl, by simp [Dense.new, Buf.alloc]⟩
  · rintro i B ⟨h1, h2, h3⟩
    unfold Provider.bandCell
    rcases hset B ((i + 0) % sizeMod) i with h | ⟨B', h, g1, g2, g3⟩
    · left; rw [h]; rfl
    · rw [h, bind_ok']
      rcases hset B' i ((i + 0) % sizeMod) with h' | ⟨B'', h', k1, k2, k3⟩
      · exact .inl h'
      · exact .inr ⟨B'', h', k1.trans (g1.trans h1), k2.trans (g2.trans h2), k3.trans (g3.trans h3)⟩
  · rintro B ⟨h1, h2, h3⟩
    unfold Provider.bandCell
    have : Provider.setElem false B ((cols + 0) % sizeMod) cols value = .error .ub := by
      unfold Provider.setElem
      simp only [Bool.false_eq_true, if_false, Buf.write]
      rw [if_neg]
      · rfl
      · rw [h3, Nat.add_zero, Nat.mod_eq_of_lt (by omega)]
        simp only [Dense.view, View.plain, View.pos, h2, h1, Dim.mk', Nat.mul_comm rows cols]
        omega
    rw [this]; rfl

/-- C127, negative: a matrix with more rows than columns is never written: the program fails an assertion, or, without assertions,
its behaviour is undefined. -/
theorem C127_tall_fails [Zero R] [Add R] (asserts : Bool) (x y : R) (o : Options R) (w : Disk R) (ht : o.type = "band") (hc : o.cols < o.rows)
    (hb : 1 ≤ o.bandWidth) (hd : o.rows < 2 ^ 64) :
    main asserts x y o w = (w, .error (if asserts then .assertFail else .ub)) := by
  unfold main matrixOf
  rw [if_pos ht]
  cases asserts with
  | true => rw [Provider.C56_tall_is_wrong _ _ _ _ hb hc hd]; rfl
  | false => rw [tall_ub _ _ _ _ hb hc hd]; rfl

/-- The program without options, and the window of rows 10 to 12 and columns 11 to 14 of its file. -/
example : let w : Disk Int := ⟨fun p => if p = "m.xml" then some (some (⟨3, 4, 1000, 1000, 10, 11⟩, "matrix.dat")) else none, fun _ => none, fun _ => true⟩
    ∃ w', main true 0 0 Options.default w = (w', .ok 0) ∧
      ∃ B, ofFile w' "m.xml" = .ok B ∧ B.Is 3 4 (fun i j => if (((10 + i : Nat) : Int) - (11 + j : Nat)).natAbs < 1 then 1 else 0) := by
  intro w
  obtain ⟨w', h1, h2⟩ := C127_band_partial true 0 0 Options.default w rfl rfl (by decide) (by decide) rfl
  exact ⟨w', h1, C127_read_back h2 "m.xml" ⟨3, 4, 1000, 1000, 10, 11⟩ rfl rfl rfl (by decide) (by decide)⟩

end BB.Files
