import Verif.Model.Print
import Verif.Lemmas.Sparse
import Verif.Props.Picture
import Mathlib.Data.Finset.Lattice.Fold
import Mathlib.Data.Finset.Range

/-! C77, C78: printing of matrices. -/

namespace BB.Print

variable {R : Type}

/-- Width of column `j`: one blank more than its widest element. -/
def widthOf (F : Format R) (r : Nat) (f : Nat → Nat → R) (j : Nat) : Nat :=
  (Finset.range r).sup (fun i => (F.str true 10 (f i j)).length) + 1

/-- Row `i` of the printed matrix. -/
def line (F : Format R) (r c : Nat) (f : Nat → Nat → R) (i : Nat) : List Char :=
  (List.range c).flatMap (fun j => F.cell true 10 (widthOf F r f j) (f i j))

/-- The printed matrix. -/
def block (F : Format R) (r c : Nat) (f : Nat → Nat → R) : List Char :=
  '\n' :: (List.range r).flatMap (fun i => line F r c f i ++ ['\n']) ++ ['\n']

/-- The headline of `fullprint`. -/
def headline (name : List Char) (r c : Nat) : List Char :=
  name ++ '\n' :: "Dimension = ".toList ++ digits r ++ " x ".toList ++ digits c ++ ['\n']

theorem widths_sat (F : Format R) {v : View} {b : Buf R} {f : Nat → Nat → R} (hf : v.Fits b.length)
    (hr : ∀ i j, i < v.rows → j < v.cols → b.read (v.base + v.pos i j) = .ok (f i j)) :
    Sat (ptrLoop 0 v.rows 1 (fun i (d : Buf Nat) => do
      let (_, d) ← ptrLoop (v.rowBegin i) (v.rowEnd i) v.rowStride (widthStep F b) (0, d)
      return d) (List.replicate v.cols (some 0))) (fun d => d.length = v.cols ∧
        ∀ j, j < v.cols → d[j]? = some (some ((Finset.range v.rows).sup (fun i => (F.str true 10 (f i j)).length)))) := by
  refine Sat.raw (fun k (d : Buf Nat) => d.length = v.cols ∧ ∀ j, j < v.cols → d[j]? = some (some ((Finset.range k).sup (fun i => (F.str true 10 (f i j)).length)))) ?_ ?_
  · refine ⟨by simp, fun j hj => ?_⟩
    rw [List.getElem?_replicate, if_pos hj]; simp
  · rintro i d hi ⟨hl, hd⟩
    refine Sat.bind (P := fun s : Nat × Buf Nat => s.2.length = v.cols ∧
      ∀ j, j < v.cols → s.2[j]? = some (some ((Finset.range (i+1)).sup (fun i => (F.str true 10 (f i j)).length)))) ?_ (fun s h => Sat.pure h)
    refine Sat.mono (Sat.rowLoop hf hi (fun k (s : Nat × Buf Nat) => s.1 = k ∧ s.2.length = v.cols ∧
      ∀ j, j < v.cols → s.2[j]? = some (some ((Finset.range (if j < k then i + 1 else i)).sup (fun i => (F.str true 10 (f i j)).length)))) ?_ ?_) ?_
    · exact ⟨rfl, hl, fun j hj => by rw [if_neg (by omega)]; exact hd j hj⟩
    · rintro j ⟨q, d⟩ hj ⟨rfl, hl, hd⟩
      simp only at hj hl hd ⊢
      unfold widthStep
      refine Sat.read (hr i q hi hj) ?_
      have hq := hd q hj
      rw [if_neg (by omega)] at hq
      refine Sat.read (Buf.read_ok.2 hq) ?_
      refine Sat.writeRaw (by simp only; omega) ?_
      intro b' hl' hb'
      refine Sat.pure ⟨rfl, by simp only at hl' ⊢; omega, fun k hk => ?_⟩
      simp only at hb' ⊢
      rw [hb' k]
      by_cases e : k = q
      · subst e
        rw [if_pos rfl, if_pos (by omega), Finset.range_add_one, Finset.sup_insert, max_comm]
      · rw [if_neg e, hd k hk]
        by_cases h : k < q
        · rw [if_pos h, if_pos (by omega)]
        · rw [if_neg h, if_neg (by omega)]
    · rintro ⟨q, d⟩ ⟨-, hl, hd⟩
      refine ⟨hl, fun j hj => ?_⟩
      have := hd j hj
      rw [if_pos hj] at this
      exact this

theorem widen_sat {d : Buf Nat} {n : Nat} {w : Nat → Nat} (hl : d.length = n) (hd : ∀ j, j < n → d[j]? = some (some (w j))) :
    Sat (widen d) (fun d' => d'.length = n ∧ ∀ j, j < n → d'[j]? = some (some (w j + 1))) := by
  unfold widen
  rw [hl]
  refine Sat.mono (Sat.raw (fun k (d : Buf Nat) => d.length = n ∧ ∀ j, j < n → d[j]? = some (some (if j < k then w j + 1 else w j))) ?_ ?_) ?_
  · exact ⟨hl, fun j hj => by rw [if_neg (by omega)]; exact hd j hj⟩
  · rintro k d hk ⟨hl, hd⟩
    have hq := hd k hk
    rw [if_neg (by omega)] at hq
    refine Sat.read (Buf.read_ok.2 hq) ?_
    rw [Buf.write_ok (by omega)]
    refine Sat.ok ⟨by simpa using hl, fun j hj => ?_⟩
    rw [List.getElem?_set]
    by_cases e : k = j
    · subst e; rw [if_pos rfl, if_pos (by omega), if_pos (by omega)]
    · rw [if_neg e, hd j hj]
      by_cases h : j < k
      · rw [if_pos h, if_pos (by omega)]
      · rw [if_neg h, if_neg (by omega)]
  · rintro d ⟨hl, hd⟩
    exact ⟨hl, fun j hj => by have := hd j hj; rwa [if_pos hj] at this⟩

theorem dense_sat (F : Format R) (name : List Char) (v : View) (b : Buf R) (f : Nat → Nat → R) (hf : v.Fits b.length) (hr : v.Reads b f) (s : Stream) :
    (v.rows ≤ 100 → v.cols ≤ 100 → ∃ s', dense F name v b s = .ok s' ∧ s'.sci = true ∧ s'.prec = 10 ∧ s'.full = s.full ∧
      s'.out = s.out ++ (if s.full then headline name v.rows v.cols else []) ++ block F v.rows v.cols f) ∧
    (100 < v.rows ∨ 100 < v.cols → dense F name v b s = .ok (s.text "Matrix too large for printing.\n".toList)) := by
  constructor
  · intro h1 h2
    have hread : ∀ i j, i < v.rows → j < v.cols → b.read (v.base + v.pos i j) = .ok (f i j) := by
      intro i j hi hj
      have := hr i j hi hj
      rwa [View.get_eq hi hj] at this
    unfold dense
    rw [if_neg (by omega)]
    dsimp only
    refine Sat.bind (widths_sat F hf hread) ?_
    rintro d0 ⟨hl0, hd0⟩
    refine Sat.bind (widen_sat hl0 hd0) ?_
    rintro d ⟨hl, hd⟩
    have hd : ∀ j, j < v.cols → d[j]? = some (some (widthOf F v.rows f j)) := hd
    generalize hs0 : (if s.full = true then _ else s : Stream) = s0
    have hout : s0.out = s.out ++ (if s.full then headline name v.rows v.cols else []) := by
      rw [← hs0]
      by_cases hfull : s.full = true
      · rw [if_pos hfull, if_pos hfull]; rfl
      · rw [if_neg hfull, if_neg hfull, List.append_nil]
    have hfull : s0.full = s.full := by
      rw [← hs0]
      by_cases hfull : s.full = true
      · rw [if_pos hfull]; rfl
      · rw [if_neg hfull]
    refine Sat.bind (P := fun s' : Stream => s'.sci = true ∧ s'.prec = 10 ∧ s'.full = s.full ∧ s'.out = s0.out ++ '\n' :: (List.range v.rows).flatMap (fun i => line F v.rows v.cols f i ++ ['\n'])) ?_ ?_
    · refine Sat.mono (Sat.raw (fun k (s' : Stream) => s'.sci = true ∧ s'.prec = 10 ∧ s'.full = s.full ∧ s'.out = s0.out ++ '\n' :: (List.range k).flatMap (fun i => line F v.rows v.cols f i ++ ['\n'])) ?_ ?_)
        (fun s h => h)
      · exact ⟨rfl, rfl, hfull, rfl⟩
      · rintro i s1 hi ⟨q1, q2, q0, q3⟩
        refine Sat.bind (P := fun t : Nat × Stream => t.2.sci = true ∧ t.2.prec = 10 ∧ t.2.full = s.full ∧ t.2.out = s1.out ++ line F v.rows v.cols f i) ?_ ?_
        · refine Sat.mono (Sat.rowLoop hf hi (fun k (t : Nat × Stream) => t.1 = k ∧ t.2.sci = true ∧ t.2.prec = 10 ∧ t.2.full = s.full ∧
            t.2.out = s1.out ++ (List.range k).flatMap (fun j => F.cell true 10 (widthOf F v.rows f j) (f i j))) ?_ ?_) (fun t h => h.2)
          · exact ⟨rfl, q1, q2, q0, by simp⟩
          · rintro j ⟨q, t⟩ hj ⟨rfl, t1, t2, t0, t3⟩
            simp only at hj t1 t2 t0 t3
            unfold cellStep
            refine Sat.read (Buf.read_ok.2 (hd q hj)) ?_
            refine Sat.read (hread i q hi hj) ?_
            refine Sat.pure ⟨rfl, t1, t2, t0, ?_⟩
            show t.out ++ _ = _
            rw [t1, t2, t3, List.range_succ, List.flatMap_append, List.append_assoc]
            simp
        · rintro ⟨q, t⟩ ⟨t1, t2, t0, t3⟩
          simp only at t1 t2 t0 t3
          refine Sat.pure ⟨t1, t2, t0, ?_⟩
          show t.out ++ _ = _
          rw [t3, q3, List.range_succ, List.flatMap_append]
          simp
    · rintro s' ⟨p1, p2, p0, h'⟩
      refine Sat.pure ⟨p1, p2, p0, ?_⟩
      show s'.out ++ _ = _
      rw [h', hout, block]
      simp
  · intro h
    exact if_pos h

/-- C77: printing a matrix (or submatrix) with at most 100 rows and columns writes an empty line, one line per row
with the elements in order, each in a field one character wider than the widest element of its column, and an empty
line; with `fullprint` a headline before.  A larger matrix is replaced by a message.  The text does not depend on the
storage order nor on the formatting state of the stream. -/
theorem C77_dense (F : Format R) (name : List Char) (v : View) (b : Buf R) (f : Nat → Nat → R) (hf : v.Fits b.length) (hr : v.Reads b f) (s : Stream) :
    (v.rows ≤ 100 → v.cols ≤ 100 → ∃ s', dense F name v b s = .ok s' ∧
      s'.out = s.out ++ (if s.full then headline name v.rows v.cols else []) ++ block F v.rows v.cols f) ∧
    (100 < v.rows ∨ 100 < v.cols → ∃ s', dense F name v b s = .ok s' ∧ s'.out = s.out ++ "Matrix too large for printing.\n".toList) := by
  obtain ⟨h1, h2⟩ := dense_sat F name v b f hf hr s
  refine ⟨fun a b => ?_, fun h => ⟨_, h2 h, rfl⟩⟩
  obtain ⟨s', e, -, -, -, h⟩ := h1 a b
  exact ⟨s', e, h⟩

/-- `Written F cs full text`: the text of a sequence of matrices and manipulators, where `full` tells whether `fullprint` is in
force at its beginning: a manipulator holds until the next one. -/
inductive Written (F : Format R) : List (Cmd R) → Bool → List Char → Prop
  | nil {full} : Written F [] full []
  | full {cs full text} : Written F cs true text → Written F (.full :: cs) full text
  | short {cs full text} : Written F cs false text → Written F (.short :: cs) full text
  | matrix {cs full text name v b f} : v.Fits b.length → v.Reads b f → v.rows ≤ 100 → v.cols ≤ 100 → Written F cs full text →
      Written F (.matrix name v b :: cs) full ((if full then headline name v.rows v.cols else []) ++ block F v.rows v.cols f ++ text)
  | large {cs full text name v b f} : v.Fits b.length → v.Reads b f → (100 < v.rows ∨ 100 < v.cols) → Written F cs full text →
      Written F (.matrix name v b :: cs) full ("Matrix too large for printing.\n".toList ++ text)

/-- C77 for sequences: `fullprint` and `shortprint` anywhere in a sequence of printed matrices hold for all matrices after them until
the next manipulator. -/
theorem C77_session (F : Format R) (cs : List (Cmd R)) (s : Stream) (text : List Char) (h : Written F cs s.full text) :
    ∃ s', session F cs s = .ok s' ∧ s'.out = s.out ++ text := by
  generalize hfull : s.full = full at h
  induction h generalizing s with
  | nil => exact ⟨s, rfl, by simp⟩
  | full _ ih => exact ih (fullprint s) rfl
  | short _ ih => exact ih (shortprint s) rfl
  | @matrix cs full text name v b f h1 h2 h3 h4 _ ih =>
    obtain ⟨s1, e, -, -, hf, ho⟩ := (dense_sat F name v b f h1 h2 s).1 h3 h4
    obtain ⟨s', e', ho'⟩ := ih s1 (hf.trans hfull)
    refine ⟨s', by simp only [session, e, bind_ok', e'], ?_⟩
    rw [ho', ho, hfull]
    simp only [List.append_assoc]
  | @large cs full text name v b f h1 h2 h3 _ ih =>
    have e := (dense_sat F name v b f h1 h2 s).2 h3
    obtain ⟨s', e', ho'⟩ := ih (s.text "Matrix too large for printing.\n".toList) hfull
    refine ⟨s', by simp only [session, e, bind_ok', e'], ?_⟩
    rw [ho']
    show (s.out ++ _) ++ _ = _
    rw [List.append_assoc]

/-- A sequence with both manipulators has a text: the headline of the first matrix only. -/
example (F : Format Nat) (full : Bool) : Written F [.full, .matrix ['A'] ⟨.col, 1, 1, 1, 1, 0⟩ [some 7], .short, .matrix ['A'] ⟨.col, 1, 1, 1, 1, 0⟩ [some 7]] full
    (headline ['A'] 1 1 ++ block F 1 1 (fun _ _ => 7) ++ ([] ++ block F 1 1 (fun _ _ => 7) ++ [])) := by
  have h1 : View.Fits ⟨.col, 1, 1, 1, 1, 0⟩ ([some 7] : Buf Nat).length := ⟨by decide, by
    intro i j hi hj
    obtain rfl : i = 0 := by simpa using hi
    obtain rfl : j = 0 := by simpa using hj
    decide⟩
  have h2 : View.Reads ⟨.col, 1, 1, 1, 1, 0⟩ ([some 7] : Buf Nat) (fun _ _ => 7) := by
    intro i j hi hj
    obtain rfl : i = 0 := by simpa using hi
    obtain rfl : j = 0 := by simpa using hj
    rfl
  exact .full (.matrix h1 h2 (by decide) (by decide) (.short (.matrix h1 h2 (by decide) (by decide) .nil)))

/-- The words of a text: maximal runs of characters other than blanks. -/
def words (l : List Char) : List (List Char) := (l.splitOnP (· == ' ')).filter (fun w => !w.isEmpty)

theorem words_append (xs as : List Char) : words (xs ++ ' ' :: as) = words xs ++ words as := by
  unfold words
  rw [List.splitOnP_append_cons _ _ (by rfl), List.filter_append]

theorem words_blanks (n : Nat) (s : List Char) (h0 : s ≠ []) (h : ∀ c ∈ s, c ≠ ' ') : words (List.replicate n ' ' ++ s) = [s] := by
  induction n with
  | zero =>
    show words s = [s]
    unfold words
    rw [List.splitOnP_eq_singleton (fun c hc => by simpa using h c hc)]
    cases s with
    | nil => exact absurd rfl h0
    | cons => rfl
  | succ n ih =>
    rw [List.replicate_succ, List.cons_append]
    have := words_append [] (List.replicate n ' ' ++ s)
    rw [List.nil_append] at this
    rw [this, ih]
    rfl

theorem str_lt_width (F : Format R) {r : Nat} (f : Nat → Nat → R) (j : Nat) {i : Nat} (hi : i < r) :
    (F.str true 10 (f i j)).length < widthOf F r f j :=
  Nat.lt_succ_of_le (Finset.le_sup (f := fun i => (F.str true 10 (f i j)).length) (Finset.mem_range.2 hi))

theorem flatMap_length {n : Nat} {g : Nat → List Char} {w : Nat → Nat} (h : ∀ j, j < n → (g j).length = w j) :
    ((List.range n).flatMap g).length = ∑ j ∈ Finset.range n, w j := by
  induction n with
  | zero => rfl
  | succ n ih =>
    rw [List.range_succ, List.flatMap_append, List.length_append, ih (fun j hj => h j (by omega)), Finset.sum_range_succ]
    simp [h n (by omega)]

/-- C77, numbers are aligned: in every row the field of column `j` starts after the same number of characters, ends
with the element and begins with a blank; all lines have the same length. -/
theorem C77_aligned (str : Bool → Nat → R → List Char) (r c : Nat) (f : Nat → Nat → R) (i : Nat) (hi : i < r) :
    (line (Format.number str) r c f i).length = ∑ j ∈ Finset.range c, widthOf (Format.number str) r f j ∧
    ∀ j, j < c → ∃ before after, line (Format.number str) r c f i = before ++ ' ' :: after ∧
      before.length = ∑ k ∈ Finset.range j, widthOf (Format.number str) r f k ∧
      ∃ blanks rest, (∀ x ∈ blanks, x = ' ') ∧ after = blanks ++ str true 10 (f i j) ++ rest ∧
        before.length + 1 + blanks.length + (str true 10 (f i j)).length = ∑ k ∈ Finset.range (j+1), widthOf (Format.number str) r f k := by
  have hlen : ∀ j, ((Format.number str).cell true 10 (widthOf (Format.number str) r f j) (f i j)).length = widthOf (Format.number str) r f j := by
    intro j
    have := str_lt_width (Format.number str) f j hi
    simp only [Format.number] at this ⊢
    rw [pad, List.length_append, List.length_replicate]
    omega
  refine ⟨flatMap_length fun j _ => hlen j, fun j hj => ?_⟩
  obtain ⟨n, rfl⟩ : ∃ n, c = (j + 1) + n := ⟨c - (j+1), by omega⟩
  have hw := str_lt_width (Format.number str) f j hi
  refine ⟨(List.range j).flatMap (fun j => (Format.number str).cell true 10 (widthOf (Format.number str) r f j) (f i j)),
    List.replicate (widthOf (Format.number str) r f j - (str true 10 (f i j)).length - 1) ' ' ++ str true 10 (f i j) ++
      (List.range n).flatMap (fun k => (Format.number str).cell true 10 (widthOf (Format.number str) r f (j + 1 + k)) (f i (j + 1 + k))), ?_, flatMap_length fun j _ => hlen j,
    _, _, fun x hx => List.eq_of_mem_replicate hx, rfl, ?_⟩
  · unfold line
    rw [List.range_add, List.flatMap_append, List.range_succ, List.flatMap_append, List.flatMap_map]
    have : (Format.number str).cell true 10 (widthOf (Format.number str) r f j) (f i j) =
        ' ' :: List.replicate (widthOf (Format.number str) r f j - (str true 10 (f i j)).length - 1) ' ' ++ str true 10 (f i j) := by
      show List.replicate _ ' ' ++ _ = _
      rw [← List.replicate_succ]
      congr 2
      change (str true 10 (f i j)).length < _ at hw
      omega
    simp [this, List.append_assoc]
  · rw [flatMap_length (fun j _ => hlen j), Finset.sum_range_succ, List.length_replicate]
    change (str true 10 (f i j)).length < _ at hw
    omega

/-- C77, the elements can be read back: the words of line `i` are the texts of the elements of row `i`. -/
theorem C77_readable (F : Format R) (r c : Nat) (f : Nat → Nat → R) (i : Nat) (hi : i < r)
    (hcell : ∀ w x, (F.str true 10 x).length < w → ∃ n, F.cell true 10 w x = ' ' :: List.replicate n ' ' ++ F.str true 10 x)
    (hne : ∀ x, F.str true 10 x ≠ []) (hb : ∀ x, ∀ ch ∈ F.str true 10 x, ch ≠ ' ') :
    words (line F r c f i) = (List.range c).map (fun j => F.str true 10 (f i j)) := by
  unfold line
  induction c with
  | zero => rfl
  | succ c ih =>
    rw [List.range_succ, List.flatMap_append, List.map_append]
    obtain ⟨n, e⟩ := hcell _ (f i c) (str_lt_width F f c hi)
    simp only [List.flatMap_cons, List.flatMap_nil, List.append_nil, e, List.cons_append]
    rw [words_append, ih, words_blanks n _ (hne _) (hb _)]
    rfl

/-- Numbers and dimensions are written with at least one blank before them. -/
theorem number_cell (str : Bool → Nat → R → List Char) (w : Nat) (x : R) (h : (str true 10 x).length < w) :
    ∃ n, (Format.number str).cell true 10 w x = ' ' :: List.replicate n ' ' ++ (Format.number str).str true 10 x := by
  refine ⟨w - (str true 10 x).length - 1, ?_⟩
  show List.replicate _ ' ' ++ _ = _
  rw [← List.replicate_succ]
  congr 2
  omega

theorem dim_cell (w : Nat) (x : Nat × Nat) (h : (Format.dim.str true 10 x).length < w) :
    ∃ n, Format.dim.cell true 10 w x = ' ' :: List.replicate n ' ' ++ Format.dim.str true 10 x := by
  simp only [Format.dim, List.length_append, List.length_cons] at h
  refine ⟨w - (digits x.1).length - 1, ?_⟩
  show pad _ _ ++ _ = _
  unfold pad
  rw [← List.replicate_succ]
  simp only [Format.dim, List.append_assoc]
  congr 2
  omega

/-- C77, what is printed determines the texts of all elements: two matrices with the same number of columns and the
same printed lines have the same element texts. -/
theorem C77_injective (str : Bool → Nat → R → List Char) (hne : ∀ x, str true 10 x ≠ []) (hb : ∀ x, ∀ ch ∈ str true 10 x, ch ≠ ' ')
    (r c : Nat) (f g : Nat → Nat → R) (h : ∀ i, i < r → line (Format.number str) r c f i = line (Format.number str) r c g i) :
    ∀ i j, i < r → j < c → str true 10 (f i j) = str true 10 (g i j) := by
  intro i j hi hj
  have h1 := C77_readable (Format.number str) r c f i hi (number_cell str) hne hb
  have h2 := C77_readable (Format.number str) r c g i hi (number_cell str) hne hb
  rw [h i hi, h2] at h1
  have := congrArg (fun l => l[j]?) h1
  simp only [List.getElem?_map, List.getElem?_range hj, Option.map_some, Option.some.injEq] at this
  exact this.symm

/-- C77 for dimension matrices: the elements can be read back … -/
theorem C77_dimensions_partial (r c : Nat) (f : Nat → Nat → Nat × Nat) (i : Nat) (hi : i < r) :
    words (line Format.dim r c f i) = (List.range c).map (fun j => digits (f i j).1 ++ 'x' :: digits (f i j).2) := by
  have hd : ∀ n, ∀ ch ∈ digits n, ch ≠ ' ' := by
    intro n ch hch e
    subst e
    have := Nat.isDigit_of_mem_toDigits (b := 10) (by decide) (by decide) hch
    exact absurd this (by decide)
  refine C77_readable Format.dim r c f i hi dim_cell (fun x => by simp [Format.dim]) ?_
  intro x ch hch
  simp only [Format.dim, List.mem_append, List.mem_cons] at hch
  rcases hch with h | rfl | h
  · exact hd _ _ h
  · decide
  · exact hd _ _ h

/-- … but the columns are not aligned: line `i` of a matrix with one column is longer than the field by the text after
the first number, so lines with second numbers of different lengths have different lengths. -/
theorem C77_dimensions_not_aligned (r : Nat) (f : Nat → Nat → Nat × Nat) (i i' : Nat) (hi : i < r) (hi' : i' < r)
    (h : (digits (f i 0).2).length ≠ (digits (f i' 0).2).length) :
    (line Format.dim r 1 f i).length ≠ (line Format.dim r 1 f i').length := by
  have key : ∀ i, i < r → (line Format.dim r 1 f i).length = widthOf Format.dim r f 0 + 1 + (digits (f i 0).2).length := by
    intro i hi
    have hw := str_lt_width Format.dim f 0 hi
    simp only [Format.dim, List.length_append, List.length_cons] at hw
    simp only [line, List.range_one, List.flatMap_cons, List.flatMap_nil, List.append_nil, Format.dim, pad, List.length_append, List.length_cons,
      List.length_replicate] at hw ⊢
    omega
  rw [key i hi, key i' hi']
  omega

/-- Non-vacuity: a 2x2 matrix of numbers in decimal, printed. -/
example : ∃ s', dense (Format.number (fun _ _ (n : Nat) => digits n)) [] (Dense.ofFn .row 2 2 (fun i j => 10 ^ i * (j + 8))).view
    (Dense.ofFn .row 2 2 (fun i j => 10 ^ i * (j + 8))).data ⟨[], false, 6, false⟩ = .ok s' ∧ s'.out = "\n  8  9\n 80 90\n\n".toList :=
  ⟨_, rfl, by decide⟩

/-! ### Sparse matrices -/

theorem array_ok {α : Type} (str : Bool → Nat → α → List Char) (xs : List α) (b : Buf α) (hb : b = xs.map some) (s : Stream) :
    array str b s = .ok { s with out := s.out ++ xs.flatMap (fun x => str s.sci s.prec x ++ [' ']) } := by
  subst hb
  have h : Sat (array str (xs.map some) s) (fun s' => s' = { s with out := s.out ++ (xs.take (xs.map some).length).flatMap (fun x => str s.sci s.prec x ++ [' ']) }) := by
    refine Sat.raw (fun k (s' : Stream) => s' = { s with out := s.out ++ (xs.take k).flatMap (fun x => str s.sci s.prec x ++ [' ']) }) ?_ ?_
    · simp
    · rintro k s' hk rfl
      have hk' : k < xs.length := by simpa using hk
      refine Sat.read (v := xs[k]) (Buf.read_ok.2 (by simp [hk'])) ?_
      refine Sat.pure ?_
      rw [List.take_add_one, List.getElem?_eq_getElem hk', List.flatMap_append]
      simp [Stream.text]
  obtain ⟨s', e, h⟩ := h
  rw [e, h]
  simp

/-- The text of an array of a compressed matrix. -/
def arrayText {α : Type} (str : α → List Char) (xs : List α) : List Char := xs.flatMap (fun x => str x ++ [' '])

/-- The text of a sparse matrix with the elements `L` (run by run, key and value) for a given way to write numbers. -/
def sparseText (str : R → List Char) (name : List Char) (r c : Nat) (L : List (List (Nat × R))) : List Char :=
  name ++ "\nSize = ".toList ++ digits (r * c) ++ "\nDimension = ".toList ++ digits r ++ " x ".toList ++ digits c ++ ['\n'] ++
  "Value array = ".toList ++ arrayText str (L.flatten.map Prod.snd) ++
  "\nKey array = ".toList ++ arrayText digits (L.flatten.map Prod.fst) ++
  "\nOffset array = ".toList ++ arrayText digits ((List.range (L.length + 1)).map fun q => (L.take q).flatten.length)

theorem valid_arrays {S : Sparse R} {r c : Nat} {L : List (List (Nat × R))} (hS : S.Valid r c L) (ht : S.Tight) :
    S.value = (L.flatten.map Prod.snd).map some ∧ S.key = (L.flatten.map Prod.fst).map some ∧
    S.offset = ((List.range (L.length + 1)).map fun q => (L.take q).flatten.length).map some := by
  obtain ⟨n, h1, h2⟩ := ht
  have hlast : S.offset.getLast? = some (some L.flatten.length) := by
    rw [List.getLast?_eq_getElem?, hS.offsLen, Nat.add_sub_cancel, hS.offs _ le_rfl, List.take_length]
  rw [hlast] at h1
  have hn : S.value.length = L.flatten.length := by
    have : S.nnz = S.value.length := rfl
    rw [← this, h2]
    exact (Option.some.inj (Option.some.inj h1)).symm
  refine ⟨?_, ?_, ?_⟩
  · apply List.ext_getElem?
    intro p
    rw [List.getElem?_map, List.getElem?_map]
    cases e : L.flatten[p]? with
    | none =>
      have := List.getElem?_eq_none_iff.1 e
      rw [List.getElem?_eq_none (by omega)]; rfl
    | some x => rw [(hS.cells p x e).2]; rfl
  · apply List.ext_getElem?
    intro p
    rw [List.getElem?_map, List.getElem?_map]
    cases e : L.flatten[p]? with
    | none =>
      have := List.getElem?_eq_none_iff.1 e
      have := hS.keyLen
      rw [List.getElem?_eq_none (by omega)]; rfl
    | some x => rw [(hS.cells p x e).1]; rfl
  · apply List.ext_getElem?
    intro q
    rw [List.getElem?_map, List.getElem?_map]
    by_cases hq : q ≤ L.length
    · rw [hS.offs q hq, List.getElem?_range (by omega)]; rfl
    · rw [List.getElem?_eq_none (by rw [hS.offsLen]; omega), List.getElem?_eq_none (by simp; omega)]; rfl

/-- C78, sparse matrices without spare cells and with at most 100 elements (stored or not): the text shows the
dimensions, all stored values, their keys and the offsets, in order. -/
theorem C78_sparse_partial (str : Bool → Nat → R → List Char) (name : List Char) {S : Sparse R} {r c : Nat} {L : List (List (Nat × R))}
    (hS : S.Valid r c L) (ht : S.Tight) (h100 : r * c ≤ 100) (s : Stream) :
    sparse str name S s = .ok { s with out := s.out ++ sparseText (str s.sci s.prec) name r c L } := by
  obtain ⟨h1, h2, h3⟩ := valid_arrays hS ht
  unfold sparse
  rw [hS.size, if_neg (by omega)]
  simp only [array_ok str _ _ h1, array_ok _ _ _ h2, array_ok _ _ _ h3, bind_ok', Stream.text, hS.rows, hS.cols, sparseText, arrayText, List.append_assoc]

/-- C78 is false for matrices with more than 100 elements, however few are stored. -/
theorem C78_large_sparse_is_not_shown (str : Bool → Nat → R → List Char) (name : List Char) {S : Sparse R} {r c : Nat} {L : List (List (Nat × R))}
    (hS : S.Valid r c L) (h100 : 100 < r * c) (s : Stream) :
    sparse str name S s = .ok (s.text ("SparseMatrix (Size = ".toList ++ digits (r * c) ++ ") too large for printing.\n".toList)) := by
  unfold sparse
  rw [hS.size, if_pos h100]

/-- C78 is false for matrices with spare cells, as sums and products leave them: the spare cells are read. -/
theorem C78_spare_is_ub (str : Bool → Nat → R → List Char) (name : List Char) {S : Sparse R} (h100 : S.dim.fullSize ≤ 100) (s : Stream)
    (p : Nat) (hp : S.value[p]? = some none) : ∃ e, sparse str name S s = .error e := by
  unfold sparse
  rw [if_neg (by omega)]
  have hlt : p < S.value.length := (List.getElem?_eq_some_iff.1 hp).1
  have : ∀ s', ∃ e, array str S.value s' = .error e := by
    intro s'
    unfold array
    rw [rawLoop]
    cases e : loopN S.value.length _ s' with
    | error x => exact ⟨x, rfl⟩
    | ok r =>
      exfalso
      obtain ⟨t, t', -, ht⟩ := (Info.loopN_ok_inv (fun _ _ => True) trivial (fun _ _ _ _ _ _ => trivial) e).2 p hlt
      rw [Buf.read, hp] at ht
      cases ht
  obtain ⟨e, he⟩ := this ((s.text (name ++ "\nSize = ".toList ++ digits S.dim.fullSize ++ "\nDimension = ".toList ++ digits S.dim.rows ++ " x ".toList
      ++ digits S.dim.cols ++ ['\n'])).text "Value array = ".toList)
  exact ⟨e, by simp only [he]; rfl⟩

/-- C78 is false for the formatting state: printing a dense matrix leaves the stream in scientific notation with ten
digits, and a sparse matrix printed afterwards is written that way instead of in the stream's own notation. -/
theorem C78_state_is_changed (F : Format R) (str : Bool → Nat → R → List Char) (name : List Char) (v : View) (b : Buf R) (f : Nat → Nat → R)
    (hf : v.Fits b.length) (hr : v.Reads b f) (h1 : v.rows ≤ 100) (h2 : v.cols ≤ 100)
    {S : Sparse R} {r c : Nat} {L : List (List (Nat × R))} (hS : S.Valid r c L) (ht : S.Tight) (h100 : r * c ≤ 100) (s : Stream) :
    ∃ s' s'', dense F name v b s = .ok s' ∧ s'.sci = true ∧ s'.prec = 10 ∧ sparse str name S s' = .ok s'' ∧
      s''.out = s'.out ++ sparseText (str true 10) name r c L := by
  obtain ⟨s', e, a1, a2, -, -⟩ := (dense_sat F name v b f hf hr s).1 h1 h2
  refine ⟨s', _, e, a1, a2, C78_sparse_partial str name hS ht h100 s', ?_⟩
  rw [a1, a2]

/-- Non-vacuity: the 1x2 matrix (0 5) stored by rows. -/
example : ∃ S : Sparse Int, S.Valid 1 2 [[(1, 5)]] ∧ S.Tight := by
  refine ⟨⟨.row, Dim.mk' 1 2, [some 5], [some 1], [some 0, some 1]⟩, ⟨rfl, rfl, rfl, rfl, rfl, ?_, rfl, ?_, ?_, ?_⟩, 1, rfl, rfl⟩
  · intro q hq
    have : q = 0 ∨ q = 1 := by simp at hq; omega
    rcases this with rfl | rfl <;> rfl
  · intro p e hp
    have : p = 0 := by
      by_contra h
      rw [List.getElem?_eq_none (by simp; omega)] at hp
      cases hp
    subst this
    cases hp
    exact ⟨rfl, rfl⟩
  · intro run hrun e he
    simp at hrun
    subst hrun
    simp at he
    subst he
    decide
  · intro run hrun
    simp at hrun
    subst hrun
    simp

end BB.Print
