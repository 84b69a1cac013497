import Verif.Model.CursorMove
import Verif.Props.Iterator

/-!
# C133, C134: cursors as objects

Specification: an outer cursor counts the rows (or columns), an inner cursor counts the elements of its row (or column) from
`begin()` = 0 to `end()` = number of elements; `++` adds one, `--` subtracts one (`indexAfter`, Props/Iterator.lean).
-/

namespace BB.Cur

open BB

variable {R : Type}

/-- The cursor after a sequence of steps. -/
def Outer.walk (c : Outer) (ms : List Move) : Outer := ms.foldl Outer.move c
def Inner.walk (c : Inner) (ms : List Move) : Inner := ms.foldl Inner.move c

theorem indexAfter_add (s : Int) (ms : List Move) : indexAfter s ms = s + indexAfter 0 ms := by
  induction ms generalizing s with
  | nil => simp [indexAfter]
  | cons m ms ih =>
    cases m
    · show indexAfter (s + 1) ms = s + indexAfter (0 + 1) ms
      rw [ih (s + 1), ih (0 + 1)]; ring
    · show indexAfter (s - 1) ms = s + indexAfter (0 - 1) ms
      rw [ih (s - 1), ih (0 - 1)]; ring

theorem Inner.walk_eq (c : Inner) (ms : List Move) : c.walk ms = ⟨c.key + indexAfter 0 ms * c.stride, c.stride⟩ := by
  induction ms generalizing c with
  | nil => simp [Inner.walk, indexAfter]
  | cons m ms ih =>
    show (c.move m).walk ms = _
    rw [ih]
    cases m
    · show (⟨c.key + c.stride + indexAfter 0 ms * c.stride, c.stride⟩ : Inner) = ⟨c.key + indexAfter (0 + 1) ms * c.stride, c.stride⟩
      rw [indexAfter_add (0 + 1)]; congr 1; ring
    · show (⟨c.key - c.stride + indexAfter 0 ms * c.stride, c.stride⟩ : Inner) = ⟨c.key + indexAfter (0 - 1) ms * c.stride, c.stride⟩
      rw [indexAfter_add (0 - 1)]; congr 1; ring

theorem Outer.walk_key (c : Outer) (hc : c.key < sizeMod) (ms : List Move) :
    ((c.walk ms).key : Int) = indexAfter c.key ms % (sizeMod : Int) := by
  have hS : sizeMod = 18446744073709551616 := rfl
  induction ms generalizing c with
  | nil =>
    show (c.key : Int) = c.key % (sizeMod : Int)
    rw [hS] at *; omega
  | cons m ms ih =>
    show (((c.move m).walk ms).key : Int) = _
    have hlt : (c.move m).key < sizeMod := by
      cases m <;> exact Nat.mod_lt _ (by rw [hS]; decide)
    rw [ih _ hlt, indexAfter_add]
    cases m
    · show (((c.key + 1) % sizeMod : Nat) + indexAfter 0 ms) % (sizeMod : Int) = indexAfter (c.key + 1) ms % (sizeMod : Int)
      rw [indexAfter_add (c.key + 1)]
      push_cast
      rw [Int.emod_add_emod]
    · show (((c.key + (sizeMod - 1)) % sizeMod : Nat) + indexAfter 0 ms) % (sizeMod : Int) = indexAfter (c.key - 1) ms % (sizeMod : Int)
      rw [indexAfter_add (c.key - 1)]
      have e : (((c.key + (sizeMod - 1)) % sizeMod : Nat) : Int) = ((c.key : Int) - 1) % (sizeMod : Int) := by
        rw [hS] at *; omega
      rw [e, Int.emod_add_emod]

/-! ### The four shapes of a line -/

theorem View.rowBegin_pos (v : View) (i : Nat) : v.rowBegin i = v.base + v.pos i 0 := by
  rcases hv : v.ori <;> simp [View.rowBegin, View.pos, hv]

theorem View.pos_row (v : View) (i j : Nat) : v.base + v.pos i j = v.rowBegin i + j * v.rowStride := by
  rcases hv : v.ori <;> simp [View.rowBegin, View.rowStride, View.pos, hv] <;> omega

theorem View.pos_col (v : View) (i j : Nat) : v.base + v.pos i j = v.colBegin j + i * v.colStride := by
  rcases hv : v.ori <;> simp [View.colBegin, View.colStride, View.pos, hv] <;> omega

theorem View.rowEnd_eq (v : View) (i : Nat) : v.rowEnd i = v.rowBegin i + v.cols * v.rowStride := by
  rcases hv : v.ori <;> simp [View.rowBegin, View.rowEnd, View.rowStride, hv] <;> ring

theorem View.colEnd_eq (v : View) (j : Nat) : v.colEnd j = v.colBegin j + v.rows * v.colStride := by
  rcases hv : v.ori <;> simp [View.colBegin, View.colEnd, View.colStride, hv] <;> ring

theorem readI_nat (b : Buf R) (p : Nat) : b.readI (p : Int) = b.read p := by
  simp [Buf.readI]

theorem writeI_nat (b : Buf R) (p : Nat) (x : R) : Alias.writeI b (p : Int) x = b.write p x := by
  simp [Alias.writeI]

theorem View.set_eq' {v : View} {b : Buf R} {i j : Nat} {x : R} (hi : i < v.rows) (hj : j < v.cols) :
    v.set b i j x = b.write (v.base + v.pos i j) x := by
  simp [View.set, assertThat, hi, hj]

/-! ### C133 -/

/-- The direction along a row (`Column`, or the name that means it) and along a column. -/
def AlongRow (d : Direction) (o : Ori) : Prop := d.isRow o = false
def AlongColumn (d : Direction) (o : Ori) : Prop := d.isRow o = true

/-- C133: the names.  `Row` cursors run over the rows, their inner `Column` cursors along the row, in both orientations; `Minor`
is the direction whose lines are contiguous in memory: the rows of a row-major matrix, the columns of a column-major matrix. -/
theorem C133_names (o : Ori) :
    AlongColumn .row o ∧ AlongRow .column o ∧
    (Direction.isRow .minor o = decide (o = .row)) ∧ (Direction.isRow .major o = decide (o = .col)) := by
  cases o <;> simp [AlongColumn, AlongRow, Direction.isRow]

/-- C133: an outer cursor that is moved any number of times in both directions stands at the row (column) with the counted
index; two cursors are equal exactly if they stand at the same one. -/
theorem C133_outer (k l : Nat) (hk : k < sizeMod) (hl : l < sizeMod) (ms ns : List Move) (i j : Nat) (hi : i < sizeMod)
    (hj : j < sizeMod) (h1 : indexAfter k ms = i) (h2 : indexAfter l ns = j) :
    (Outer.walk ⟨k⟩ ms).key = i ∧ ((Outer.walk ⟨k⟩ ms).eq (Outer.walk ⟨l⟩ ns) = true ↔ i = j) := by
  have e1 := Outer.walk_key ⟨k⟩ hk ms
  have e2 := Outer.walk_key ⟨l⟩ hl ns
  dsimp only at e1 e2
  rw [h1] at e1
  rw [h2] at e2
  rw [Int.emod_eq_of_lt (by omega) (by exact_mod_cast hi)] at e1
  rw [Int.emod_eq_of_lt (by omega) (by exact_mod_cast hj)] at e2
  have a1 : (Outer.walk ⟨k⟩ ms).key = i := by exact_mod_cast e1
  have a2 : (Outer.walk ⟨l⟩ ns).key = j := by exact_mod_cast e2
  refine ⟨a1, ?_⟩
  simp [Outer.eq, a1, a2]

theorem key_from_begin (v : View) (i : Nat) (ms : List Move) (j : Nat) (h : indexAfter 0 ms = j) :
    (v.rowBegin i : Int) + indexAfter 0 ms * v.rowStride = ((v.base + v.pos i j : Nat) : Int) := by
  rw [View.pos_row, h]; push_cast; rfl

/-- C133: an inner cursor at the beginning or the end of row `i`, moved in both directions so that it stands at element `j`,
reads and writes exactly element `(i, j)`. -/
theorem C133_row (v : View) (b : Buf R) (d1 d : Direction) (h1 : d1.isRow v.ori = true) (h : AlongRow d v.ori) (i j : Nat)
    (hi : i < v.rows) (hj : j < v.cols) (ms : List Move) :
    (indexAfter 0 ms = j →
      ((Inner.mk' v d (Outer.begin ⟨i⟩ v d1)).walk ms).deref b = v.get b i j ∧
      ∀ x, ((Inner.mk' v d (Outer.begin ⟨i⟩ v d1)).walk ms).assign b x = v.set b i j x) ∧
    (indexAfter v.cols ms = j →
      ((Inner.mk' v d (Outer.end ⟨i⟩ v d1)).walk ms).deref b = v.get b i j ∧
      ∀ x, ((Inner.mk' v d (Outer.end ⟨i⟩ v d1)).walk ms).assign b x = v.set b i j x) := by
  unfold AlongRow at h
  constructor
  · intro e
    have hk : ((Inner.mk' v d (Outer.begin ⟨i⟩ v d1)).walk ms).key = ((v.base + v.pos i j : Nat) : Int) := by
      rw [Inner.walk_eq]
      simp only [Inner.mk', Outer.begin, h1, h, if_true]
      exact key_from_begin v i ms j e
    refine ⟨?_, fun x => ?_⟩
    · rw [Inner.deref, hk, readI_nat, View.get_eq hi hj]
    · rw [Inner.assign, hk, writeI_nat, View.set_eq' hi hj]
  · intro e
    have hk : ((Inner.mk' v d (Outer.end ⟨i⟩ v d1)).walk ms).key = ((v.base + v.pos i j : Nat) : Int) := by
      rw [Inner.walk_eq]
      simp only [Inner.mk', Outer.end, h1, h, if_true]
      rw [View.rowEnd_eq, View.pos_row]
      rw [indexAfter_add] at e
      have : (j : Int) = v.cols + indexAfter 0 ms := e.symm
      push_cast
      rw [this]
      ring
    refine ⟨?_, fun x => ?_⟩
    · rw [Inner.deref, hk, readI_nat, View.get_eq hi hj]
    · rw [Inner.assign, hk, writeI_nat, View.set_eq' hi hj]

/-- C133, the same for columns. -/
theorem C133_column (v : View) (b : Buf R) (d1 d : Direction) (h1 : d1.isRow v.ori = false) (h : AlongColumn d v.ori) (i j : Nat)
    (hi : i < v.rows) (hj : j < v.cols) (ms : List Move) :
    (indexAfter 0 ms = i →
      ((Inner.mk' v d (Outer.begin ⟨j⟩ v d1)).walk ms).deref b = v.get b i j ∧
      ∀ x, ((Inner.mk' v d (Outer.begin ⟨j⟩ v d1)).walk ms).assign b x = v.set b i j x) ∧
    (indexAfter v.rows ms = i →
      ((Inner.mk' v d (Outer.end ⟨j⟩ v d1)).walk ms).deref b = v.get b i j ∧
      ∀ x, ((Inner.mk' v d (Outer.end ⟨j⟩ v d1)).walk ms).assign b x = v.set b i j x) := by
  unfold AlongColumn at h
  constructor
  · intro e
    have hk : ((Inner.mk' v d (Outer.begin ⟨j⟩ v d1)).walk ms).key = ((v.base + v.pos i j : Nat) : Int) := by
      rw [Inner.walk_eq]
      simp only [Inner.mk', Outer.begin, h1, h, if_true, Bool.false_eq_true, if_false]
      rw [View.pos_col, e]; push_cast; rfl
    refine ⟨?_, fun x => ?_⟩
    · rw [Inner.deref, hk, readI_nat, View.get_eq hi hj]
    · rw [Inner.assign, hk, writeI_nat, View.set_eq' hi hj]
  · intro e
    have hk : ((Inner.mk' v d (Outer.end ⟨j⟩ v d1)).walk ms).key = ((v.base + v.pos i j : Nat) : Int) := by
      rw [Inner.walk_eq]
      simp only [Inner.mk', Outer.end, h1, h, if_true, Bool.false_eq_true, if_false]
      rw [View.colEnd_eq, View.pos_col]
      rw [indexAfter_add] at e
      have : (i : Int) = v.rows + indexAfter 0 ms := e.symm
      push_cast
      rw [this]
      ring
    refine ⟨?_, fun x => ?_⟩
    · rw [Inner.deref, hk, readI_nat, View.get_eq hi hj]
    · rw [Inner.assign, hk, writeI_nat, View.set_eq' hi hj]

theorem stride_row {v : View} {n : Nat} (hf : v.Fits n) {i : Nat} (hi : i < v.rows) : 0 < v.rowStride := by
  have := hf.ld
  rcases hv : v.ori <;> simp only [View.rowStride, hv] at * <;> omega

theorem stride_col {v : View} {n : Nat} (hf : v.Fits n) {j : Nat} (hj : j < v.cols) : 0 < v.colStride := by
  have := hf.ld
  rcases hv : v.ori <;> simp only [View.colStride, hv] at * <;> omega

theorem eq_iff (p : Int) (s : Nat) (hs : 0 < s) (ms ns : List Move) :
    ((Inner.walk ⟨p, s⟩ ms).eq (Inner.walk ⟨p, s⟩ ns) = true) ↔ indexAfter 0 ms = indexAfter 0 ns := by
  rw [Inner.walk_eq, Inner.walk_eq]
  simp [Inner.eq, hs.ne']

/-- C133: two cursors on the same row (column) are equal exactly if they stand at the same element; a cursor equals the cursor
at `end()` exactly if it has been moved by the number of elements. -/
theorem C133_equal (v : View) (n : Nat) (hf : v.Fits n) (d1 d2 d : Direction) (h1 : d1.isRow v.ori = true)
    (h2 : d2.isRow v.ori = false) (k : Nat) (ms ns : List Move) :
    (k < v.rows → AlongRow d v.ori →
      (((Inner.mk' v d (Outer.begin ⟨k⟩ v d1)).walk ms).eq ((Inner.mk' v d (Outer.begin ⟨k⟩ v d1)).walk ns) = true ↔
        indexAfter 0 ms = indexAfter 0 ns) ∧
      (((Inner.mk' v d (Outer.begin ⟨k⟩ v d1)).walk ms).eq (Inner.mk' v d (Outer.end ⟨k⟩ v d1)) = true ↔
        indexAfter 0 ms = v.cols)) ∧
    (k < v.cols → AlongColumn d v.ori →
      (((Inner.mk' v d (Outer.begin ⟨k⟩ v d2)).walk ms).eq ((Inner.mk' v d (Outer.begin ⟨k⟩ v d2)).walk ns) = true ↔
        indexAfter 0 ms = indexAfter 0 ns) ∧
      (((Inner.mk' v d (Outer.begin ⟨k⟩ v d2)).walk ms).eq (Inner.mk' v d (Outer.end ⟨k⟩ v d2)) = true ↔
        indexAfter 0 ms = v.rows)) := by
  constructor
  · intro hk h
    unfold AlongRow at h
    have hs := stride_row hf hk
    simp only [Inner.mk', Outer.begin, Outer.end, h1, h, if_true, Bool.false_eq_true, if_false]
    refine ⟨eq_iff _ _ hs _ _, ?_⟩
    rw [Inner.walk_eq, View.rowEnd_eq]
    simp [Inner.eq, hs.ne']
  · intro hk h
    unfold AlongColumn at h
    have hs := stride_col hf hk
    simp only [Inner.mk', Outer.begin, Outer.end, h2, h, if_true, Bool.false_eq_true, if_false]
    refine ⟨eq_iff _ _ hs _ _, ?_⟩
    rw [Inner.walk_eq, View.colEnd_eq]
    simp [Inner.eq, hs.ne']

/-- C133: an element reached by moving a row cursor and then its column cursor is the one reached by moving a column cursor and
then its row cursor. -/
theorem C133_both_ways (v : View) (b : Buf R) (i j : Nat) (hi : i < v.rows) (hj : j < v.cols) (hr : v.rows ≤ sizeMod)
    (hc : v.cols ≤ sizeMod) (ms ns ms' ns' : List Move) (e1 : indexAfter 0 ms = i) (e2 : indexAfter 0 ns = j)
    (e3 : indexAfter 0 ms' = j) (e4 : indexAfter 0 ns' = i) :
    ((Inner.mk' v .column ((Outer.walk ⟨0⟩ ms).begin v .row)).walk ns).deref b = v.get b i j ∧
    ((Inner.mk' v .row ((Outer.walk ⟨0⟩ ms').begin v .column)).walk ns').deref b = v.get b i j := by
  have hS : 0 < sizeMod := by decide
  have a1 := (C133_outer 0 0 hS hS ms ms i i (by omega) (by omega) e1 e1).1
  have a2 := (C133_outer 0 0 hS hS ms' ms' j j (by omega) (by omega) e3 e3).1
  have c1 : Outer.walk ⟨0⟩ ms = ⟨i⟩ := by rw [← a1]
  have c2 : Outer.walk ⟨0⟩ ms' = ⟨j⟩ := by rw [← a2]
  rw [c1, c2]
  exact ⟨((C133_row v b .row .column (by cases v.ori <;> rfl) (by cases v.ori <;> rfl) i j hi hj ns).1 e2).1,
    ((C133_column v b .column .row (by cases v.ori <;> rfl) (by cases v.ori <;> rfl) i j hi hj ns').1 e4).1⟩

/-- The hypotheses are met: a 2×3 column-major matrix; the row cursor goes 0,1,2,1, the column cursor 0,1,2,1,2; backwards from
the end. -/
example : ((Inner.mk' (View.plain .col 2 3) .column ((Outer.walk ⟨0⟩ [.fwd, .fwd, .bwd]).begin (View.plain .col 2 3) .row)).walk
      [.fwd, .fwd, .bwd, .fwd]).deref [some 1, some 2, some 3, some 4, some 5, some 6] = .ok 6 ∧
    ((Inner.mk' (View.plain .col 2 3) .column (Outer.end ⟨1⟩ (View.plain .col 2 3) .row)).walk
      [.bwd, .bwd]).deref [some 1, some 2, some 3, some 4, some 5, some 6] = .ok 4 := by
  constructor <;> rfl

/-! ### C134 -/

/-- C134: `c[n]` is the element `n` places further along the cursor's line if that line is contiguous in memory: row cursors'
columns in row-major matrices, column cursors' rows in column-major ones. -/
theorem C134_contiguous_partial (v : View) (b : Buf R) (d1 d : Direction) (i j : Nat) (hi : i < v.rows) (hj : j < v.cols)
    (ms : List Move) (n k : Nat) :
    (v.ori = .row → d1.isRow v.ori = true → AlongRow d v.ori → indexAfter 0 ms = k → j = k + n →
      ((Inner.mk' v d (Outer.begin ⟨i⟩ v d1)).walk ms).sub b n = v.get b i j ∧
      ∀ x, ((Inner.mk' v d (Outer.begin ⟨i⟩ v d1)).walk ms).subAssign b n x = v.set b i j x) ∧
    (v.ori = .col → d1.isRow v.ori = false → AlongColumn d v.ori → indexAfter 0 ms = k → i = k + n →
      ((Inner.mk' v d (Outer.begin ⟨j⟩ v d1)).walk ms).sub b n = v.get b i j ∧
      ∀ x, ((Inner.mk' v d (Outer.begin ⟨j⟩ v d1)).walk ms).subAssign b n x = v.set b i j x) := by
  constructor
  · intro ho h1 h e hjn
    unfold AlongRow at h
    have hk : ((Inner.mk' v d (Outer.begin ⟨i⟩ v d1)).walk ms).key + n = ((v.base + v.pos i j : Nat) : Int) := by
      rw [Inner.walk_eq, View.pos_row]
      have hs : v.rowStride = 1 := by simp [View.rowStride, ho]
      simp only [Inner.mk', Outer.begin, h1, h, if_true, Bool.false_eq_true, if_false, hs, e, hjn]
      push_cast; ring
    refine ⟨?_, fun x => ?_⟩
    · rw [Inner.sub, hk, readI_nat, View.get_eq hi hj]
    · rw [Inner.subAssign, hk, writeI_nat, View.set_eq' hi hj]
  · intro ho h1 h e hjn
    unfold AlongColumn at h
    have hk : ((Inner.mk' v d (Outer.begin ⟨j⟩ v d1)).walk ms).key + n = ((v.base + v.pos i j : Nat) : Int) := by
      rw [Inner.walk_eq, View.pos_col]
      have hs : v.colStride = 1 := by simp [View.colStride, ho]
      simp only [Inner.mk', Outer.begin, h1, h, if_true, Bool.false_eq_true, if_false, hs, e, hjn]
      push_cast; ring
    refine ⟨?_, fun x => ?_⟩
    · rw [Inner.sub, hk, readI_nat, View.get_eq hi hj]
    · rw [Inner.subAssign, hk, writeI_nat, View.set_eq' hi hj]

/-- C134 (negation): across the storage order the subscript ignores the stride.  A column cursor in row `i` of a column-major
matrix that stands at column `j` reads with `c[n]` the element `n` rows below, not `n` columns to the right. -/
theorem C134_subscript_ignores_stride (v : View) (b : Buf R) (ho : v.ori = .col) (i j n : Nat) (hi : i + n < v.rows)
    (hj : j < v.cols) (ms : List Move) (e : indexAfter 0 ms = j) :
    ((Inner.mk' v .column (Outer.begin ⟨i⟩ v .row)).walk ms).sub b n = v.get b (i + n) j := by
  have hk : ((Inner.mk' v .column (Outer.begin ⟨i⟩ v .row)).walk ms).key + n = ((v.base + v.pos (i + n) j : Nat) : Int) := by
    rw [Inner.walk_eq]
    simp only [Inner.mk', Outer.begin, Direction.isRow, if_true, Bool.false_eq_true, if_false, e]
    simp only [View.rowBegin, View.rowStride, View.pos, ho]
    push_cast; ring
  rw [Inner.sub, hk, readI_nat, View.get_eq hi hj]

/-- C134 (negation), a matrix: the row 0 of `(1 3; 2 4)` is 1, 3, but `c[1]` of its column cursor is 2. -/
theorem C134_counterexample :
    (Inner.mk' (View.plain .col 2 2) .column (Outer.begin ⟨0⟩ (View.plain .col 2 2) .row)).sub
      [some (1 : Nat), some 2, some 3, some 4] 1 = .ok 2 ∧
    (View.plain .col 2 2).get [some (1 : Nat), some 2, some 3, some 4] 0 1 = .ok 3 := by
  constructor <;> rfl

end BB.Cur
