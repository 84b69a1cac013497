import Verif.Lemmas.Layout

/-!
# C01 – C05: addressing, writes, views, striped iteration, cursors
-/

namespace BB

/-- C01.  In an r×c matrix of either orientation, `operator()(i,j)` accesses a cell `p i j` of the
matrix' own array of r*c cells; different index pairs use different cells; every cell is used. -/
theorem C01_addressing_bijective (o : Ori) (r c : Nat) :
    ∃ p : Nat → Nat → Nat,
      (∀ i j, i < r → j < c → p i j < r * c ∧
        ∀ (R : Type) (b : Buf R) (x : R), (View.plain o r c).get b i j = b.read (p i j) ∧
          (View.plain o r c).set b i j x = b.write (p i j) x) ∧
      (∀ i j k l, i < r → j < c → k < r → l < c → p i j = p k l → i = k ∧ j = l) ∧
      (∀ q, q < r * c → ∃ i j, i < r ∧ j < c ∧ p i j = q) := by
  refine ⟨(View.plain o r c).pos, ?_, ?_, ?_⟩
  · intro i j hi hj
    refine ⟨?_, ?_⟩
    · have := (View.plain_fits o r c).bound i j hi hj
      simpa [View.plain] using this
    · intro R b x
      rw [View.get_eq hi hj, View.set_eq hi hj]
      simp [View.plain]
  · intro i j k l hi hj hk hl h
    exact View.pos_inj (View.plain_fits o r c) hi hj hk hl h
  · intro q hq
    cases o with
    | col =>
      have hr : 0 < r := by
        rcases Nat.eq_zero_or_pos r with h | h
        · subst h; simp at hq
        · exact h
      refine ⟨q % r, q / r, Nat.mod_lt _ hr, ?_, ?_⟩
      · exact Nat.div_lt_of_lt_mul hq
      · simp only [View.plain, View.pos]; rw [Nat.mul_comm]; exact Nat.mod_add_div q r
    | row =>
      have hc : 0 < c := by
        rcases Nat.eq_zero_or_pos c with h | h
        · subst h; simp at hq
        · exact h
      refine ⟨q / c, q % c, ?_, Nat.mod_lt _ hc, ?_⟩
      · rw [Nat.mul_comm] at hq; exact Nat.div_lt_of_lt_mul hq
      · simp only [View.plain, View.pos]; rw [Nat.mul_comm]; exact Nat.div_add_mod q c

/-- C01, error branch: an index outside the matrix is caught by an assertion (debug build) and never
reaches memory. -/
theorem C01_out_of_range_asserts (v : View) {R : Type} (b : Buf R) (i j : Nat)
    (h : ¬ (i < v.rows ∧ j < v.cols)) : v.get b i j = .error .assertFail := by
  unfold View.get assertThat
  by_cases hi : i < v.rows
  · have hj : ¬ j < v.cols := fun hj => h ⟨hi, hj⟩
    simp [hi, hj]
  · simp [hi]

example : (View.plain .row 2 3).pos 1 2 = 5 ∧ (View.plain .col 2 3).pos 1 2 = 5 ∧
    (View.plain .row 2 3).pos 1 0 = 3 ∧ (View.plain .col 2 3).pos 1 0 = 1 := by decide

/-- A history of element writes through one view. -/
def writes {R : Type} (v : View) : List (Nat × Nat × R) → Buf R → Res (Buf R)
  | [], b => .ok b
  | (i, j, x) :: ws, b => do
    let b' ← v.set b i j x
    writes v ws b'

/-- C02.  After any history of in-range element writes through a matrix or view, each element reads the
value of the last write to it, or its old value if it was never written; writing never fails. -/
theorem C02_writes_exact {R : Type} (v : View) (b : Buf R) (hf : v.Fits b.length)
    (ws : List (Nat × Nat × R)) (hin : ∀ w ∈ ws, w.1 < v.rows ∧ w.2.1 < v.cols) :
    ∃ b', writes v ws b = .ok b' ∧ b'.length = b.length ∧
      ∀ k l, k < v.rows → l < v.cols →
        v.get b' k l = match ws.reverse.find? (fun w => w.1 = k ∧ w.2.1 = l) with
          | some w => .ok w.2.2
          | none => v.get b k l := by
  induction ws generalizing b with
  | nil => exact ⟨b, rfl, rfl, fun k l _ _ => rfl⟩
  | cons w ws ih =>
    obtain ⟨i, j, x⟩ := w
    have hij := hin (i, j, x) (by simp)
    have hi : i < v.rows := hij.1
    have hj : j < v.cols := hij.2
    have hset : v.set b i j x = .ok (b.set (v.base + v.pos i j) (some x)) := by
      rw [View.set_eq hi hj, Buf.write_ok (hf.bound i j hi hj)]
    have hlen : (b.set (v.base + v.pos i j) (some x)).length = b.length := by simp
    obtain ⟨b', e, hl, hget⟩ := ih (b.set (v.base + v.pos i j) (some x)) (by rw [hlen]; exact hf)
      (fun w hw => hin w (by simp [hw]))
    refine ⟨b', by simp [writes, hset, e], by rw [hl, hlen], ?_⟩
    intro k l hk hl'
    rw [hget k l hk hl', View.get_set hf hi hj hk hl' hset]
    simp only [List.reverse_cons, List.find?_append]
    cases hfind : ws.reverse.find? (fun w => w.1 = k ∧ w.2.1 = l) with
    | some w => simp
    | none =>
      by_cases h : k = i ∧ l = j
      · simp [h]
      · have : ¬ (i = k ∧ j = l) := fun hh => h ⟨hh.1.symm, hh.2.symm⟩
        simp [h, this]

example : (View.plain .row 2 3).Fits 6 := View.plain_fits .row 2 3
example : (View.mk .col 2 2 4 5 3).Fits 10 :=
  View.fits_col rfl (by decide) (by decide)

/-- C03 for parents whose elements are contiguous by column (every plain column-major matrix, and views
of full height): the window view reads parent element (r0+i, c0+j), and a write through it changes that
parent element and no other one. -/
theorem C03_submatrix_window {R : Type} (v : View) (b : Buf R) (hf : v.Fits b.length)
    (ho : v.ori = .col) (hld : v.ldRows = v.rows)
    (nr nc r0 c0 : Nat) (hr : r0 + nr ≤ v.rows) (hc : c0 + nc ≤ v.cols) :
    (∀ i j, i < nr → j < nc → (v.sub nr nc r0 c0).get b i j = v.get b (r0 + i) (c0 + j)) ∧
    (∀ i j x, i < nr → j < nc → ∃ b', (v.sub nr nc r0 c0).set b i j x = .ok b' ∧
        b'.length = b.length ∧
        v.get b' (r0 + i) (c0 + j) = .ok x ∧
        ∀ k l, k < v.rows → l < v.cols → ¬ (k = r0 + i ∧ l = c0 + j) → v.get b' k l = v.get b k l) := by
  have hpos : ∀ i j, (v.sub nr nc r0 c0).base + (v.sub nr nc r0 c0).pos i j
      = v.base + v.pos (r0 + i) (c0 + j) := by
    intro i j
    simp only [View.sub, View.pos, ho, hld]
    ring
  constructor
  · intro i j hi hj
    rw [View.get_eq (by simpa [View.sub] using hi) (by simpa [View.sub] using hj), hpos,
      View.get_eq (by omega) (by omega)]
  · intro i j x hi hj
    have hset : v.set b (r0+i) (c0+j) x = .ok (b.set (v.base + v.pos (r0+i) (c0+j)) (some x)) := by
      rw [View.set_eq (by omega) (by omega), Buf.write_ok (hf.bound _ _ (by omega) (by omega))]
    refine ⟨b.set (v.base + v.pos (r0+i) (c0+j)) (some x), ?_, ?_, ?_, ?_⟩
    · rw [View.set_eq (by simpa [View.sub] using hi) (by simpa [View.sub] using hj), hpos,
        Buf.write_ok (hf.bound _ _ (by omega) (by omega))]
    · simp
    · rw [View.get_set hf (by omega) (by omega) (by omega) (by omega) hset]; simp
    · intro k l hk hl hne
      rw [View.get_set hf (by omega) (by omega) hk hl hset]; simp [hne]

/-- Every plain column-major matrix meets the hypotheses of `C03_submatrix_window`. -/
example (r c : Nat) : (View.plain .col r c).Fits (r * c) ∧ (View.plain .col r c).ori = .col ∧
    (View.plain .col r c).ldRows = (View.plain .col r c).rows :=
  ⟨View.plain_fits .col r c, rfl, rfl⟩

/-- C59, the full claim (views of views) is false of the code: a 2×2 view of the top-left 2×2 view at
(0,0) of a 3×2 matrix reads the wrong element at (0,1): the constructor takes the parent's row count
for the leading dimension. -/
theorem C59_nested_view_is_wrong :
    ∃ (b : Buf Nat) (outer : View), outer = (View.plain .col 3 2).sub 2 2 0 0 ∧
      outer.Fits b.length ∧
      outer.get b 0 1 = .ok 4 ∧ (outer.sub 2 2 0 0).get b 0 1 = .ok 3 := by
  refine ⟨[some 1, some 2, some 3, some 4, some 5, some 6], _, rfl,
    View.fits_col rfl (by decide) (by decide), ?_, ?_⟩ <;> rfl

/-- C05, rows: the inner loop of a row cursor dereferences exactly the cells of (i,0), (i,1), …,
(i,cols-1) in this order, for every orientation and every view. -/
theorem C05_row_cursor (v : View) (n : Nat) (hf : v.Fits n) (i : Nat) (hi : i < v.rows) :
    ∃ ps : List Nat, v.rowVisits i = .ok ps ∧ ps.length = v.cols ∧
      ∀ j, j < v.cols → ∃ p, ps[j]? = some p ∧ p < n ∧
        ∀ (R : Type) (b : Buf R), v.get b i j = b.read p := by
  refine ⟨(List.range v.cols).map (fun j => v.base + v.pos i j), ?_, by simp, ?_⟩
  · rw [View.rowVisits, View.rowLoop hf hi]
    exact loopN_append _ _
  · intro j hj
    refine ⟨v.base + v.pos i j, by simp [hj], hf.bound i j hi hj, ?_⟩
    intro R b
    exact View.get_eq hi hj

/-- C05, columns. -/
theorem C05_column_cursor (v : View) (n : Nat) (hf : v.Fits n) (j : Nat) (hj : j < v.cols) :
    ∃ ps : List Nat, v.colVisits j = .ok ps ∧ ps.length = v.rows ∧
      ∀ i, i < v.rows → ∃ p, ps[i]? = some p ∧ p < n ∧
        ∀ (R : Type) (b : Buf R), v.get b i j = b.read p := by
  refine ⟨(List.range v.rows).map (fun i => v.base + v.pos i j), ?_, by simp, ?_⟩
  · rw [View.colVisits, View.colLoop hf hj]
    exact loopN_append _ _
  · intro i hi
    refine ⟨v.base + v.pos i j, by simp [hi], hf.bound i j hi hj, ?_⟩
    intro R b
    exact View.get_eq hi hj

example : (View.plain .row 2 3).colVisits 1 = .ok [1, 4] ∧ (View.plain .col 2 3).rowVisits 1 = .ok [1, 3, 5] := by
  constructor <;> rfl

end BB

namespace BB

/-- C04 for non-empty windows (at least one block, non-empty blocks, sizes that fit `size_t`/`int`):
forward iteration terminates and visits the `cont*nb` window cells – position `t % cont` of block
`t / cont` – exactly once, in order. -/
theorem C04_striped_iteration (s : Striped) (h : s.Ok) (fuel : Nat) (hf : s.nb * s.cont < fuel) :
    s.visits fuel = .ok ((List.range (s.nb * s.cont)).map
      (fun t => s.data + ((t / s.cont * (s.cont + s.sep) + t % s.cont : Nat) : Int))) := by
  have hb : s.begin = s.at 0 0 := by simp [Striped.begin, Striped.at]
  have := Striped.walk_eq h (s.nb * s.cont) 0 0 fuel h.nb_pos h.cont_pos (by simp) hf
  rw [Striped.visits, hb, this, List.range_eq_range']
  simp only [Nat.zero_mul, Nat.add_zero]
  rfl

/-- C04, reverse iteration yields the same cells in reverse order. -/
theorem C04_striped_reverse (s : Striped) (h : s.Ok) (fuel : Nat) (hf : s.nb * s.cont < fuel) :
    s.rvisits fuel = .ok ((List.range (s.nb * s.cont)).map
      (fun t => s.data + ((t / s.cont * (s.cont + s.sep) + t % s.cont : Nat) : Int))).reverse := by
  have hc := h.cont_pos
  have hn := h.nb_pos
  have hptr : s.endPtr - 1 = (s.at (s.nb - 1) (s.cont - 1)).ptr := by
    simp only [Striped.at, SIter.mk', Striped.endPtr]
    have e1 : ((s.cont - 1 : Nat) : Int) = (s.cont : Int) - 1 := by omega
    have e2 : ((s.nb - 1 : Nat) : Int) = (s.nb : Int) - 1 := by omega
    push_cast
    rw [e1, e2]; ring
  have hb : s.rbegin = s.at (s.nb - 1) (s.cont - 1) := by
    have e2 : ((s.nb - 1 : Nat) : Int) = (s.nb : Int) - 1 := by omega
    unfold Striped.rbegin
    rw [hptr, wrap_pred h.cont_pos h.cont_lt, ← e2]
    rfl
  have hm : s.cont - 1 + (s.nb - 1) * s.cont + 1 = s.nb * s.cont := by
    obtain ⟨n, hn'⟩ : ∃ n, s.nb = n + 1 := ⟨s.nb - 1, by omega⟩
    rw [hn', Nat.add_sub_cancel]
    have : (n+1) * s.cont = n * s.cont + s.cont := by ring
    omega
  rw [Striped.rvisits, hb, Striped.walkBack_eq h _ _ _ fuel (by omega) hm hf]
  rfl

/-- C04: different steps visit different cells, and the iteration covers the elements of the submatrix
window: its t-th step is the cell of element (t % nbRows, t / nbRows). -/
theorem C04_steps_are_elements (v : View) (nr nc r0 c0 : Nat) (hr : r0 + nr ≤ v.rows)
    (t : Nat) :
    let s := v.subStriped nr nc r0 c0
    s.data + ((t / s.cont * (s.cont + s.sep) + t % s.cont : Nat) : Int)
      = (((v.sub nr nc r0 c0).base + (v.sub nr nc r0 c0).pos (t % nr) (t / nr) : Nat) : Int) := by
  have e : nr + (v.rows - nr) = v.rows := by omega
  simp only [View.subStriped, View.sub, View.pos, e]
  push_cast
  ring

example : (Striped.mk 2 3 2 4).Ok := by
  constructor <;> decide
example : (Striped.mk 2 3 2 4).visits 10 = .ok [2, 3, 4, 9, 10, 11] := by rfl

/-- C63, negative for empty blocks: a view with 0 rows and 2 columns of a matrix with 3
rows has no element, but its iteration dereferences 3 cells. -/
theorem C63_view_without_rows_is_wrong :
    ((View.plain .col 3 2).subStriped 0 2 0 0).visits 100 = .ok [0, 1, 2] := by rfl

/-- C63: … and a view without columns never reaches its end iterator, which lies before its begin. -/
theorem C63_view_without_columns_is_wrong : ∀ fuel : Nat,
    ((View.plain .col 3 2).subStriped 1 0 0 0).visits fuel = .error .ub := by
  intro fuel
  exact SIter.walk_beyond _ fuel _ (by decide)

end BB
