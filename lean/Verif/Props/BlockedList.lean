import Verif.Model.BlockedList
import Verif.Lemmas.Blocked

/-!
# C68 (and C49) for lists of blocks
-/

namespace BB.Blocked

variable {R : Type}

/-- A loop whose steps keep the invariant or fail with `e`, and the latter only if `Bad`. -/
theorem loopN_or {σ : Type} {n : Nat} {f : Nat → σ → Res σ} {s : σ} {e : Fault} {Bad : Prop} (I : Nat → σ → Prop) (h0 : I 0 s)
    (hs : ∀ i s, i < n → I i s → (∃ s', f i s = .ok s' ∧ I (i+1) s') ∨ (f i s = .error e ∧ Bad)) :
    (∃ s', loopN n f s = .ok s' ∧ I n s') ∨ (loopN n f s = .error e ∧ Bad) := by
  induction n with
  | zero => exact Or.inl ⟨s, rfl, h0⟩
  | succ n ih =>
    rcases ih (fun i s hi => hs i s (by omega)) with ⟨s1, e1, i1⟩ | ⟨e1, b⟩
    · rcases hs n s1 (by omega) i1 with ⟨s2, e2, i2⟩ | ⟨e2, b⟩
      · exact Or.inl ⟨s2, by simp [loopN, e1, e2, Except.bind], i2⟩
      · exact Or.inr ⟨by simp [loopN, e1, e2, Except.bind], b⟩
    · exact Or.inr ⟨by simp [loopN, e1, Except.bind], b⟩

/-- The block at (i,j) of the lists. -/
def listAt (values : List (List (Mat R))) (i j : Nat) : Option (Mat R) := (values[i]?).bind (fun row => row[j]?)

/-- All blocks in a row have the height of its first block. -/
def HeightsAgree (values : List (List (Mat R))) (w : Nat) : Prop :=
  ∀ i j M M0, j < w → listAt values i j = some M → listAt values i 0 = some M0 → M.rows = M0.rows

theorem vecRead_some {α : Type} {l : List α} {i : Nat} {x : α} (h : l[i]? = some x) : vecRead l i = .ok x := by
  simp [vecRead, h]

/-- The total width of the first `j` blocks of row `i`. -/
def widthTo (values : List (List (Mat R))) (i j : Nat) : Nat :=
  ∑ l ∈ Finset.range j, ((listAt values i l).map Mat.cols).getD 0

/-- The total height of the first `i` rows, judged by their first blocks. -/
def heightTo (values : List (List (Mat R))) (i : Nat) : Nat :=
  ∑ l ∈ Finset.range i, ((listAt values l 0).map Mat.rows).getD 0

theorem ofLists_main (values : List (List (Mat R))) (first : List (Mat R)) (rest : List (List (Mat R))) (hv : values = first :: rest)
    (hw : 0 < first.length) (hlen : ∀ row ∈ values, first.length ≤ row.length) :
    (∃ B, ofLists values = .ok B ∧ B.grid.ori = .col ∧ B.grid.dim = Dim.mk' values.length first.length ∧
      B.grid.data.length = values.length * first.length ∧
      (∀ i j, i < values.length → j < first.length → ∃ M, listAt values i j = some M ∧ B.grid.get i j = .ok M) ∧
      B.ubRows = heightTo values values.length ∧ B.ubCols = widthTo values rest.length first.length ∧ HeightsAgree values first.length) ∨
    (ofLists values = .error (.throw "wrong sub-dimension") ∧ ¬ HeightsAgree values first.length) := by
  have cell : ∀ i j, i < values.length → j < first.length → ∃ row M, values[i]? = some row ∧ row[j]? = some M ∧ listAt values i j = some M := by
    intro i j hi hj
    have h1 : values[i]? = some values[i] := List.getElem?_eq_getElem hi
    have h2 : j < (values[i]).length := Nat.lt_of_lt_of_le hj (hlen _ (List.getElem_mem hi))
    refine ⟨_, _, h1, List.getElem?_eq_getElem h2, ?_⟩
    rw [listAt, h1, Option.bind_some, List.getElem?_eq_getElem h2]
  have e : ofLists values = (do
      let G : Dense (Mat R) := Dense.new .col values.length first.length
      let x ← ptrLoop 0 values.length 1 (listRow G values) (0, 0, G.data)
      return ⟨{ G with data := x.2.2 }, x.1, x.2.1⟩) := by subst hv; rfl
  rw [e]
  have fit := View.plain_fits .col values.length first.length
  dsimp only
  rw [ptrLoop_eq _ values.length 0 values.length 1 _ (by omega) (by omega)]
  have hview : (Dense.new .col values.length first.length : Dense (Mat R)).view = View.plain .col values.length first.length := rfl
  refine Or.elim (loopN_or (n := values.length) (e := .throw "wrong sub-dimension") (Bad := ¬ HeightsAgree values first.length)
    (f := fun i => listRow (Dense.new .col values.length first.length) values (0 + i * 1))
    (s := (0, 0, (Dense.new .col values.length first.length : Dense (Mat R)).data))
    (fun i s => s.1 = heightTo values i ∧ (0 < i → s.2.1 = widthTo values (i - 1) first.length) ∧ s.2.2.length = values.length * first.length ∧
      (View.plain .col values.length first.length).Cells s.2.2 (fun i' j => if i' < i then listAt values i' j else none) ∧
      ∀ i' j M M0, i' < i → j < first.length → listAt values i' j = some M → listAt values i' 0 = some M0 → M.rows = M0.rows)
    ⟨by simp [heightTo], fun h => absurd h (Nat.lt_irrefl _), by simp [Dense.new], by simpa [Dense.new] using View.alloc_cells fit,
      fun _ _ _ _ h => absurd h (Nat.not_lt_zero _)⟩ ?step) ?_ ?_
  case step =>
    rintro i ⟨ur, uc, d⟩ hi ⟨h1, -, h3, h4, h5⟩
    simp only at h1 h3 h4
    obtain ⟨row, M0, hrow, hM0, hl0⟩ := cell i 0 hi hw
    simp only [Nat.zero_add, Nat.mul_one, listRow, vecRead_some hrow, bind_ok', vecRead_some hM0, hview]
    rw [View.rowLoop fit hi]
    refine Or.elim (loopN_or (n := (View.plain .col values.length first.length).cols) (e := .throw "wrong sub-dimension") (Bad := ¬ HeightsAgree values first.length)
      (f := fun j => listCell row M0.rows ((View.plain .col values.length first.length).base + (View.plain .col values.length first.length).pos i j))
      (s := (0, 0, d))
      (fun j u => u.1 = j ∧ u.2.1 = widthTo values i j ∧ u.2.2.length = values.length * first.length ∧
        (View.plain .col values.length first.length).Cells u.2.2 (fun i' j' => if i' < i ∨ i' = i ∧ j' < j then listAt values i' j' else none) ∧
        ∀ j' M, j' < j → listAt values i j' = some M → M.rows = M0.rows)
      ⟨rfl, by simp [widthTo], h3, by simpa using h4, fun _ _ h => absurd h (Nat.not_lt_zero _)⟩ ?step) ?_ ?_
    case step =>
      rintro j ⟨q, w, d⟩ hj ⟨rfl, g2, g3, g4, g5⟩
      simp only at g2 g3 g4
      have hj' : q < first.length := hj
      obtain ⟨row', M, hrow', hM, hl⟩ := cell i q hi hj'
      rw [hrow] at hrow'
      cases hrow'
      have hwr : Sat (d.write ((View.plain .col values.length first.length).base + (View.plain .col values.length first.length).pos i q) M)
          (fun b' => b'.length = values.length * first.length ∧ (View.plain .col values.length first.length).Cells b'
            (fun i' j' => if i' < i ∨ i' = i ∧ j' < q + 1 then listAt values i' j' else none)) := by
        have := Sat.writeCell (Q := fun b' => b'.length = values.length * first.length ∧ (View.plain .col values.length first.length).Cells b'
            (fun i' j' => if i' < i ∨ i' = i ∧ j' < q + 1 then listAt values i' j' else none)) (f := fun b => .ok b) (x := M)
            g4 (by rw [g3]; exact fit) (i := i) (j := q) hi hj rfl (by
          intro b' hl' hc'
          refine ⟨_, rfl, by rw [hl', g3], hc'.congr ?_⟩
          intro a b ha hb
          by_cases h1 : a = i ∧ b = q
          · obtain ⟨rfl, rfl⟩ := h1
            simp [hl]
          · rw [if_neg h1]
            have : (a < i ∨ a = i ∧ b < q) ↔ (a < i ∨ a = i ∧ b < q + 1) := by omega
            simp only [this])
        obtain ⟨a, ea, ha⟩ := this
        refine ⟨a, ?_, ha⟩
        revert ea
        cases d.write _ M with
        | error z => intro ea; exact ea
        | ok z => intro ea; exact ea
      obtain ⟨b', eb, k1, k2⟩ := hwr
      simp only [listCell, vecRead_some hM, bind_ok', eb]
      by_cases hh : M0.rows = M.rows
      · left
        rw [if_neg (by simpa using hh)]
        refine ⟨_, rfl, rfl, ?_, k1, k2, ?_⟩
        · simp only [widthTo, Finset.sum_range_succ, hl, Option.map_some, Option.getD_some, g2]
        · intro j' M' hj' hM'
          by_cases hq : j' = q
          · subst hq
            rw [hl] at hM'
            cases hM'
            exact hh.symm
          · exact g5 j' M' (show j' < q by omega) hM'
      · right
        rw [if_pos hh]
        exact ⟨rfl, fun hA => hh (hA i q M M0 hj' hl hl0).symm⟩
    · rintro ⟨u, e1, g1, g2, g3, g4, g5⟩
      left
      rw [e1]
      refine ⟨_, rfl, ?_, ?_, g3, ?_, ?_⟩
      · simp only [h1, heightTo, Finset.sum_range_succ, hl0, Option.map_some, Option.getD_some]
      · intro _
        simp only [Nat.add_sub_cancel]
        exact g2
      · refine g4.congr ?_
        intro a b ha hb
        have hb' : b < first.length := hb
        have : (a < i ∨ a = i ∧ b < (View.plain .col values.length first.length).cols) ↔ a < i + 1 := by
          constructor
          · rintro (h | ⟨h, -⟩) <;> omega
          · intro h
            by_cases ha : a = i
            · exact Or.inr ⟨ha, hb⟩
            · exact Or.inl (by omega)
        simp only [this]
      · intro i' j M M0' hi' hj hM hM0'
        by_cases hq : i' = i
        · subst hq
          rw [hl0] at hM0'
          cases hM0'
          exact g5 j M hj hM
        · exact h5 i' j M M0' (by omega) hj hM hM0'
    · rintro ⟨e1, hb⟩
      right
      rw [e1]
      exact ⟨rfl, hb⟩
  · rintro ⟨s, e1, h1, h2, h3, h4, h5⟩
    left
    rw [e1]
    refine ⟨_, rfl, rfl, rfl, h3, ?_, h1, ?_, ?_⟩
    · intro i j hi hj
      obtain ⟨-, M, -, -, hM⟩ := cell i j hi hj
      refine ⟨M, hM, ?_⟩
      have := h4 i j hi hj
      beta_reduce at this
      rw [if_pos hi, hM] at this
      exact (View.get_eq (v := View.plain .col values.length first.length) hi hj).trans (Buf.read_ok.2 this)
    · have := h2 (by rw [hv]; simp)
      simp only
      rw [this, hv]
      simp
    · intro i j M M0 hj hM hM0
      refine h5 i j M M0 ?_ hj hM hM0
      by_contra hn
      rw [listAt, List.getElem?_eq_none (by omega)] at hM
      cases hM
  · rintro ⟨e1, hb⟩
    right
    rw [e1]
    exact ⟨rfl, hb⟩

/-- C49 for lists of blocks: if the blocks fit together – block (i,j) is an rs[i]×cs[j] window of the matrix `f`, there is at
least one column of blocks – the constructor returns the blocked matrix that denotes `f`. -/
theorem C49_block_lists [Zero R] [Add R] (values : List (List (Mat R))) (rs cs : List Nat) (f : Nat → Nat → R) (hr : values.length = rs.length)
    (hr0 : rs ≠ []) (hc0 : cs ≠ []) (hrow : ∀ row ∈ values, row.length = cs.length)
    (hblocks : ∀ i j, i < rs.length → j < cs.length → ∃ M, listAt values i j = some M ∧
      M.Is (rs.getD i 0) (cs.getD j 0) (fun a b => f (offs rs i + a) (offs cs j + b))) :
    ∃ B, ofLists values = .ok B ∧ B.Is rs cs f := by
  obtain ⟨first, rest, hv⟩ : ∃ first rest, values = first :: rest := by
    cases values with
    | nil => cases rs with
      | nil => exact absurd rfl hr0
      | cons _ _ => cases hr
    | cons a b => exact ⟨a, b, rfl⟩
  have hfl : first.length = cs.length := hrow first (by rw [hv]; simp)
  have hcl : 0 < cs.length := List.length_pos_iff.2 hc0
  have hrl : 0 < rs.length := List.length_pos_iff.2 hr0
  have sum_eq : ∀ (l : List Nat) (F : Nat → Nat), (∀ i, i < l.length → F i = l.getD i 0) → ∑ i ∈ Finset.range l.length, F i = l.sum := by
    intro l F h
    have key : ∀ k, k ≤ l.length → ∑ i ∈ Finset.range k, F i = offs l k := by
      intro k
      induction k with
      | zero => intro _; simp [offs]
      | succ k ih => intro hk; rw [Finset.sum_range_succ, ih (by omega), h k (by omega), offs_succ l (by omega)]
    rw [key _ (Nat.le_refl _), offs_length]
  rcases ofLists_main values first rest hv (by omega) (fun row h => by rw [hrow row h, hfl]) with
    ⟨B, e, h1, h2, h3, h4, h5, h6, -⟩ | ⟨-, hb⟩
  · refine ⟨B, e, h1, ?_, ?_, ?_, ?_, ?_, ?_⟩
    · rw [h2]; exact hr
    · rw [h2]; exact hfl
    · rw [h3, hr, hfl]
    · rw [h5, heightTo, hr]
      refine sum_eq rs _ (fun i hi => ?_)
      obtain ⟨M, hM, hI⟩ := hblocks i 0 hi hcl
      rw [hM]
      exact mat_rows hI
    · rw [h6, widthTo, hfl]
      refine sum_eq cs _ (fun j hj => ?_)
      have : rest.length < rs.length := by rw [← hr, hv]; simp
      obtain ⟨M, hM, hI⟩ := hblocks rest.length j this hj
      rw [hM]
      exact mat_cols hI
    · intro i j hi hj
      obtain ⟨M, hM, hI⟩ := hblocks i j hi hj
      obtain ⟨M', hM', hg⟩ := h4 i j (by rw [hr]; exact hi) (by rw [hfl]; exact hj)
      rw [hM] at hM'
      cases hM'
      exact ⟨M, hg, hI⟩
  · refine absurd ?_ hb
    intro i j M M0 hj hM hM0
    have hi : i < rs.length := by
      by_contra hn
      rw [listAt, List.getElem?_eq_none (by omega)] at hM
      cases hM
    obtain ⟨M', hM', hI⟩ := hblocks i j hi (by omega)
    obtain ⟨M0', hM0', hI0⟩ := hblocks i 0 hi hcl
    rw [hM] at hM'
    rw [hM0] at hM0'
    cases hM'
    cases hM0'
    rw [mat_rows hI, mat_rows hI0]

/-- C68 for lists of blocks without a row shorter than the first one: the constructor reports blocks of different heights in
one row by an exception, and reports nothing else.  (Missing: shorter rows, empty lists and rows, and columns of blocks with
different widths, for which the claim is false, `C68_block_lists_is_wrong`; element lists, `C68_ragged_is_ub`.) -/
theorem C68_block_heights_partial (first : List (Mat R)) (rest : List (List (Mat R))) (hw : 0 < first.length)
    (hlen : ∀ row ∈ rest, first.length ≤ row.length) :
    (HeightsAgree (first :: rest) first.length → ∃ B, ofLists (first :: rest) = .ok B) ∧
    (¬ HeightsAgree (first :: rest) first.length → ofLists (first :: rest) = .error (.throw "wrong sub-dimension")) := by
  rcases ofLists_main (first :: rest) first rest rfl hw (by
    intro row h
    rcases List.mem_cons.1 h with rfl | h
    · exact Nat.le_refl _
    · exact hlen row h) with ⟨B, e, -, -, -, -, -, -, h⟩ | ⟨e, h⟩
  · exact ⟨fun _ => ⟨B, e⟩, fun hn => absurd h hn⟩
  · exact ⟨fun hn => absurd hn h, fun _ => e⟩

/-- C68, negative: two blocks of widths 2 and 1 on top of each other are accepted, and converting the result to a dense matrix
writes out of bounds; a row without blocks, a shorter row and an empty list are read past their ends. -/
theorem C68_block_lists_is_wrong :
    let a : Mat Int := .one (.zero (Dim.mk' 1 2))
    let b : Mat Int := .one (.zero (Dim.mk' 1 1))
    (∃ B, ofLists [[a], [b]] = .ok B ∧ B.toDense = .error .ub) ∧
    ofLists ([[]] : List (List (Mat Int))) = .error .ub ∧ ofLists [[a, b], [a]] = .error .ub ∧
    ofLists ([] : List (List (Mat Int))) = .error .ub := by
  intro a b
  refine ⟨⟨_, rfl, ?_⟩, rfl, rfl, rfl⟩
  rfl

/-- Non-vacuity: blocks 1×2, 1×1 over 2×2, 2×1 form a 3×3 matrix; a block of wrong height is rejected. -/
example : (∃ B, ofLists [[.one (.zero (Dim.mk' 1 2)), .one (.zero (Dim.mk' 1 1))],
      [.one (.zero (Dim.mk' 2 2)), (.one (.dense (Dense.ofFn .col 2 1 (fun i _ => ((i : Nat) : Int)))))]] = .ok B ∧
      B.ubRows = 3 ∧ B.ubCols = 3) ∧
    ofLists [[.one (.zero (Dim.mk' 1 2)), (.one (.zero (Dim.mk' 2 1)) : Mat Int)]] = .error (.throw "wrong sub-dimension") :=
  ⟨⟨_, rfl, rfl, rfl⟩, rfl⟩

end BB.Blocked
