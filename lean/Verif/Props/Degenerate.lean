import Verif.Props.Blocked
import Verif.Props.Layout
import Verif.Lemmas.Layout

/-!
# C63, for all degenerate views and blocked products

The negative theorems of C63 show one matrix each for which a degenerate shape goes wrong; here: for every one.
-/

namespace BB

variable {R : Type}

/-- A striped iterator whose block length wrapped to 2^64 moves cell by cell. -/
theorem SIter.walk_wrapped (d : Int) (sep nb n : Nat) : ∀ (k fuel : Nat), k ≤ n → n < sizeMod → n - k < fuel →
    (SIter.mk' (d + k) k 0 0 sep nb).walk fuel (d + n) = .ok ((List.range (n - k)).map fun t => d + ((k + t : Nat) : Int)) := by
  intro k fuel
  induction fuel generalizing k with
  | zero => intro _ _ h; omega
  | succ fuel ih =>
    intro hk hn hf
    rw [SIter.walk]
    by_cases hkn : k = n
    · subst hkn
      rw [if_pos (by rfl), Nat.sub_self]; rfl
    · have hM : (0 + (sizeMod - 1)) % sizeMod = sizeMod - 1 := by decide
      rw [if_neg (by simp only [SIter.mk']; omega)]
      have : (SIter.mk' (d + k) k 0 0 sep nb).incr = .ok (SIter.mk' (d + ((k + 1 : Nat) : Int)) (k + 1) 0 0 sep nb) := by
        unfold SIter.incr
        rw [if_neg (by simp only [SIter.mk', hM]; omega)]
        simp only [SIter.mk', Except.ok.injEq, SIter.mk.injEq, and_true, true_and]
        push_cast; ring
      rw [this, bind_ok', ih (k + 1) (by omega) hn (by omega), bind_ok']
      obtain ⟨m, hm⟩ : ∃ m, n - k = m + 1 := ⟨n - k - 1, by omega⟩
      rw [show n - (k + 1) = m by omega, hm, List.range_succ_eq_map, List.map_cons, List.map_map]
      simp only [SIter.mk', pure_ok', Except.ok.injEq, List.cons.injEq]
      refine ⟨by simp, ?_⟩
      apply List.map_congr_left
      intro t _
      simp only [Function.comp, Nat.succ_eq_add_one]
      push_cast; ring

/-- C63, views without rows, exactly: a view of no rows and `nc ≥ 1` columns has no elements, but iterating over it
dereferences the `(nc − 1)·rows` cells of the viewed matrix that follow its first one. -/
theorem C63_view_without_rows_exact (v : View) (nc r0 c0 fuel : Nat) (hc : 0 < nc) (hn : (nc - 1) * v.rows < sizeMod)
    (hf : (nc - 1) * v.rows < fuel) :
    (v.subStriped 0 nc r0 c0).visits fuel =
      .ok ((List.range ((nc - 1) * v.rows)).map fun t => ((v.base + r0 + c0 * v.rows + t : Nat) : Int)) := by
  have he : (v.subStriped 0 nc r0 c0).endPtr = ((v.base + r0 + c0 * v.rows : Nat) : Int) + (((nc - 1) * v.rows : Nat) : Int) := by
    simp only [Striped.endPtr, View.subStriped, Nat.zero_mul, Nat.sub_zero]
    obtain ⟨m, rfl⟩ : ∃ m, nc = m + 1 := ⟨nc - 1, by omega⟩
    push_cast
    simp
  have hb : (v.subStriped 0 nc r0 c0).begin = SIter.mk' (((v.base + r0 + c0 * v.rows : Nat) : Int) + ((0 : Nat) : Int)) 0 0 0 v.rows nc := by
    simp [Striped.begin, View.subStriped]
  rw [Striped.visits, hb, he, SIter.walk_wrapped _ _ _ _ 0 fuel (by omega) hn (by omega), Nat.sub_zero]
  simp only [Nat.zero_add, Except.ok.injEq]
  apply List.map_congr_left
  intro t _
  push_cast; ring

/-- C63, so: iterating over a view without rows visits nothing, as it should, exactly if the view has one column or the
viewed matrix has no rows. -/
theorem C63_view_without_rows_iff (v : View) (nc r0 c0 fuel : Nat) (hc : 0 < nc) (hn : (nc - 1) * v.rows < sizeMod)
    (hf : (nc - 1) * v.rows < fuel) : (v.subStriped 0 nc r0 c0).visits fuel = .ok [] ↔ nc = 1 ∨ v.rows = 0 := by
  rw [C63_view_without_rows_exact v nc r0 c0 fuel hc hn hf]
  simp only [Except.ok.injEq, List.map_eq_nil_iff, List.range_eq_nil, Nat.mul_eq_zero]
  omega

/-- C63, views without columns, exactly: iterating over one visits nothing, as it should, if the view has as many rows as the
viewed matrix; with fewer rows the iteration never reaches its end. -/
theorem C63_view_without_columns_exact (v : View) (nr r0 c0 fuel : Nat) (hr : nr ≤ v.rows) :
    (nr = v.rows → 0 < fuel → (v.subStriped nr 0 r0 c0).visits fuel = .ok []) ∧
    (nr < v.rows → (v.subStriped nr 0 r0 c0).visits fuel = .error .ub) := by
  have he : (v.subStriped nr 0 r0 c0).endPtr = (v.subStriped nr 0 r0 c0).begin.ptr - ((v.rows - nr : Nat) : Int) := by
    simp only [Striped.endPtr, View.subStriped, Striped.begin, SIter.mk']
    push_cast
    ring
  constructor
  · intro h hf
    obtain ⟨f, rfl⟩ : ∃ f, fuel = f + 1 := ⟨fuel - 1, by omega⟩
    rw [Striped.visits, SIter.walk, if_pos (by rw [he, h]; simp)]
  · intro h
    exact SIter.walk_beyond _ fuel _ (by rw [he]; omega)

/-- The hypotheses can be met, and the visited cells are inside the viewed matrix or not: three columns of no rows. -/
example : ((View.plain .col 3 4).subStriped 0 3 2 1).visits 100 = .ok [5, 6, 7, 8, 9, 10] := by
  rw [C63_view_without_rows_exact _ _ _ _ _ (by decide) (by decide) (by decide)]; rfl

theorem loopN_first {σ : Type} {n : Nat} {f : Nat → σ → Res σ} {s : σ} (hn : 0 < n) (h : f 0 s = .error .ub) : loopN n f s = .error .ub := by
  induction n with
  | zero => omega
  | succ n ih =>
    rw [loopN]
    rcases Nat.eq_zero_or_pos n with rfl | hp
    · rw [loopN]; exact h
    · rw [ih hp]; rfl

theorem loopN_id {σ : Type} {n : Nat} {f : Nat → σ → Res σ} {s : σ} (h : ∀ i s, f i s = .ok s) : loopN n f s = .ok s := by
  induction n with
  | zero => rfl
  | succ n ih => rw [loopN, ih]; exact h n s

theorem loopN_fst {σ τ : Type} (step : Nat → τ × σ → τ) (n : Nat) (p : τ) (d : σ) :
    ∃ p', loopN n (fun j (u : τ × σ) => (pure (step j u, u.2) : Res _)) (p, d) = .ok (p', d) := by
  induction n with
  | zero => exact ⟨p, rfl⟩
  | succ n ih =>
    obtain ⟨p', e⟩ := ih
    rw [loopN, e]
    exact ⟨_, rfl⟩

/-- C63, blocked products without an inner block, exactly: the product succeeds, all its blocks are null pointers, and
converting it to a dense matrix is undefined exactly if it has a block (otherwise the result is an empty matrix). -/
theorem C63_blocked_no_inner_exact [NonUnitalSemiring R] [DecidableEq R] (A B : Blocked R) (rs cs : List Nat) (f g : Nat → Nat → R)
    (hA : A.Is rs [] f) (hB : B.Is [] cs g) :
    ∃ C, A.mul B = .ok C ∧ C.grid.data = Buf.alloc (rs.length * cs.length) ∧
      (rs ≠ [] → cs ≠ [] → C.toDense = .error .ub) ∧
      (rs = [] ∨ cs = [] → ∃ D, C.toDense = .ok D ∧ D.Is rs.sum cs.sum (fun _ _ => 0)) := by
  have hv : A.grid.view.rowBegin = fun i => i := by
    funext i; simp [View.rowBegin, Dense.view, View.plain, hA.ori]
  have hw : A.grid.view.rowEnd = fun i => i := by
    funext i; simp [View.rowEnd, Dense.view, View.plain, hA.ori, hA.cols]
  have e : A.mul B = .ok ⟨⟨.col, ⟨rs.length, cs.length, 0⟩, Buf.alloc (rs.length * cs.length)⟩, A.ubRows, B.ubCols⟩ := by
    unfold Blocked.mul Blocks.mulWith
    rw [hA.rows, hB.cols, hv, hw]
    simp only [if_true]
    rw [ptrLoop_eq _ rs.length 0 _ 1 _ (by omega) (by omega), loopN_id, bind_ok']
    · rfl
    · intro i d
      rw [ptrLoop_eq _ cs.length 0 _ 1 _ (by omega) (by omega)]
      obtain ⟨p, hp⟩ := loopN_fst (fun (_ : Nat) (u : Nat × Buf (Mat R)) => u.1 + (Dense.view ⟨.col, ⟨rs.length, cs.length, 0⟩, Buf.alloc (rs.length * cs.length)⟩ : View).rowStride) cs.length
        ((Dense.view ⟨.col, ⟨rs.length, cs.length, 0⟩, Buf.alloc (rs.length * cs.length)⟩ : View).rowBegin (0 + i * 1)) d
      rw [hp]; rfl
  refine ⟨_, e, rfl, ?_, ?_⟩
  · intro hr hc
    have hr := List.length_pos_iff.2 hr
    have hc := List.length_pos_iff.2 hc
    unfold Blocked.toDense Blocks.toDenseWith
    dsimp only
    rw [ptrLoop_eq _ rs.length 0 _ 1 _ (by omega) (by omega), loopN_first hr]
    · rfl
    · rw [ptrLoop_eq _ cs.length _ _ _ _ (by intro _; simpa [View.rowStride, Dense.view, View.plain] using hr)
        (by simp [View.rowBegin, View.rowStride, View.rowEnd, Dense.view, View.plain, Nat.mul_comm]), loopN_first hc]
      · rfl
      · have : (Buf.alloc (rs.length * cs.length) : Buf (Mat R)).read 0 = .error .ub := by
          simp [Buf.read, Buf.alloc, Nat.mul_pos hr hc]
        simp [View.rowBegin, Dense.view, View.plain, this]
  · intro h
    have : Blocked.Is (R := R) ⟨⟨.col, ⟨rs.length, cs.length, 0⟩, Buf.alloc (rs.length * cs.length)⟩, A.ubRows, B.ubCols⟩ rs cs (fun _ _ => 0) :=
      ⟨rfl, rfl, rfl, by simp, hA.ubRows, hB.ubCols, by
        intro i j hi hj
        rcases h with rfl | rfl
        · simp at hi
        · simp at hj⟩
    obtain ⟨D, eD, -, hD⟩ := Blocked.toDense_sat this
    exact ⟨D, eD, hD⟩

end BB
