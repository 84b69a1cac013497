import Verif.Props.SparseProg
import Verif.Props.Universal
/-!
# Sparse matrices that report another size than they have elements
-/
namespace BB
variable {R : Type}

/-- The first `m` cells of an array of any length, with zeros behind its end. -/
def Buf.fit {T : Type} [Zero T] (m : Nat) (d : Buf T) : Buf T := (d ++ List.replicate m (some 0)).take m

theorem Buf.length_fit {T : Type} [Zero T] (m : Nat) (d : Buf T) : (Buf.fit m d).length = m := by simp [Buf.fit]

theorem Buf.fit_get {T : Type} [Zero T] {m : Nat} {d : Buf T} {p : Nat} (h : p < d.length) (hm : p < m) : (Buf.fit m d)[p]? = d[p]? := by
  unfold Buf.fit
  rw [List.getElem?_take_of_lt hm, List.getElem?_append_left h]

theorem Buf.fit_write {T : Type} [Zero T] {m : Nat} {d b : Buf T} {p : Nat} {x : T} (h : p < d.length) (hw : (Buf.fit m d).write p x = .ok b) :
    d.write p x = .ok (d.set p (some x)) ∧ b = Buf.fit m (d.set p (some x)) := by
  refine ⟨Buf.write_ok h, ?_⟩
  unfold Buf.write at hw
  split at hw
  · cases hw
    unfold Buf.fit
    rw [← List.set_append_left _ _ h, List.take_set]
  · cases hw

theorem Buf.fit_replicate {T : Type} [Zero T] (m n : Nat) : Buf.fit m (List.replicate n (some (0 : T))) = List.replicate m (some 0) := by
  unfold Buf.fit
  rw [List.replicate_append_replicate, List.take_replicate]
  congr 1; omega

namespace Sparse

theorem toDense_any {T : Type} [Zero R] [Zero T] (cvt : R → T) (hc0 : cvt 0 = 0) (o : Ori) {S : Sparse R} {r c n : Nat}
    {L : List (List (Nat × R))} (h : S.Valid r c L) (hgood : ∀ q run e, L[q]? = some run → e ∈ run →
      (if S.ori = o then q * o.majorIx r c + e.1 else q + e.1 * o.majorIx r c) < n) :
    Sat (({ S with dim := { S.dim with fullSize := n } } : Sparse R).toDense cvt o) (fun D => D.ori = o ∧ D.dim = Dim.mk' r c ∧ D.data.length = n ∧
      (View.plain o r c).Cells (Buf.fit (r * c) D.data)
        (fun i j => some (cvt (entryAt (L.getD (S.ori.minorIx i j) []) (S.ori.majorIx i j))))) := by
  have eq : ({ S with dim := { S.dim with fullSize := n } } : Sparse R).toDense cvt o =
      (S.forRuns (fun q (s : Nat × Buf T) => do
        let d ← S.forRun q (fun k x d =>
          if S.ori = o then d.write (s.1 + k) (cvt x)
          else d.write (s.1 + k * (Dim.mk' S.dim.rows S.dim.cols).major o) (cvt x)) s.2
        return (if S.ori = o then s.1 + (Dim.mk' S.dim.rows S.dim.cols).major o else s.1 + 1, d)) (0, List.replicate n (some (0 : T))) >>=
        fun s => pure ⟨o, Dim.mk' S.dim.rows S.dim.cols, s.2⟩) := by
    unfold toDense
    rw [Dense.fillBuf_ok, bind_ok', Buf.length_alloc]
    rfl
  rw [eq]
  have fit := gridView_fits S.ori o r c
  have hrow := gridView_rows S.ori o r c
  have hcol := gridView_cols S.ori o r c
  have hstep : (Dim.mk' S.dim.rows S.dim.cols).major o = if S.ori = o then S.ori.majorIx r c else S.ori.minorIx r c := by
    rw [h.rows, h.cols]
    cases S.ori <;> cases o <;> simp [Dim.major, Dim.mk', Ori.majorIx, Ori.minorIx]
  have hmaj : o.majorIx r c = (Dim.mk' S.dim.rows S.dim.cols).major o := by
    rw [h.rows, h.cols]; cases o <;> rfl
  refine Sat.bind (Sat.forRuns h (fun q s => s.1 = (if S.ori = o then q * S.ori.majorIx r c else q) ∧ s.2.length = n ∧
    (gridView S.ori o r c).Cells (Buf.fit (r * c) s.2) (fun q' k => some (cvt (if q' < q then entryAt (L.getD q' []) k else 0)))) ?_ ?_) ?_
  · refine ⟨by simp, by simp, ?_⟩
    rw [gridView_cells, Buf.fit_replicate]
    simpa [hc0] using Dense.replicate_cells o r c (0 : T)
  · rintro q run ⟨it, d⟩ hq ⟨h1, hl, hcell⟩
    simp only at h1 hl hcell
    have hmem : run ∈ L := List.mem_of_getElem? hq
    have hql : q < S.ori.minorIx r c := by
      have := (List.getElem?_eq_some_iff.mp hq).1
      rw [← h.runs]; exact this
    have hgd : L.getD q [] = run := by simp [List.getD, hq]
    refine Sat.bind (Sat.forRun h hq (fun pre d => d.length = n ∧
      (gridView S.ori o r c).Cells (Buf.fit (r * c) d) (fun q' k => some (cvt (if q' < q then entryAt (L.getD q' []) k else
        if q' = q then entryAt pre k else 0)))) ⟨hl, hcell.congr ?_⟩ ?_) ?_
    · intro a b _ _; simp [entryAt_nil]
    · intro pre e suf d hrun ⟨hl, hcell⟩
      have hk : e.1 < S.ori.majorIx r c := h.bound run hmem e (by rw [hrun]; simp)
      have hlt : ∀ a ∈ pre, a.1 < e.1 := sorted_prefix_lt (by rw [← hrun]; exact h.sorted run hmem)
      have hin := hgood q run e hq (by rw [hrun]; simp)
      have key : ∀ p, p = (gridView S.ori o r c).base + (gridView S.ori o r c).pos q e.1 → p < n →
          Sat (d.write p (cvt e.2)) (fun d => d.length = n ∧
            (gridView S.ori o r c).Cells (Buf.fit (r * c) d) (fun q' k => some (cvt (if q' < q then entryAt (L.getD q' []) k else
              if q' = q then entryAt (pre ++ [e]) k else 0)))) := by
        intro p hp hpn
        obtain ⟨b', hw, hl', hc', -⟩ := hcell.write (by rw [Buf.length_fit]; exact fit) (cvt e.2) (i := q) (j := e.1)
          (by rw [hrow]; exact hql) (by rw [hcol]; exact hk)
        rw [← hp] at hw
        obtain ⟨w1, w2⟩ := Buf.fit_write (by omega) hw
        refine ⟨_, w1, by rw [List.length_set]; exact hl, ?_⟩
        rw [← w2]
        refine hc'.congr ?_
        intro a b _ _
        rw [entryAt_append pre e b hlt]
        by_cases ha : a = q
        · subst ha
          by_cases hb : b = e.1
          · simp [hb]
          · simp [hb]
        · simp [ha]
      split
      · rename_i ho
        refine key _ ?_ ?_
        · rw [h1, if_pos ho]
          simp [gridView, ho, View.plain, View.pos]
        · rw [if_pos ho] at hin
          rw [h1, if_pos ho, ho]; exact hin
      · rename_i ho
        refine key _ ?_ ?_
        · rw [h1, if_neg ho, hstep, if_neg ho]
          simp [gridView, ho, View.plain, View.pos]
        · rw [if_neg ho, hmaj] at hin
          rw [h1, if_neg ho]; exact hin
    · rintro d ⟨hl, hcell⟩
      refine Sat.pure ⟨?_, hl, hcell.congr ?_⟩
      · simp only [hstep, h1]
        split
        · ring
        · rfl
      · intro a b _ _
        by_cases h1 : a < q
        · simp [h1, Nat.lt_succ_of_lt h1]
        · by_cases h2 : a = q
          · subst h2
            simp only [Nat.lt_irrefl, if_false, if_true, Nat.lt_succ_self, hgd]
          · have : ¬ a < q + 1 := by omega
            simp [h1, h2, this]
  · rintro ⟨it, d⟩ ⟨-, hl, hcell⟩
    refine Sat.pure ⟨rfl, ?_, hl, ?_⟩
    · rw [h.rows, h.cols]
    · refine ((gridView_cells S.ori o r c).mp hcell).congr ?_
      intro i j hi hj
      have : S.ori.minorIx i j < L.length := by rw [h.runs]; exact minorIx_lt hi hj
      simp [this]
end Sparse

/-- C47, for all operands: if everything that the second matrix stores lies in the part of the array that the size of the first covers, the
conversion of the first after `swap` succeeds, with the dimensions of the second and an array of the size of the first: the elements
inside are right, access to the others is undefined. -/
theorem C47_swapped_conversion_exact [LinearOrder R] [AddGroup R] {T V : Type} [Zero T] (nrm : Sparse R → Res V) (cvt : R → T) (hc0 : cvt 0 = 0)
    (o : Ori) (A B : Sparse R) (r c r' c' : Nat) (LA LB : List (List (Nat × R))) (hA : A.Valid r c LA) (hB : B.Valid r' c' LB)
    (hgood : ∀ q run e, LB[q]? = some run → e ∈ run → (if B.ori = o then q * o.majorIx r' c' + e.1 else q + e.1 * o.majorIx r' c') < r * c) :
    ∃ D, ((Cache.sparseOps nrm).swapped A B).1.toDense cvt o = .ok D ∧ D.ori = o ∧ D.dim.rows = r' ∧ D.dim.cols = c' ∧ D.data.length = r * c ∧
      ∀ i j, i < r' → j < c' → D.get i j = if o.majorIx i j + o.minorIx i j * o.majorIx r' c' < r * c then
        .ok (cvt (entryAt (LB.getD (B.ori.minorIx i j) []) (B.ori.majorIx i j))) else .error .ub := by
  obtain ⟨D, d1, d2, d3, d4, d5⟩ := Sparse.toDense_any cvt hc0 o (n := r * c) hB hgood
  refine ⟨D, ?_, d2, by rw [d3]; rfl, by rw [d3]; rfl, d4, fun i j hi hj => ?_⟩
  · show ({ B with dim := { B.dim with fullSize := A.dim.fullSize } } : Sparse R).toDense cvt o = .ok D
    rw [hA.size]
    exact d1
  · have hp : D.view.base + D.view.pos i j = o.majorIx i j + o.minorIx i j * o.majorIx r' c' := by
      cases o <;> simp [Dense.view, View.plain, View.pos, d2, d3, Dim.mk', Ori.minorIx, Ori.majorIx] <;> ring
    have hb := d5 i j hi hj
    have hp' : (View.plain o r' c').base + (View.plain o r' c').pos i j = o.majorIx i j + o.minorIx i j * o.majorIx r' c' := by
      cases o <;> simp [View.plain, View.pos, Ori.minorIx, Ori.majorIx] <;> ring
    have hlt : o.majorIx i j + o.minorIx i j * o.majorIx r' c' < r' * c' := by
      rw [← hp']
      exact (View.plain_fits o r' c').bound i j hi hj
    rw [hp'] at hb
    rw [Dense.get, View.get_eq (by rw [Dense.view, d3]; exact hi) (by rw [Dense.view, d3]; exact hj), hp]
    split
    · refine Buf.read_ok.2 ?_
      rw [← Buf.fit_get (m := r' * c') (by omega) hlt, hb]
    · unfold Buf.read; rw [List.getElem?_eq_none (by omega)]

namespace SProg
variable [Zero R] [Add R] [Mul R] [DecidableEq R]


/-- C120, for every program, with or without `swap`: what the conversion of a matrix to a dense one does, whatever size it reports.  If an
element is stored beyond that size, it writes beyond the storage.  Otherwise the dense matrix has the right dimensions, but its storage
the reported size: the elements that fit are right, access to the others is undefined. -/
theorem C120_conversion_exact (prog : List (Stmt R)) (E : Env R) (h : specRun prog .init = some E) {x r c n : Nat}
    {f : Nat → Nat → Option R} (hx : E x = some ⟨r, c, n, .stored f⟩) :
    ∃ s, run prog .init = .ok s ∧ rows s x = r ∧ cols s x = c ∧ size s x = n ∧
      ((∃ i j, i < r ∧ j < c ∧ f i j ≠ none ∧ n ≤ i + j * r) → toDense s x = .error .ub) ∧
      ((∀ i j, i < r → j < c → f i j ≠ none → i + j * r < n) →
        ∃ D, toDense s x = .ok D ∧ D.dim.rows = r ∧ D.dim.cols = c ∧ D.data.length = n ∧
          ∀ i j, i < r → j < c → D.get i j = if i + j * r < n then .ok ((f i j).getD 0) else .error .ub) := by
  obtain ⟨s, e, ρ, hs⟩ := sim_run prog sim_init h
  have hv := hs.vals x; rw [hx] at hv
  obtain ⟨h1, v, k, o, h2, h3⟩ := hv
  have hd : toDense s x = ({ (⟨.col, Dim.mk' r c, v, k, o⟩ : Sparse R) with dim := { Dim.mk' r c with fullSize := n } } : Sparse R).toDense
      (fun a : R => a) .col := by
    rw [toDense, hs.rep.deref h2, bind_ok', h1]; rfl
  obtain ⟨-, L, hL, hf⟩ := h3
  simp only [Ori.minorIx, Ori.majorIx] at hf
  have hLl : L.length = c := hL.runs
  have stored : ∀ i j, i < r → j < c → (f i j ≠ none ↔ ∃ run e, L[j]? = some run ∧ e ∈ run ∧ e.1 = i) := by
    intro i j hi hj
    have hj' : L[j]? = some (L[j]'(by omega)) := List.getElem?_eq_getElem (by omega)
    rw [hf i j hi hj]
    generalize L[j]'(by omega) = run at hj'
    rw [List.getD, hj', Option.getD_some]
    have hrun := List.mem_of_getElem? hj'
    constructor
    · intro hne
      obtain ⟨e, he⟩ := Option.ne_none_iff_exists'.1 hne
      simp only [storedAt, Option.map_eq_some_iff] at he
      obtain ⟨a, ha, -⟩ := he
      exact ⟨run, a, rfl, List.mem_of_find?_eq_some ha, by simpa using List.find?_some ha⟩
    · rintro ⟨run', a, h1, h2, rfl⟩
      cases h1
      rw [storedAt_of_mem (hL.sorted run hrun) h2]; simp
  refine ⟨s, e, by rw [rows, h1], by rw [cols, h1], by rw [size, h1], ?_, ?_⟩
  · rintro ⟨i, j, hi, hj, hne, hn⟩
    obtain ⟨run, a, q1, q2, rfl⟩ := (stored i j hi hj).1 hne
    rw [hd]
    exact Sparse.toDense_small (fun a : R => a) .col hL ⟨j, run, a, q1, q2, by rw [if_pos rfl, Nat.add_comm]; exact hn⟩
  · intro hg
    obtain ⟨D, d1, d2, d3, d4, d5⟩ := Sparse.toDense_any (fun a : R => a) rfl .col (n := n) hL (by
      intro q run a hq ha
      rw [if_pos rfl, Nat.add_comm]
      have hql : q < c := by rw [← hLl]; exact (List.getElem?_eq_some_iff.1 hq).1
      have hak : a.1 < r := hL.bound run (List.mem_of_getElem? hq) a ha
      exact hg a.1 q hak hql ((stored a.1 q hak hql).2 ⟨run, a, hq, ha, rfl⟩))
    refine ⟨D, hd.trans d1, by rw [d3]; rfl, by rw [d3]; rfl, d4, fun i j hi hj => ?_⟩
    have hb := d5 i j hi hj
    simp only [View.plain, View.pos, Ori.minorIx, Ori.majorIx, Nat.zero_add] at hb
    have hget : D.get i j = D.data.read (i + j * r) := by
      rw [Dense.get, View.get_eq]
      · simp [Dense.view, View.plain, View.pos, d2, d3, Dim.mk']
      · rw [Dense.view, d3]; exact hi
      · rw [Dense.view, d3]; exact hj
    rw [hget]
    split
    · rename_i hp
      have hlt : i + j * r < r * c := by
        have := Nat.mul_le_mul_left r (Nat.succ_le_of_lt hj)
        rw [Nat.mul_succ, Nat.mul_comm r j] at this; omega
      refine Buf.read_ok.2 ?_
      rw [← Buf.fit_get (m := r * c) (by omega) hlt, hb, hf i j hi hj]
      unfold entryAt storedAt
      cases (L.getD j []).find? (fun e => e.1 == i) <;> rfl
    · rename_i hp
      unfold Buf.read; rw [List.getElem?_eq_none (by omega)]

omit [Zero R] [Add R] [Mul R] [DecidableEq R] in
theorem specRun_snoc [Zero R] [Add R] [Mul R] [DecidableEq R] (prog : List (Stmt R)) (t : Stmt R) (E0 E E' : Env R) (h : specRun prog E0 = some E)
    (h' : specStep E t = some E') : specRun (prog ++ [t]) E0 = some E' := by
  induction prog generalizing E0 with
  | nil => cases h; simp [specRun, h']
  | cons u us ih =>
    simp only [specRun] at h
    obtain ⟨E1, h1, h2⟩ := Option.bind_eq_some_iff.1 h
    simp only [List.cons_append, specRun, h1, Option.bind_some]
    exact ih E1 h2

/-- C120, negative, for every program: after `swap(x, y)` the matrix `x` has the elements and dimensions of `y`, but reports the size it had.
If `y` stores an element beyond that size, converting `x` to a dense matrix writes out of bounds; if it stores none there but has more
elements than that, every element of the result beyond it is out of bounds. -/
theorem C120_swap_keeps_any_size (prog : List (Stmt R)) (E : Env R) (h : specRun prog .init = some E) {x y r c n r' c' n' : Nat}
    {f g : Nat → Nat → Option R} (hxy : x ≠ y) (hx : E x = some ⟨r, c, n, .stored f⟩) (hy : E y = some ⟨r', c', n', .stored g⟩) :
    ∃ s, run (prog ++ [.swap x y]) .init = .ok s ∧ rows s x = r' ∧ cols s x = c' ∧ size s x = n ∧ rows s y = r ∧ cols s y = c ∧ size s y = n' ∧
      ((∃ i j, i < r' ∧ j < c' ∧ g i j ≠ none ∧ n ≤ i + j * r') → toDense s x = .error .ub) ∧
      ((∀ i j, i < r' → j < c' → g i j ≠ none → i + j * r' < n) →
        ∃ D, toDense s x = .ok D ∧ D.dim.rows = r' ∧ D.dim.cols = c' ∧ D.data.length = n ∧
          ∀ i j, i < r' → j < c' → D.get i j = if i + j * r' < n then .ok ((g i j).getD 0) else .error .ub) := by
  have hE : specStep E (.swap x y) = some ((E.put x (some ⟨r', c', n, .stored g⟩)).put y (some ⟨r, c, n', .stored f⟩)) := by
    simp only [specStep, hx, hy]
  have hs := specRun_snoc prog _ _ _ _ h hE
  obtain ⟨s, e, a1, a2, a3, a4, a5⟩ := C120_conversion_exact _ _ hs (x := x) (r := r') (c := c') (n := n) (f := g) (by simp [Env.put, hxy])
  obtain ⟨s', e', b1, b2, b3, -, -⟩ := C120_conversion_exact _ _ hs (x := y) (r := r) (c := c) (n := n') (f := f) (by simp [Env.put])
  cases e.symm.trans e'
  exact ⟨s, e, a1, a2, a3, b1, b2, b3, a4, a5⟩
end SProg
end BB
