import Verif.Lemmas.SparseOps
import Verif.Lemmas.DenseMul
import Verif.SpecFloat
import Verif.SpecStored

/-! Auxiliary lemmas: mixed dense/sparse sums, products with sparse operands. -/

namespace BB

variable {R : Type}

namespace Sparse

theorem Valid.elemCol {S : Sparse R} {r c : Nat} {L : List (List (Nat × R))} (h : S.Valid r c L) (ho : S.ori = .col) :
    L.length = c ∧ (∀ run ∈ L, ∀ e ∈ run, e.1 < r) := by
  have h1 := h.runs
  have h2 := h.bound
  rw [ho] at h1 h2
  exact ⟨h1, h2⟩

theorem getD_of {α : Type} {L : List (List α)} {q : Nat} {run : List α} (h : L[q]? = some run) : L.getD q [] = run := by
  simp [List.getD, h]

theorem binopDS_stored (op : R → R → R) {A : Dense R} {B : Sparse R} {r c : Nat}
    {f : Nat → Nat → R} {L : List (List (Nat × R))} (hA : A.Is r c f) (hB : B.Valid r c L)
    (hAo : A.ori = .col) (hBo : B.ori = .col) :
    Sat (binopDS op A B) (fun D => D.ori = A.ori ∧ D.Is r c (fun i j => (joinStored op id (some (f i j)) (storedAt (L.getD j []) i)).getD (f i j))) := by
  obtain ⟨hlen, hbound⟩ := hB.elemCol hBo
  have fit := View.plain_fits .col r c
  have hcell0 : (View.plain .col r c).Cells A.data (fun i j => some (f i j)) := by
    have := hA.cells
    rwa [hA.view_rows, hAo] at this
  unfold binopDS
  refine Sat.assert (by simp [hA.rows, hB.rows]) (Sat.assert (by simp [hA.cols, hB.cols]) ?_)
  rw [hA.rows]
  refine Sat.bind (Sat.forRuns hB (fun q s => s.1 = q * r ∧ s.2.length = r * c ∧
    (View.plain .col r c).Cells s.2 (fun i j => some (if j < q then (joinStored op id (some (f i j)) (storedAt (L.getD j []) i)).getD (f i j) else f i j)))
    ⟨by simp, hA.alloc, by simpa using hcell0⟩ ?_) ?_
  · rintro q run ⟨it, d⟩ hq ⟨h1, hl, hc⟩
    simp only at h1 hl hc
    subst h1
    have hql : q < c := by rw [← hlen]; exact (List.getElem?_eq_some_iff.mp hq).1
    have hmem := List.mem_of_getElem? hq
    refine Sat.bind (Sat.forRun hB hq (fun pre (d : Buf R) => d.length = r * c ∧
      (View.plain .col r c).Cells d (fun i j => some (if j < q then (joinStored op id (some (f i j)) (storedAt (L.getD j []) i)).getD (f i j)
        else if j = q then (joinStored op id (some (f i j)) (storedAt pre i)).getD (f i j) else f i j)))
      ⟨hl, hc.congr (by intros; simp [storedAt_nil, joinStored])⟩ ?_) ?_
    · rintro pre e suf d hrun ⟨hl, hc⟩
      have hk : e.1 < r := hbound run hmem e (by rw [hrun]; simp)
      have hlt : ∀ a ∈ pre, a.1 < e.1 := sorted_prefix_lt (by rw [← hrun]; exact hB.sorted run hmem)
      have hz : storedAt pre e.1 = none := storedAt_not_mem pre _ (fun a ha => Nat.ne_of_lt (hlt a ha))
      have hp : q * r + e.1 = (View.plain .col r c).base + (View.plain .col r c).pos e.1 q := by
        simp [View.plain, View.pos]; omega
      have rd := hc.read (i := e.1) (j := q) hk hql rfl
      rw [← hp] at rd
      simp only [Nat.lt_irrefl, if_false, if_true, hz, joinStored, Option.getD_some] at rd
      refine Sat.read rd ?_
      obtain ⟨b', hw, hl', hc', -⟩ := hc.write (by rw [hl]; exact fit) (op (f e.1 q) e.2) (i := e.1) (j := q) hk hql
      rw [← hp] at hw
      refine ⟨b', hw, by omega, hc'.congr ?_⟩
      intro a b _ _
      rw [storedAt_append pre e a hlt]
      by_cases hb : b = q
      · subst hb
        by_cases ha : a = e.1 <;> simp [ha, joinStored]
      · simp [hb]
    · rintro d ⟨hl, hc⟩
      refine Sat.pure ⟨by simp only; ring, hl, hc.congr ?_⟩
      intro a b _ _
      by_cases h1 : b < q
      · simp [h1, Nat.lt_succ_of_lt h1]
      · by_cases h2 : b = q
        · subst h2; simp only [Nat.lt_irrefl, if_false, if_true, Nat.lt_succ_self, getD_of hq]
        · have : ¬ b < q + 1 := by omega
          simp [h1, h2, this]
  · rintro ⟨it, d⟩ ⟨-, hl, hc⟩
    refine Sat.pure ⟨rfl, ?_⟩
    refine Dense.is_of_cells hA.rows hA.cols hA.size hl ?_
    simp only [hAo]
    refine hc.congr ?_
    intro a b _ hb
    have : b < L.length := by rw [hlen]; exact hb
    simp [this]

theorem binopDS_sat [Zero R] (op : R → R → R) (h0 : ∀ x, op x 0 = x) {A : Dense R} {B : Sparse R} {r c : Nat}
    {f : Nat → Nat → R} {L : List (List (Nat × R))} (hA : A.Is r c f) (hB : B.Valid r c L)
    (hAo : A.ori = .col) (hBo : B.ori = .col) :
    Sat (binopDS op A B) (fun D => D.ori = A.ori ∧ D.Is r c (fun i j => op (f i j) (entryAt (L.getD j []) i))) := by
  refine Sat.mono (binopDS_stored op hA hB hAo hBo) (fun D h => ⟨h.1, h.2.congr fun i j _ _ => ?_⟩)
  rw [entryAt_eq]
  cases storedAt (L.getD j []) i with
  | none => simp [joinStored, h0]
  | some x => rfl

theorem binassignDS_stored (op : R → R → R) {A : Dense R} {B : Sparse R} {r c : Nat}
    {f : Nat → Nat → R} {L : List (List (Nat × R))} (hA : A.Is r c f) (hB : B.Valid r c L)
    (hBo : B.ori = .col) :
    Sat (binassignDS op A B) (fun D => D.ori = A.ori ∧ D.Is r c (fun i j => (joinStored op id (some (f i j)) (storedAt (L.getD j []) i)).getD (f i j))) := by
  obtain ⟨hlen, hbound⟩ := hB.elemCol hBo
  unfold binassignDS
  refine Sat.assert (by simp [hA.rows, hB.rows]) (Sat.assert (by simp [hA.cols, hB.cols]) ?_)
  have setGet : ∀ {D : Dense R} {g} (i j : Nat) (x : R), D.Is r c g → i < r → j < c →
      Sat (D.set i j x) (fun D' => D'.ori = D.ori ∧ D'.Is r c (fun a b => if a = i ∧ b = j then x else g a b)) := by
    intro D g i j x hD hi hj
    have hv := hD.view_rows
    obtain ⟨b', hw, hl', hc', -⟩ := hD.cells.write hD.fits x (i := i) (j := j) (by rw [hv]; exact hi) (by rw [hv]; exact hj)
    refine ⟨{ D with data := b' }, ?_, rfl, ?_⟩
    · unfold Dense.set
      rw [View.set_eq (by rw [hv]; exact hi) (by rw [hv]; exact hj), hw]; rfl
    · refine Dense.is_of_cells hD.rows hD.cols hD.size (by simp only; rw [hl', hD.alloc]) ?_
      rw [hv] at hc'
      refine hc'.congr ?_
      intro a b _ _
      split <;> rfl
  refine Sat.bind (Sat.forRuns hB (fun q (s : Nat × Dense R) => s.1 = q ∧ s.2.ori = A.ori ∧
    s.2.Is r c (fun i j => if j < q then (joinStored op id (some (f i j)) (storedAt (L.getD j []) i)).getD (f i j) else f i j))
    ⟨rfl, rfl, by simpa using hA⟩ ?_) ?_
  · rintro q run ⟨it, D⟩ hq ⟨h1, h2, h3⟩
    simp only at h1 h2 h3
    subst h1
    have hql : it < c := by rw [← hlen]; exact (List.getElem?_eq_some_iff.mp hq).1
    have hmem := List.mem_of_getElem? hq
    refine Sat.bind (Sat.forRun hB hq (fun pre (D : Dense R) => D.ori = A.ori ∧
      D.Is r c (fun i j => if j < it then (joinStored op id (some (f i j)) (storedAt (L.getD j []) i)).getD (f i j)
        else if j = it then (joinStored op id (some (f i j)) (storedAt pre i)).getD (f i j) else f i j))
      ⟨h2, h3.congr (by intros; simp [storedAt_nil, joinStored])⟩ ?_) ?_
    · rintro pre e suf D hrun ⟨ho, hD⟩
      have hk : e.1 < r := hbound run hmem e (by rw [hrun]; simp)
      have hlt : ∀ a ∈ pre, a.1 < e.1 := sorted_prefix_lt (by rw [← hrun]; exact hB.sorted run hmem)
      have hz : storedAt pre e.1 = none := storedAt_not_mem pre _ (fun a ha => Nat.ne_of_lt (hlt a ha))
      have rd := hD.elems e.1 it hk hql
      simp only [Nat.lt_irrefl, if_false, if_true, hz, joinStored, Option.getD_some] at rd
      rw [rd, bind_ok']
      refine Sat.mono (setGet e.1 it (op (f e.1 it) e.2) hD hk hql) ?_
      rintro D' ⟨ho', hD'⟩
      refine ⟨by rw [ho', ho], hD'.congr ?_⟩
      intro a b _ _
      rw [storedAt_append pre e a hlt]
      by_cases hb : b = it
      · subst hb
        by_cases ha : a = e.1 <;> simp [ha, joinStored]
      · simp [hb]
    · rintro D ⟨ho, hD⟩
      refine Sat.pure ⟨rfl, ho, hD.congr ?_⟩
      intro a b _ _
      by_cases h1 : b < it
      · simp [h1, Nat.lt_succ_of_lt h1]
      · by_cases h2 : b = it
        · subst h2; simp only [Nat.lt_irrefl, if_false, if_true, Nat.lt_succ_self, getD_of hq]
        · have : ¬ b < it + 1 := by omega
          simp [h1, h2, this]
  · rintro ⟨it, D⟩ ⟨-, ho, hD⟩
    refine Sat.pure ⟨ho, hD.congr ?_⟩
    intro a b _ hb
    have : b < L.length := by rw [hlen]; exact hb
    simp [this]

theorem binassignDS_sat [Zero R] (op : R → R → R) (h0 : ∀ x, op x 0 = x) {A : Dense R} {B : Sparse R} {r c : Nat}
    {f : Nat → Nat → R} {L : List (List (Nat × R))} (hA : A.Is r c f) (hB : B.Valid r c L)
    (hBo : B.ori = .col) :
    Sat (binassignDS op A B) (fun D => D.ori = A.ori ∧ D.Is r c (fun i j => op (f i j) (entryAt (L.getD j []) i))) := by
  refine Sat.mono (binassignDS_stored op hA hB hBo) (fun D h => ⟨h.1, h.2.congr fun i j _ _ => ?_⟩)
  rw [entryAt_eq]
  cases storedAt (L.getD j []) i with
  | none => simp [joinStored, h0]
  | some x => rfl

/-! ### Products -/

theorem mulAdd_none [Add R] [Mul R] (s : R) (a : Option R) : mulAdd s a none = s := by cases a <;> rfl

theorem none_mulAdd [Add R] [Mul R] (s : R) (b : Option R) : mulAdd s none b = s := rfl

theorem dotStored_succ [Zero R] [Add R] [Mul R] (f g : Nat → Nat → Option R) (k i j : Nat) :
    dotStored f g (k + 1) i j = mulAdd (dotStored f g k i j) (f i k) (g k j) := by
  simp [dotStored, List.range_succ]

theorem dotStored_congr [Zero R] [Add R] [Mul R] {f f' g g' : Nat → Nat → Option R} {k i j : Nat} (hf : ∀ l, l < k → f i l = f' i l)
    (hg : ∀ l, l < k → g l j = g' l j) : dotStored f g k i j = dotStored f' g' k i j := by
  induction k with
  | zero => rfl
  | succ k ih =>
    rw [dotStored_succ, dotStored_succ, ih (fun l hl => hf l (by omega)) (fun l hl => hg l (by omega)), hf k (by omega), hg k (by omega)]

/-- If the elements at hand multiplied with 0 give 0, what is not stored may as well be 0. -/
theorem dotStored_eq_dotSeq [AddZeroClass R] [Mul R] {f g : Nat → Nat → Option R} {k i j : Nat}
    (hf : ∀ l, l < k → g l j = none → (f i l).getD 0 * 0 = 0) (hg : ∀ l, l < k → f i l = none → 0 * (g l j).getD 0 = 0) :
    dotStored f g k i j = dotSeq (fun i l => (f i l).getD 0) (fun l j => (g l j).getD 0) k i j := by
  induction k with
  | zero => rfl
  | succ k ih =>
    rw [dotStored_succ, dotSeq_succ, ih (fun l hl => hf l (by omega)) (fun l hl => hg l (by omega))]
    have h1 := hf k (by omega)
    have h2 := hg k (by omega)
    cases hfk : f i k with
    | none => rw [none_mulAdd]; simp only [Option.getD_none]; rw [h2 hfk, add_zero]
    | some a => cases hgk : g k j with
      | none => rw [mulAdd_none]; rw [hfk] at h1; simp only [Option.getD_none]; rw [h1 hgk, add_zero]
      | some b => rfl

/-- Accumulating over a sorted run = accumulating over all indices and skipping those without an element. -/
theorem run_fold [Add R] [Mul R] (F : Nat → Option R) {run : List (Nat × R)} {K a : Nat} (s : R)
    (hs : run.Pairwise (fun a b => a.1 < b.1)) (hb : ∀ e ∈ run, a ≤ e.1 ∧ e.1 < a + K) :
    run.foldl (fun s e => mulAdd s (F e.1) (some e.2)) s = (List.range' a K).foldl (fun s l => mulAdd s (F l) (storedAt run l)) s := by
  induction K generalizing a s run with
  | zero =>
    cases run with
    | nil => rfl
    | cons e run => have := hb e (by simp); omega
  | succ K ih =>
    rw [List.range'_succ, List.foldl_cons]
    cases run with
    | nil =>
      have := ih (run := []) (a := a + 1) s (by simp) (by simp)
      rw [storedAt_nil, mulAdd_none, ← this]
    | cons e run =>
      have hb1 := hb e (by simp)
      have hlt := (List.pairwise_cons.mp hs).1
      by_cases he : e.1 = a
      · subst he
        rw [List.foldl_cons, ih (run := run) (a := e.1 + 1) _ (List.pairwise_cons.mp hs).2]
        · rw [storedAt_cons, if_pos rfl]
          apply List.foldl_ext
          intro s l hl
          have : e.1 ≠ l := by have := (List.mem_range'_1.mp hl).1; omega
          rw [storedAt_cons, if_neg this]
        · intro x hx
          have := hlt x hx
          have := hb x (by simp [hx])
          omega
      · rw [ih (run := e :: run) (a := a + 1) _ hs]
        · have : storedAt (e :: run) a = none := storedAt_not_mem _ _ (by
            intro x hx
            rcases List.mem_cons.mp hx with rfl | hx
            · exact he
            · have := hlt x hx; omega)
          rw [this, mulAdd_none]
        · intro x hx
          have h1 := hb x hx
          refine ⟨?_, by omega⟩
          rcases List.mem_cons.mp hx with rfl | hx
          · omega
          · have := hlt x hx; omega

theorem run_dot [Zero R] [Add R] [Mul R] (f : Nat → Nat → Option R) {L : List (List (Nat × R))} {q K i : Nat} {run : List (Nat × R)}
    (hq : L[q]? = some run) (hs : run.Pairwise (fun a b => a.1 < b.1)) (hb : ∀ e ∈ run, e.1 < K) :
    run.foldl (fun s e => mulAdd s (f i e.1) (some e.2)) 0 = dotStored f (fun l j => storedAt (L.getD j []) l) K i q := by
  rw [run_fold (f i) (a := 0) (K := K) 0 hs (fun e he => ⟨by omega, by have := hb e he; omega⟩)]
  unfold dotStored
  simp only [getD_of hq, List.range_eq_range']

/-- Sum over a sorted run = sum over all indices. -/
theorem run_sum' [NonUnitalNonAssocSemiring R] (F : Nat → R) {run : List (Nat × R)} {K : Nat}
    (hs : run.Pairwise (fun a b => a.1 < b.1)) (hb : ∀ e ∈ run, e.1 < K) :
    (run.map (fun e => e.2 * F e.1)).sum = ∑ l ∈ Finset.range K, entryAt run l * F l := by
  induction run with
  | nil => simp [entryAt_nil]
  | cons e run ih =>
    rw [List.map_cons, List.sum_cons, ih (List.pairwise_cons.mp hs).2 (fun a ha => hb a (by simp [ha]))]
    have hz : entryAt run e.1 = 0 := entryAt_not_mem run _ (fun a ha => by
      have := (List.pairwise_cons.mp hs).1 a ha; omega)
    have : ∀ l, entryAt (e :: run) l * F l = (if e.1 = l then e.2 * F l else 0) + entryAt run l * F l := by
      intro l
      rw [entryAt_cons]
      by_cases hl : e.1 = l
      · subst hl; simp [hz]
      · simp [hl]
    simp only [this]
    rw [Finset.sum_add_distrib, Finset.sum_ite_eq, if_pos (Finset.mem_range.mpr (hb e (by simp)))]

/-- Dense * Sparse, any orientation of the dense operands. -/
theorem mulDS_stored [Zero R] [Add R] [Mul R] {A : Dense R} {B : Sparse R} (C : Dense R) {m k n : Nat}
    {f : Nat → Nat → R} {L : List (List (Nat × R))} (hA : A.Is m k f) (hB : B.Valid k n L) (hBo : B.ori = .col) :
    Sat (mulDS A B C) (fun D => D.ori = C.ori ∧
      D.Is m n (fun i j => dotStored (fun i l => some (f i l)) (fun l j => storedAt (L.getD j []) l) k i j)) := by
  obtain ⟨hlen, hbound⟩ := hB.elemCol hBo
  have fit := View.plain_fits C.ori m n
  have hAv := hA.view_rows
  unfold mulDS
  refine Sat.assert (by simp [hA.cols, hB.rows]) ?_
  rw [hA.rows, hB.cols, Dense.resizeFill_eq]
  refine Sat.bind (Sat.ok (P := fun C' => C' = ⟨C.ori, Dim.mk' m n, List.replicate (m * n) (some 0)⟩) rfl) ?_
  rintro C' rfl
  have hCv : (Dense.mk C.ori (Dim.mk' m n) (List.replicate (m * n) (some (0:R)))).view = View.plain C.ori m n := rfl
  simp only [hCv]
  let S := fun (pre : List (Nat × R)) (i : Nat) => pre.foldl (fun s e => s + f i e.1 * e.2) 0
  have hS : ∀ pre e i, S (pre ++ [e]) i = S pre i + f i e.1 * e.2 := by
    intro pre e i; simp [S]
  refine Sat.bind (Sat.forRuns hB (fun q (s : Nat × Buf R) => s.1 = q ∧ s.2.length = m * n ∧
    (View.plain C.ori m n).Cells s.2 (fun i j => some (if j < q then S (L.getD j []) i else 0)))
    ⟨rfl, by simp, by simpa using Dense.replicate_cells C.ori m n (0:R)⟩ ?_) ?_
  · rintro q run ⟨col, d⟩ hq ⟨h1, hl, hc⟩
    simp only at h1 hl hc
    subst h1
    have hql : col < n := by rw [← hlen]; exact (List.getElem?_eq_some_iff.mp hq).1
    have hmem := List.mem_of_getElem? hq
    refine Sat.bind (Sat.forRun hB hq (fun pre (d : Buf R) => d.length = m * n ∧
      (View.plain C.ori m n).Cells d (fun i j => some (if j < col then S (L.getD j []) i
        else if j = col then S pre i else 0))) ⟨hl, hc.congr (by intros; simp [S])⟩ ?_) ?_
    · rintro pre e suf d hrun ⟨hl, hc⟩
      have hk : e.1 < k := hbound run hmem e (by rw [hrun]; simp)
      have loop := Sat.colLoop (v := A.view) (n := A.data.length) (j := e.1)
        (f := fun p (t : Nat × Buf R) => do
          let c ← t.2.read t.1
          let a ← A.data.read p
          let d ← t.2.write t.1 (c + a * e.2)
          return (t.1 + (View.plain C.ori m n).colStride, d))
        (s := ((View.plain C.ori m n).colBegin col, d)) hA.fits (by rw [hAv]; exact hk)
        (fun i t => t.1 = (View.plain C.ori m n).colBegin col + i * (View.plain C.ori m n).colStride ∧ t.2.length = m * n ∧
          (View.plain C.ori m n).Cells t.2 (fun i' j => some (if j < col then S (L.getD j []) i'
            else if j = col then (if i' < i then S pre i' + f i' e.1 * e.2 else S pre i') else 0)))
        ⟨by simp, hl, hc.congr (by intros; simp)⟩ ?_
      · refine Sat.bind loop ?_
        rintro ⟨p, d⟩ ⟨-, hl, hc⟩
        refine Sat.pure ⟨hl, hc.congr ?_⟩
        intro a b ha hb
        have : a < A.view.rows := by rw [hAv]; exact ha
        simp [this, hS]
      · rintro i ⟨p, d⟩ hi ⟨h1, hl, hc⟩
        simp only at h1 hl hc
        rw [View.colAt] at h1
        subst h1
        rw [hAv] at hi
        have rc := hc.read (i := i) (j := col) hi hql rfl
        have ra := hA.elems i e.1 hi hk
        unfold Dense.get at ra
        rw [View.get_eq (by rw [hAv]; exact hi) (by rw [hAv]; exact hk)] at ra
        simp only [Nat.lt_irrefl, if_false, if_true] at rc
        refine Sat.read rc (Sat.read ra ?_)
        refine Sat.writeCell hc (by simp only; rw [hl]; exact fit) (i := i) (j := col) hi hql rfl ?_
        intro b' hl' hc'
        simp only at hl'
        refine Sat.pure ⟨?_, by simp only; omega, hc'.congr ?_⟩
        · simp only; rw [← View.colAt]; ring
        · intro a b _ _
          by_cases hb : b = col
          · subst hb
            by_cases ha : a = i
            · subst ha; simp
            · have : (a < i + 1) = (a < i) := by apply propext; omega
              simp [ha, this]
          · simp [hb]
    · rintro d ⟨hl, hc⟩
      refine Sat.pure ⟨rfl, hl, hc.congr ?_⟩
      intro a b _ _
      by_cases h1 : b < col
      · simp [h1, Nat.lt_succ_of_lt h1]
      · by_cases h2 : b = col
        · subst h2; simp only [Nat.lt_irrefl, if_false, if_true, Nat.lt_succ_self, getD_of hq]
        · have : ¬ b < col + 1 := by omega
          simp [h1, h2, this]
  · rintro ⟨it, d⟩ ⟨-, hl, hc⟩
    refine Sat.pure ⟨rfl, ?_⟩
    refine Dense.is_mk hl (hc.congr ?_)
    intro a b ha hb
    have hb' : b < L.length := by rw [hlen]; exact hb
    have hq : L[b]? = some L[b] := List.getElem?_eq_getElem hb'
    rw [if_pos hb', getD_of hq]
    exact congrArg some (run_dot (fun i l => some (f i l)) hq (hB.sorted _ (List.getElem_mem hb')) (hbound _ (List.getElem_mem hb')))

theorem mulDS_sat' [AddZeroClass R] [Mul R] {A : Dense R} {B : Sparse R} (C : Dense R) {m k n : Nat}
    {f : Nat → Nat → R} {L : List (List (Nat × R))} (hA : A.Is m k f) (hB : B.Valid k n L) (hBo : B.ori = .col)
    (h0 : ∀ i l, i < m → l < k → f i l * 0 = 0) :
    Sat (mulDS A B C) (fun D => D.ori = C.ori ∧
      D.Is m n (fun i j => dotSeq f (fun l j => entryAt (L.getD j []) l) k i j)) := by
  refine Sat.mono (mulDS_stored C hA hB hBo) (fun D h => ⟨h.1, h.2.congr fun i j hi hj => ?_⟩)
  simp only [entryAt_eq]
  refine (dotStored_eq_dotSeq (f := fun i l => some (f i l)) (g := fun l j => storedAt (L.getD j []) l) ?_ ?_)
  · exact fun l hl _ => h0 i l hi hl
  · exact fun l hl h => (nomatch h)

theorem mulDS_sat [Arith R] {A : Dense R} {B : Sparse R} (C : Dense R) {m k n : Nat}
    {f : Nat → Nat → R} {L : List (List (Nat × R))} (hA : A.Is m k f) (hB : B.Valid k n L) (hBo : B.ori = .col) :
    Sat (mulDS A B C) (fun D => D.ori = C.ori ∧
      D.Is m n (fun i j => dotSeq f (fun l j => entryAt (L.getD j []) l) k i j)) :=
  mulDS_sat' C hA hB hBo (fun _ _ _ _ => mul_zero _)

/-- Sparse * Dense, column-major. -/
theorem mulSD_stored [Zero R] [Add R] [Mul R] {A : Sparse R} {B : Dense R} (C : Dense R) {m k n : Nat}
    {g : Nat → Nat → R} {L : List (List (Nat × R))} (hA : A.Valid m k L) (hB : B.Is k n g) (hAo : A.ori = .col)
    (hBo : B.ori = .col) (hCo : C.ori = .col) :
    Sat (mulSD A B C) (fun D => D.ori = .col ∧
      D.Is m n (fun i j => dotStored (fun i l => storedAt (L.getD l []) i) (fun l j => some (g l j)) k i j)) := by
  obtain ⟨hlen, hbound⟩ := hA.elemCol hAo
  have fit := View.plain_fits .col m n
  have rdB : ∀ {l j}, l < k → j < n → B.data.read (l + j * k) = .ok (g l j) := by
    intro l j hl hj
    have := hB.read hl hj
    rw [hBo] at this; exact this
  have hpos : ∀ i j, (View.plain .col m n).base + (View.plain .col m n).pos i j = i + j * m := by
    intro i j; simp [View.plain, View.pos]
  unfold mulSD
  refine Sat.assert (by simp [hA.cols, hB.rows]) ?_
  rw [hA.rows, hB.cols, hA.cols, hB.rows, Dense.resizeFill_eq]
  refine Sat.bind (Sat.ok (P := fun C' => C' = ⟨C.ori, Dim.mk' m n, List.replicate (m * n) (some 0)⟩) rfl) ?_
  rintro C' rfl
  simp only [Dim.mk', hCo]
  let S := fun (q i j : Nat) => dotStored (fun i l => storedAt (L.getD l []) i) (fun l j => some (g l j)) q i j
  refine Sat.bind (Sat.loop (fun q (d : Buf R) => d.length = m * n ∧
    (View.plain .col m n).Cells d (fun i j => some (S q i j)))
    ⟨by simp, by simpa [S, dotStored] using Dense.replicate_cells .col m n (0:R)⟩ ?_) ?_
  · rintro q d hq ⟨hl, hc⟩
    have hqL : L[q]? = some (L[q]'(by omega)) := List.getElem?_eq_getElem (by omega)
    generalize L[q]'(by omega) = run at hqL
    have hmem := List.mem_of_getElem? hqL
    refine Sat.mono (Sat.forRun hA hqL (fun pre (d : Buf R) => d.length = m * n ∧
      (View.plain .col m n).Cells d (fun i j => some (mulAdd (S q i j) (storedAt pre i) (some (g q j)))))
      ⟨hl, hc⟩ ?_) ?_
    · rintro pre e suf d hrun ⟨hl, hc⟩
      have hk : e.1 < m := hbound run hmem e (by rw [hrun]; simp)
      have hlt : ∀ a ∈ pre, a.1 < e.1 := sorted_prefix_lt (by rw [← hrun]; exact hA.sorted run hmem)
      have hz : storedAt pre e.1 = none := storedAt_not_mem pre _ (fun a ha => Nat.ne_of_lt (hlt a ha))
      refine Sat.bind (Sat.loop (fun j (s : Nat × Nat × Buf R) => s.1 = q + j * k ∧ s.2.1 = e.1 + j * m ∧
        s.2.2.length = m * n ∧
        (View.plain .col m n).Cells s.2.2 (fun i j' => some (mulAdd (S q i j')
          (if j' < j then storedAt (pre ++ [e]) i else storedAt pre i) (some (g q j')))))
        ⟨by simp, by simp, hl, hc.congr (by intros; simp)⟩ ?_) ?_
      · rintro j ⟨ib, ic, d⟩ hj ⟨h1, h2, hl, hc⟩
        simp only at h1 h2 hl hc
        subst h1 h2
        have rc := hc.read (i := e.1) (j := j) hk hj rfl
        rw [hpos] at rc
        simp only [Nat.lt_irrefl, if_false, hz, none_mulAdd] at rc
        refine Sat.read rc (Sat.read (rdB hq hj) ?_)
        refine Sat.writeCell hc (by simp only; rw [hl]; exact fit) (i := e.1) (j := j) hk hj (by rw [hpos]) ?_
        intro b' hl' hc'
        simp only at hl'
        refine Sat.pure ⟨by simp only; ring, by simp only; ring, by simp only; omega, hc'.congr ?_⟩
        intro a b _ _
        by_cases hb : b = j
        · subst hb
          by_cases ha : a = e.1
          · subst ha; simp [storedAt_append pre e _ hlt, mulAdd]
          · simp [ha, storedAt_append pre e _ hlt]
        · have : (b < j + 1) = (b < j) := by apply propext; omega
          simp [hb, this]
      · rintro ⟨ib, ic, d⟩ ⟨-, -, hl, hc⟩
        refine Sat.pure ⟨hl, hc.congr ?_⟩
        intro a b _ hb
        have : b < n := hb
        simp [this]
    · rintro d ⟨hl, hc⟩
      refine ⟨hl, hc.congr ?_⟩
      intro a b _ _
      simp only [S]
      rw [dotStored_succ, getD_of hqL]
  · rintro d ⟨hl, hc⟩
    exact Sat.pure ⟨rfl, Dense.is_mk hl hc⟩

theorem mulSD_sat' [AddZeroClass R] [Mul R] {A : Sparse R} {B : Dense R} (C : Dense R) {m k n : Nat}
    {g : Nat → Nat → R} {L : List (List (Nat × R))} (hA : A.Valid m k L) (hB : B.Is k n g) (hAo : A.ori = .col)
    (hBo : B.ori = .col) (hCo : C.ori = .col) (h0 : ∀ l j, l < k → j < n → 0 * g l j = 0) :
    Sat (mulSD A B C) (fun D => D.ori = .col ∧
      D.Is m n (fun i j => dotSeq (fun i l => entryAt (L.getD l []) i) g k i j)) := by
  refine Sat.mono (mulSD_stored C hA hB hAo hBo hCo) (fun D h => ⟨h.1, h.2.congr fun i j hi hj => ?_⟩)
  simp only [entryAt_eq]
  refine (dotStored_eq_dotSeq (f := fun i l => storedAt (L.getD l []) i) (g := fun l j => some (g l j)) ?_ ?_)
  · exact fun l hl h => (nomatch h)
  · exact fun l hl _ => h0 l j hl hj

theorem mulSD_sat [Arith R] {A : Sparse R} {B : Dense R} (C : Dense R) {m k n : Nat}
    {g : Nat → Nat → R} {L : List (List (Nat × R))} (hA : A.Valid m k L) (hB : B.Is k n g) (hAo : A.ori = .col)
    (hBo : B.ori = .col) (hCo : C.ori = .col) :
    Sat (mulSD A B C) (fun D => D.ori = .col ∧
      D.Is m n (fun i j => dotSeq (fun i l => entryAt (L.getD l []) i) g k i j)) :=
  mulSD_sat' C hA hB hAo hBo hCo (fun _ _ _ _ => zero_mul _)

/-- Sparse * Sparse, column-major. -/
theorem mulSS_stored [Zero R] [Add R] [Mul R] [DecidableEq R] {A B : Sparse R} (C : Sparse R) {m k n : Nat}
    {LA LB : List (List (Nat × R))} (hA : A.Valid m k LA) (hB : B.Valid k n LB) (hAo : A.ori = .col)
    (hBo : B.ori = .col) (hCo : C.ori = .col) :
    Sat (mulSS A B C) (fun D => D.ori = .col ∧ D.nnz = m * n ∧
      D.Valid m n (picks (fun x => decide (x ≠ 0)) id
        (fun q i => dotStored (fun i l => storedAt (LA.getD l []) i) (fun l j => storedAt (LB.getD j []) l) k i q) m n)) := by
  obtain ⟨hlenA, hboundA⟩ := hA.elemCol hAo
  obtain ⟨hlenB, hboundB⟩ := hB.elemCol hBo
  unfold mulSS
  refine Sat.assert (by simp [hA.cols, hB.rows]) ?_
  simp only [hA.rows, hB.cols]
  generalize hG : (fun q i => dotStored (fun i l => storedAt (LA.getD l []) i) (fun l j => storedAt (LB.getD j []) l) k i q) = G
  have start := EmitInv.start C.ori (Dim.mk' m n) (Dense.resizeBuf C.value (m*n)) (Dense.resizeBuf C.key (m*n))
    (Dense.resizeBuf C.offset (n+1)) (by simp [Dense.length_resizeBuf])
  simp only [Dense.length_resizeBuf] at start
  refine Sat.bind (Sat.forRuns hB (fun q E => EmitInv (m*n) (n+1) (picks (fun x => decide (x ≠ 0)) id G m q) [] q E)
    start ?_) ?_
  · intro q run E hq hE
    have hql : q < n := by rw [← hlenB]; exact (List.getElem?_eq_some_iff.mp hq).1
    have hmem := List.mem_of_getElem? hq
    -- scratch column
    refine Sat.bind (Sat.forRun hB hq (fun pre (scr : Buf R) => scr.length = m ∧
      ∀ i, i < m → scr[i]? = some (some (pre.foldl (fun s e => mulAdd s (storedAt (LA.getD e.1 []) i) (some e.2)) 0)))
      ⟨by simp, by intro i hi; rw [List.getElem?_replicate, if_pos hi]; simp⟩ ?_) ?_
    · rintro pre e suf scr hrun ⟨hl, hs⟩
      have hke : e.1 < k := hboundB run hmem e (by rw [hrun]; simp)
      have hqA : LA[e.1]? = some (LA[e.1]'(by omega)) := List.getElem?_eq_getElem (by omega)
      generalize LA[e.1]'(by omega) = ra at hqA
      have hmemA := List.mem_of_getElem? hqA
      refine Sat.mono (Sat.forRun hA hqA (fun preA (scr : Buf R) => scr.length = m ∧
        ∀ i, i < m → scr[i]? = some (some (mulAdd (pre.foldl (fun s e => mulAdd s (storedAt (LA.getD e.1 []) i) (some e.2)) 0) (storedAt preA i) (some e.2))))
        ⟨hl, by intro i hi; rw [hs i hi]; rfl⟩ ?_) ?_
      · rintro preA a sufA scr hrunA ⟨hl, hs⟩
        have hka : a.1 < m := hboundA ra hmemA a (by rw [hrunA]; simp)
        have hlt : ∀ x ∈ preA, x.1 < a.1 := sorted_prefix_lt (by rw [← hrunA]; exact hA.sorted ra hmemA)
        have hz : storedAt preA a.1 = none := storedAt_not_mem preA _ (fun x hx => Nat.ne_of_lt (hlt x hx))
        refine Sat.read (Buf.read_ok.mpr (hs a.1 hka)) ?_
        refine Sat.of_eq (Buf.write_ok (by omega)) ⟨by simp [hl], ?_⟩
        intro i hi
        rw [List.getElem?_set, storedAt_append preA a i hlt]
        by_cases hia : a.1 = i
        · subst hia
          rw [if_pos rfl, if_pos (by omega), if_pos rfl, hz]; rfl
        · rw [if_neg hia, hs i hi, if_neg (fun h => hia h.symm)]
      · rintro scr ⟨hl, hs⟩
        refine ⟨hl, ?_⟩
        intro i hi
        rw [hs i hi]
        simp only [List.foldl_append, List.foldl_cons, List.foldl_nil]
        rw [getD_of hqA]
    · rintro scr ⟨hl, hs⟩
      have hs' : ∀ i, i < m → scr.read i = .ok (G q i) := by
        intro i hi
        rw [Buf.read_ok, hs i hi, ← hG]
        simp only
        rw [← run_dot (fun i l => storedAt (LA.getD l []) i) hq (hB.sorted run hmem) (hboundB run hmem)]
      have hlen := picks_length (fun x => decide (x ≠ 0)) id G m q
      have hE' : EmitInv (m*n) (n+1) (picks (fun x => decide (x ≠ 0)) id G m q) [] (picks (fun x => decide (x ≠ 0)) id G m q).length E := by
        rw [hlen]; exact hE
      refine Sat.bind (hE'.mark (by omega)) ?_
      intro E hE
      rw [hlen] at hE
      rw [hl]
      refine Sat.bind (Sat.raw (fun i (t : Nat × Emit R) => t.1 = i ∧
        EmitInv (m*n) (n+1) (picks (fun x => decide (x ≠ 0)) id G m q) (pick (fun x => decide (x ≠ 0)) id G i q) (q+1) t.2)
        ⟨rfl, by simpa [pick] using hE⟩ ?_) ?_
      · rintro i ⟨key, E⟩ hi ⟨h1, h2⟩
        simp only at h1 h2
        subst h1
        refine Sat.read (hs' key hi) ?_
        rw [pick_succ]
        by_cases hz : G q key = 0
        · simp only [hz, ne_eq, not_true_eq_false, if_false, decide_false, Bool.false_eq_true, List.append_nil]
          exact Sat.pure ⟨rfl, h2⟩
        · simp only [ne_eq, hz, not_false_eq_true, if_true, decide_true]
          refine Sat.bind (h2.push key (G q key) ?_) ?_
          · rw [Nat.mul_comm]
            refine emit_room key (G q key) ?_ (by rw [hlen]; exact hql) (pick_sorted _ _ _ _ _) hi (pick_bound _ _ _ _ _)
            intro run hrun
            simp only [picks, List.mem_map, List.mem_range] at hrun
            obtain ⟨q', _, rfl⟩ := hrun
            exact ⟨pick_sorted _ _ _ _ _, pick_bound _ _ _ _ _⟩
          · intro E hE
            exact Sat.pure ⟨rfl, hE⟩
      · rintro ⟨key, E⟩ ⟨-, hE⟩
        refine Sat.pure ?_
        rw [picks_succ]
        exact hE.close (by omega)
  · intro E hE
    rw [hlenB] at hE
    have hlen := picks_length (fun x => decide (x ≠ 0)) id G m n
    have hE' : EmitInv (m*n) (n+1) (picks (fun x => decide (x ≠ 0)) id G m n) [] (picks (fun x => decide (x ≠ 0)) id G m n).length E := by
      rw [hlen]; exact hE
    refine Sat.bind (hE'.mark (by omega)) ?_
    intro E hE
    refine Sat.pure ⟨hCo, hE.vlen, hE.valid (by omega) rfl ?_ ?_ ?_⟩
    · show _ = C.ori.minorIx m n
      rw [hlen, hCo]; rfl
    · intro run hrun e he
      show e.1 < C.ori.majorIx m n
      rw [hCo]
      simp only [picks, List.mem_map, List.mem_range] at hrun
      obtain ⟨q', _, rfl⟩ := hrun
      exact pick_bound _ _ _ _ _ e he
    · intro run hrun
      simp only [picks, List.mem_map, List.mem_range] at hrun
      obtain ⟨q', _, rfl⟩ := hrun
      exact pick_sorted _ _ _ _ _

theorem mulSS_sat' [AddZeroClass R] [Mul R] [DecidableEq R] {A B : Sparse R} (C : Sparse R) {m k n : Nat}
    {LA LB : List (List (Nat × R))} (hA : A.Valid m k LA) (hB : B.Valid k n LB) (hAo : A.ori = .col)
    (hBo : B.ori = .col) (hCo : C.ori = .col)
    (h1 : ∀ i l, i < m → l < k → entryAt (LA.getD l []) i * 0 = 0) (h2 : ∀ l j, l < k → j < n → 0 * entryAt (LB.getD j []) l = 0) :
    Sat (mulSS A B C) (fun D => D.ori = .col ∧ D.nnz = m * n ∧
      D.Valid m n (picks (fun x => decide (x ≠ 0)) id
        (fun q i => dotSeq (fun i l => entryAt (LA.getD l []) i) (fun l j => entryAt (LB.getD j []) l) k i q) m n)) := by
  have e : picks (fun x => decide (x ≠ 0)) id
      (fun q i => dotSeq (fun i l => entryAt (LA.getD l []) i) (fun l j => entryAt (LB.getD j []) l) k i q) m n = picks (fun x => decide (x ≠ 0)) id
      (fun q i => dotStored (fun i l => storedAt (LA.getD l []) i) (fun l j => storedAt (LB.getD j []) l) k i q) m n := by
    unfold picks pick
    refine List.map_congr_left fun q hq => ?_
    refine List.filterMap_congr fun i hi => ?_
    simp only [List.mem_range] at hq hi
    have : dotSeq (fun i l => entryAt (LA.getD l []) i) (fun l j => entryAt (LB.getD j []) l) k i q =
        dotStored (fun i l => storedAt (LA.getD l []) i) (fun l j => storedAt (LB.getD j []) l) k i q := by
      simp only [entryAt_eq]
      refine (dotStored_eq_dotSeq ?_ ?_).symm
      · exact fun l hl _ => by have := h1 i l hi hl; rwa [entryAt_eq] at this
      · exact fun l hl _ => by have := h2 l q hl hq; rwa [entryAt_eq] at this
    beta_reduce
    rw [this]
  rw [e]
  exact mulSS_stored C hA hB hAo hBo hCo

theorem mulSS_sat [Arith R] [DecidableEq R] {A B : Sparse R} (C : Sparse R) {m k n : Nat}
    {LA LB : List (List (Nat × R))} (hA : A.Valid m k LA) (hB : B.Valid k n LB) (hAo : A.ori = .col)
    (hBo : B.ori = .col) (hCo : C.ori = .col) :
    Sat (mulSS A B C) (fun D => D.ori = .col ∧ D.nnz = m * n ∧
      D.Valid m n (picks (fun x => decide (x ≠ 0)) id
        (fun q i => dotSeq (fun i l => entryAt (LA.getD l []) i) (fun l j => entryAt (LB.getD j []) l) k i q) m n)) :=
  mulSS_sat' C hA hB hAo hBo hCo (fun _ _ _ _ => mul_zero _) (fun _ _ _ _ => zero_mul _)

end Sparse
end BB
