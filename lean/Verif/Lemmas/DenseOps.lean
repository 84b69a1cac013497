import Verif.Lemmas.Dense

namespace BB
namespace Dense

variable {R : Type}

theorem transpose_sat {M : Dense R} {r c : Nat} {f : Nat → Nat → R} (h : M.Is r c f) :
    Sat M.transpose (fun T => T.ori = M.ori ∧ T.Is c r (fun j i => f i j)) := by
  have hv := h.view_rows
  have hfit : M.view.Fits (r * c) := by rw [← h.alloc]; exact h.fits
  have tfit : (View.plain M.ori c r).Fits (c * r) := View.plain_fits _ _ _
  have hT : (Dense.new M.ori M.dim.cols M.dim.rows : Dense R).view = View.plain M.ori c r := by
    simp [Dense.new, Dense.view, h.rows, h.cols, Dim.mk']
  unfold transpose
  refine Sat.bind (Sat.raw (fun i s => s.1 = i ∧ s.2.length = c * r ∧
      (View.plain M.ori c r).Cells s.2 (fun j k => if k < i then some (f k j) else none)) ?_ ?_) ?_
  · refine ⟨rfl, by simp [Dense.new, h.rows, h.cols], ?_⟩
    simpa [Dense.new, h.rows, h.cols] using View.alloc_cells tfit
  · rintro i ⟨k, d⟩ hi ⟨rfl, hl, hcells⟩
    rw [h.rows] at hi
    refine Sat.bind (Sat.rowLoop hfit (by rw [hv]; exact hi)
      (fun j t => t.1 = (View.plain M.ori c r).colBegin k + j * (View.plain M.ori c r).colStride ∧
          t.2.length = c * r ∧
          (View.plain M.ori c r).Cells t.2
            (fun j' k' => if k' < k ∨ (k' = k ∧ j' < j) then some (f k' j') else none)) ?_ ?_) ?_
    · exact ⟨by rw [hT]; simp, hl, by simpa using hcells⟩
    · rintro j ⟨q, d⟩ hj ⟨rfl, hl, hcells⟩
      have hj' : j < c := by rw [hv] at hj; exact hj
      refine Sat.read (h.cells.read (i := k) (j := j) (by rw [hv]; exact hi) hj rfl) ?_
      refine Sat.writeCell hcells (by simp only at hl; rw [hl]; exact tfit) (i := j) (j := k) hj' hi (View.colAt _ _ _) ?_
      intro b' hl' hc'
      refine Sat.pure ⟨?_, by rw [hl']; exact hl, hc'.congr ?_⟩
      · rw [hT]; simp only; ring
      · intro a b ha hb
        by_cases h1 : a = j ∧ b = k
        · obtain ⟨rfl, rfl⟩ := h1; simp
        · rw [if_neg h1]
          by_cases h2 : b < k ∨ b = k ∧ a < j
          · rw [if_pos h2, if_pos (by omega)]
          · rw [if_neg h2, if_neg (by omega)]
    · rintro ⟨q, d⟩ ⟨-, hl, hcells⟩
      refine Sat.pure ⟨rfl, hl, hcells.congr ?_⟩
      intro a b ha hb
      have ha' : a < M.view.cols := by rw [hv]; exact ha
      by_cases h2 : b < k + 1
      · rw [if_pos h2, if_pos (by omega)]
      · rw [if_neg h2, if_neg (by omega)]
  · rintro ⟨k, d⟩ ⟨-, hl, hcells⟩
    refine Sat.pure ⟨rfl, ?_⟩
    simp only [Dense.new, h.rows, h.cols]
    refine is_mk hl (hcells.congr ?_)
    intro a b ha hb
    rw [if_pos (by rw [h.rows]; exact hb)]

theorem convertBuf_sat {S : Type} (cvt : R → S) {b : Buf R} {G : Nat → R}
    (hG : ∀ t, t < b.length → b.read t = .ok (G t)) :
    Sat (convertBuf cvt b) (fun d => d.length = b.length ∧ ∀ t, t < b.length → d[t]? = some (some (cvt (G t)))) := by
  unfold convertBuf
  refine Sat.bind (Sat.raw (fun k s => s.1 = k ∧ s.2.length = b.length ∧
    ∀ t, t < k → s.2[t]? = some (some (cvt (G t)))) ⟨rfl, by simp, fun t ht => by omega⟩ ?_) ?_
  · rintro i ⟨q, d⟩ hi ⟨h1, hl, hx⟩
    simp only at h1 hl hx
    subst h1
    refine Sat.read (hG _ hi) (Sat.writeRaw (by simp only; omega) ?_)
    intro b' hl' hx'
    refine Sat.pure ⟨rfl, by simp only at hl' ⊢; omega, ?_⟩
    intro t ht
    simp only
    rw [hx']
    split
    · rename_i e; rw [e]
    · exact hx t (by omega)
  · rintro ⟨q, d⟩ ⟨-, hl, hx⟩
    exact Sat.pure ⟨hl, hx⟩

theorem convert_sat {S : Type} (cvt : R → S) (o : Ori) {A : Dense R} {r c : Nat} {f} (h : A.Is r c f) :
    Sat (A.convert cvt o) (fun B => B.ori = o ∧ B.Is r c (fun i j => cvt (f i j))) := by
  unfold convert
  split
  · rename_i ho
    refine Sat.bind (convertBuf_sat cvt (G := fun t => f (unpos A.ori r c t).1 (unpos A.ori r c t).2)
      (fun t ht => h.raw (by rw [← h.alloc]; exact ht))) ?_
    rintro d ⟨hl, hx⟩
    refine Sat.pure ⟨rfl, ?_⟩
    simp only [h.rows, h.cols]
    apply is_of_raw (by rw [hl, h.alloc])
    intro t ht
    rw [hx t (by rw [h.alloc]; exact ht), ho]
  · rename_i ho
    refine Sat.bind (transpose_sat h) ?_
    rintro T ⟨hTo, hT⟩
    refine Sat.bind (convertBuf_sat cvt
      (G := fun t => f (unpos T.ori c r t).2 (unpos T.ori c r t).1)
      (fun t ht => hT.raw (by rw [← hT.alloc]; exact ht))) ?_
    rintro d ⟨hl, hx⟩
    refine Sat.pure ⟨rfl, ?_⟩
    simp only [h.rows, h.cols]
    have e : c * r = r * c := Nat.mul_comm _ _
    apply is_of_raw (by rw [hl, hT.alloc, e])
    intro t ht
    rw [hx t (by rw [hT.alloc, e]; exact ht), hTo]
    cases ho1 : A.ori <;> cases o <;> simp_all [unpos]

theorem ofLists_sat (o : Ori) (values : List (List R)) (first : List R) (rest : List (List R)) (f : Nat → Nat → R)
    (hv : values = first :: rest) (hlen : ∀ row ∈ values, first.length ≤ row.length)
    (hf : ∀ i j row x, values[i]? = some row → row[j]? = some x → f i j = x) :
    Sat (ofLists o values) (fun A => A.ori = o ∧ A.Is values.length first.length f) := by
  have key : ∀ i j, i < values.length → j < first.length →
      (values[i]?).bind (fun row => row[j]?) = some (f i j) := by
    intro i j hi hj
    have h1 : values[i]? = some values[i] := List.getElem?_eq_getElem hi
    have h2 : j < (values[i]).length := Nat.lt_of_lt_of_le hj (hlen _ (List.getElem_mem hi))
    have h3 : (values[i])[j]? = some ((values[i])[j]) := List.getElem?_eq_getElem h2
    rw [h1, Option.bind_some, h3, hf i j _ _ h1 h3]
  have e : ofLists o values = (do
    let A : Dense R := Dense.new o values.length first.length
    let d ← ptrLoop 0 A.dim.rows 1 (fun i (d : Buf R) => do
      let (_, d) ← ptrLoop (A.view.rowBegin i) (A.view.rowEnd i) A.view.rowStride
        (fun p (t : Nat × Buf R) =>
          match (values[i]?).bind (fun row => row[t.1]?) with
          | none => .error .ub
          | some x => do
            let d ← t.2.write p x
            return (t.1 + 1, d)) (0, d)
      return d) A.data
    return { A with data := d }) := by subst hv; rfl
  rw [e]
  have hview : (Dense.new o values.length first.length : Dense R).view = View.plain o values.length first.length := rfl
  have fit := View.plain_fits o values.length first.length
  refine Sat.bind (Sat.raw (fun i d => d.length = values.length * first.length ∧
    (View.plain o values.length first.length).Cells d (fun i' j => if i' < i then some (f i' j) else none))
    ⟨by simp [Dense.new], by simpa [Dense.new] using View.alloc_cells fit⟩ ?_) ?_
  · rintro i d hi ⟨hl, hc⟩
    have hi' : i < values.length := hi
    refine Sat.bind (Sat.rowLoop fit hi' (fun j t => t.1 = j ∧ t.2.length = values.length * first.length ∧
      (View.plain o values.length first.length).Cells t.2
        (fun i' j' => if i' < i ∨ i' = i ∧ j' < j then some (f i' j') else none))
      ⟨rfl, hl, by simpa using hc⟩ ?_) ?_
    · rintro j ⟨q, d⟩ hj ⟨rfl, hl, hc⟩
      simp only [key i q hi' hj]
      refine Sat.writeCell hc (by simp only at hl; rw [hl]; exact fit) (i := i) (j := q) hi' hj rfl ?_
      intro b' hl' hc'
      refine Sat.pure ⟨rfl, by rw [hl']; exact hl, hc'.congr ?_⟩
      intro a b ha hb
      by_cases h1 : a = i ∧ b = q
      · obtain ⟨rfl, rfl⟩ := h1; simp
      · rw [if_neg h1]
        by_cases h2 : a < i ∨ a = i ∧ b < q
        · rw [if_pos h2, if_pos (by omega)]
        · rw [if_neg h2, if_neg (by omega)]
    · rintro ⟨q, d⟩ ⟨-, hl, hc⟩
      refine Sat.pure ⟨hl, hc.congr ?_⟩
      intro a b ha hb
      by_cases h2 : a < i + 1
      · rw [if_pos h2, if_pos (by omega)]
      · rw [if_neg h2, if_neg (by omega)]
  · rintro d ⟨hl, hc⟩
    refine Sat.pure ⟨rfl, is_mk hl (hc.congr ?_)⟩
    intro a b ha hb
    exact if_pos ha

theorem binop_sat (op : R → R → R) {A B : Dense R} (C : Dense R) {r c : Nat} {f g}
    (hA : A.Is r c f) (hB : B.Is r c g) (ho : A.ori = B.ori) (ho' : C.ori = A.ori) :
    Sat (binop op A B C) (fun D => D.ori = A.ori ∧ D.Is r c (fun i j => op (f i j) (g i j))) := by
  unfold binop
  refine Sat.assert (by simp [hA.rows, hB.rows]) (Sat.assert (by simp [hA.cols, hB.cols]) ?_)
  simp only [hA.rows, hA.cols]
  refine Sat.bind (Sat.raw (fun k s => s.1 = k ∧ s.2.1 = k ∧ s.2.2.length = r * c ∧
    ∀ t, t < k → s.2.2[t]? = some (some (op (f (unpos A.ori r c t).1 (unpos A.ori r c t).2)
      (g (unpos A.ori r c t).1 (unpos A.ori r c t).2)))) ⟨rfl, rfl, by simp [resize, length_resizeBuf], fun t ht => by omega⟩ ?_) ?_
  · rintro i ⟨q, q', d⟩ hi ⟨h1, h2, hl, hx⟩
    simp only at h1 h2 hl hx
    subst h1; subst h2
    rw [hA.alloc] at hi
    have hrA := hA.raw hi
    have hrB := hB.raw hi
    rw [← ho] at hrB
    refine Sat.read hrA (Sat.read hrB (Sat.writeRaw (by simp only; omega) ?_))
    intro b' hl' hx'
    refine Sat.pure ⟨rfl, rfl, by simp only at hl' ⊢; omega, ?_⟩
    intro t ht
    simp only
    rw [hx']
    split
    · rename_i e; rw [e]
    · simp only at *; exact hx t (by omega)
  · rintro ⟨q, q', d⟩ ⟨-, -, hl, hx⟩
    refine Sat.pure ⟨ho', ?_⟩
    simp only [resize]
    apply is_of_raw hl
    intro t ht
    rw [hx t (by rw [hA.alloc]; exact ht), ho']

theorem binassign_sat (op : R → R → R) {A B : Dense R} {r c : Nat} {f g}
    (hA : A.Is r c f) (hB : B.Is r c g) (ho : A.ori = B.ori) :
    Sat (binassign op A B) (fun D => D.ori = A.ori ∧ D.Is r c (fun i j => op (f i j) (g i j))) := by
  unfold binassign
  refine Sat.bind (Sat.raw (fun k s => s.1 = k ∧ s.2.length = r * c ∧
    (∀ t, t < k → s.2[t]? = some (some (op (f (unpos A.ori r c t).1 (unpos A.ori r c t).2)
      (g (unpos A.ori r c t).1 (unpos A.ori r c t).2)))) ∧ ∀ t, k ≤ t → s.2[t]? = A.data[t]?)
      ⟨rfl, hA.alloc, fun t ht => by omega, fun t _ => rfl⟩ ?_) ?_
  · rintro i ⟨q, d⟩ hi ⟨h1, hl, hx, hy⟩
    simp only at h1 hl hx hy
    subst h1
    rw [hA.alloc] at hi
    have hrA : d.read q = .ok (f (unpos A.ori r c q).1 (unpos A.ori r c q).2) := by
      have := hA.raw hi
      rw [Buf.read_ok] at this ⊢
      rw [hy q (by omega), this]
    have hrB := hB.raw hi
    rw [← ho] at hrB
    refine Sat.read hrA (Sat.read hrB (Sat.writeRaw (by simp only; omega) ?_))
    intro b' hl' hx'
    refine Sat.pure ⟨rfl, by simp only at hl' ⊢; omega, ?_, ?_⟩
    · intro t ht
      simp only
      rw [hx']
      split
      · rename_i e; rw [e]
      · exact hx t (by omega)
    · intro t ht
      simp only
      rw [hx', if_neg (by omega)]
      exact hy t (by omega)
  · rintro ⟨q, d⟩ ⟨-, hl, hx, -⟩
    refine Sat.pure ⟨rfl, ?_⟩
    have : A.dim = Dim.mk' r c := by
      have h1 := hA.rows; have h2 := hA.cols; have h3 := hA.size
      cases hd : A.dim; simp [hd, Dim.mk'] at *; exact ⟨h1, h2, h3⟩
    rw [this]
    apply is_of_raw hl
    intro t ht
    rw [hx t (by rw [hA.alloc]; exact ht)]

end Dense
end BB
