import Verif.Lemmas.DenseOps

namespace BB

variable {R : Type}

theorem dotSeq_zero [Zero R] [Add R] [Mul R] (f g : Nat → Nat → R) (i j : Nat) : dotSeq f g 0 i j = 0 := rfl

theorem dotSeq_succ [Zero R] [Add R] [Mul R] (f g : Nat → Nat → R) (k i j : Nat) :
    dotSeq f g (k+1) i j = dotSeq f g k i j + f i k * g k j := by
  simp [dotSeq, List.range_succ]

theorem dotSeq_congr [Zero R] [Add R] [Mul R] {f g f' g' : Nat → Nat → R} {k i j : Nat}
    (hf : ∀ l, l < k → f i l = f' i l) (hg : ∀ l, l < k → g l j = g' l j) : dotSeq f g k i j = dotSeq f' g' k i j := by
  induction k with
  | zero => rfl
  | succ k ih =>
    rw [dotSeq_succ, dotSeq_succ, ih (fun l hl => hf l (by omega)) (fun l hl => hg l (by omega)), hf k (by omega), hg k (by omega)]

namespace Dense

theorem mulGeneral_sat [Zero R] [Add R] [Mul R] {A B : Dense R} (C : Dense R) {m k n : Nat} {f g}
    (hA : A.Is m k f) (hB : B.Is k n g) (hAo : A.ori = .col) (hBo : B.ori = .col) (hCo : C.ori = .col) :
    Sat (mulGeneral A B C) (fun D => D.ori = .col ∧ D.Is m n (fun i j => dotSeq f g k i j)) := by
  have fit := View.plain_fits .col m n
  have rdA : ∀ {i l}, i < m → l < k → A.data.read (i + l * m) = .ok (f i l) := by
    intro i l hi hl
    have := hA.read hi hl
    rw [hAo] at this; exact this
  have rdB : ∀ {l j}, l < k → j < n → B.data.read (l + j * k) = .ok (g l j) := by
    intro l j hl hj
    have := hB.read hl hj
    rw [hBo] at this; exact this
  have hpos : ∀ i j, (View.plain .col m n).base + (View.plain .col m n).pos i j = i + j * m := by
    intro i j; simp [View.plain, View.pos]
  unfold mulGeneral
  refine Sat.assert (by simp [hA.cols, hB.rows]) ?_
  rw [hA.rows, hB.cols, hB.rows, resizeFill_eq]
  refine Sat.bind (Sat.ok (P := fun C' => C' = ⟨C.ori, Dim.mk' m n, List.replicate (m * n) (some 0)⟩) rfl) ?_
  rintro C' rfl
  refine Sat.bind (Sat.loop (fun j s => s.1 = j * k ∧ s.2.length = m * n ∧
      (View.plain .col m n).Cells s.2 (fun i' j' => some (if j' < j then dotSeq f g k i' j' else 0)))
      ⟨by simp, by simp, by simpa using replicate_cells .col m n (0 : R)⟩ ?_) ?_
  · rintro j ⟨iterB, d⟩ hj ⟨h1, hl, hc⟩
    simp only at h1 hl hc
    subst h1
    refine Sat.bind (Sat.loop (fun l t => t.1 = l * m ∧ t.2.1 = j * k + l ∧ t.2.2.length = m * n ∧
      (View.plain .col m n).Cells t.2.2 (fun i' j' => some
        (if j' < j then dotSeq f g k i' j' else if j' = j then dotSeq f g l i' j' else 0)))
      ⟨by simp, by simp, hl, hc.congr (by intros; simp [dotSeq_zero])⟩ ?_) ?_
    · rintro l ⟨iterA, iterB, d⟩ hlk ⟨h1, h2, hl, hc⟩
      simp only at h1 h2 hl hc
      subst h1; subst h2
      refine Sat.bind (Sat.loop (fun i u => u.1 = l * m + i ∧ u.2.1 = j * m + i ∧ u.2.2.length = m * n ∧
        (View.plain .col m n).Cells u.2.2 (fun i' j' => some
          (if j' < j then dotSeq f g k i' j' else if j' = j then
            (if i' < i then dotSeq f g (l+1) i' j' else dotSeq f g l i' j') else 0)))
        ⟨by simp, by simp [Dim.mk'], hl, hc.congr (by intros; simp)⟩ ?_) ?_
      · rintro i ⟨iterA, iterC, d⟩ hi ⟨h1, h2, hl, hc⟩
        simp only at h1 h2 hl hc
        subst h1; subst h2
        have rc := hc.read (i := i) (j := j) hi hj (by simp; rfl)
        rw [hpos, Nat.add_comm] at rc
        have ra := rdA hi hlk
        rw [Nat.add_comm] at ra
        have rb := rdB hlk hj
        rw [Nat.add_comm] at rb
        refine Sat.read rc (Sat.read ra (Sat.read rb ?_))
        refine Sat.writeCell hc (by simp only; rw [hl]; exact fit) (i := i) (j := j) hi hj
          (by rw [hpos]; simp only; omega) ?_
        intro b' hl' hc'
        refine Sat.pure ⟨by simp only; omega, by simp only; omega, by simp only at hl' ⊢; omega, hc'.congr ?_⟩
        intro a b ha hb
        by_cases h1 : a = i ∧ b = j
        · obtain ⟨rfl, rfl⟩ := h1
          simp [dotSeq_succ]
        · rw [if_neg h1]
          by_cases hbj : b = j
          · subst hbj
            have : (a < i + 1) = (a < i) := by
              apply propext; constructor <;> intro h
              · have : a ≠ i := fun e => h1 ⟨e, rfl⟩
                omega
              · omega
            simp [this]
          · simp [hbj]
      · rintro ⟨iterA, iterC, d⟩ ⟨h1, h2, hl, hc⟩
        simp only at h1 h2 hl hc
        refine Sat.pure ⟨by simp only; rw [h1]; ring, by simp only; omega, hl, hc.congr ?_⟩
        intro a b ha hb
        have : a < m := ha
        simp [this]
    · rintro ⟨iterA, iterB, d⟩ ⟨h1, h2, hl, hc⟩
      simp only at h1 h2 hl hc
      refine Sat.pure ⟨by simp only; rw [h2]; ring, hl, hc.congr ?_⟩
      intro a b ha hb
      by_cases h1 : b < j
      · simp [h1, Nat.lt_succ_of_lt h1]
      · by_cases h2 : b = j
        · simp [h2]
        · have : ¬ b < j + 1 := by omega
          simp [h1, h2, this]
  · rintro ⟨iterB, d⟩ ⟨-, hl, hc⟩
    refine Sat.pure ⟨hCo, ?_⟩
    simp only [hCo]
    refine is_mk hl (hc.congr ?_)
    intro a b ha hb
    have : b < n := hb
    simp [this]

theorem mulCursor_sat [Zero R] [Add R] [Mul R] {va vb : View} {da db : Buf R} (C : Dense R) {f g}
    (hk : va.cols = vb.rows)
    (fa : va.Fits da.length) (ra : va.Reads da f) (rb : vb.Reads db g) :
    Sat (mulCursor va da vb db C) (fun D => D.ori = C.ori ∧
      D.Is va.rows vb.cols (fun i j => dotSeq f g va.cols i j)) := by
  have fit := View.plain_fits C.ori va.rows vb.cols
  have hCv : (C.resize va.rows vb.cols).view = View.plain C.ori va.rows vb.cols := rfl
  unfold mulCursor
  simp only [hCv]
  refine Sat.bind (Sat.raw (fun i s => s.1 = i ∧ s.2.length = va.rows * vb.cols ∧
    (View.plain C.ori va.rows vb.cols).Cells s.2 (fun i' j' => if i' < i then some (dotSeq f g va.cols i' j')
      else ((C.resize va.rows vb.cols).data[(View.plain C.ori va.rows vb.cols).base + (View.plain C.ori va.rows vb.cols).pos i' j']?).join)) ?_ ?_) ?_
  · refine ⟨rfl, by simp [resize, length_resizeBuf], ?_⟩
    simpa using View.cells_any (v := View.plain C.ori va.rows vb.cols)
      (b := (C.resize va.rows vb.cols).data) (by simpa [resize, length_resizeBuf] using fit)
  · generalize hF : (fun i' j' => ((C.resize va.rows vb.cols).data[(View.plain C.ori va.rows vb.cols).base + (View.plain C.ori va.rows vb.cols).pos i' j']?).join) = F0
    have hF' : ∀ i' j', ((C.resize va.rows vb.cols).data[(View.plain C.ori va.rows vb.cols).base + (View.plain C.ori va.rows vb.cols).pos i' j']?).join = F0 i' j' := by
      intro i' j'; rw [← hF]
    simp only [hF']
    rintro i ⟨ci, d⟩ hi ⟨h1, hl, hc⟩
    simp only at h1 hl hc
    subst h1
    refine Sat.bind (Sat.raw (fun j t => t.1 = (View.plain C.ori va.rows vb.cols).rowBegin ci + j * (View.plain C.ori va.rows vb.cols).rowStride ∧
      t.2.length = va.rows * vb.cols ∧
      (View.plain C.ori va.rows vb.cols).Cells t.2 (fun i' j' => if i' < ci ∨ (i' = ci ∧ j' < j) then some (dotSeq f g va.cols i' j')
        else F0 i' j')) ⟨by simp, hl, by simpa using hc⟩ ?_) ?_
    · rintro j ⟨pc, d⟩ hj ⟨h1, hl, hc⟩
      simp only at h1 hl hc
      rw [View.rowAt] at h1
      subst h1
      refine Sat.writeCell hc (by simp only; rw [hl]; exact fit) (i := ci) (j := j) hi hj rfl ?_
      intro b' hl' hc'
      simp only at hl'
      refine Sat.bind (Sat.rowLoop fa hi (fun l u => u.1 = vb.colBegin j + l * vb.colStride ∧
        u.2.length = va.rows * vb.cols ∧
        (View.plain C.ori va.rows vb.cols).Cells u.2 (fun i' j' => if i' = ci ∧ j' = j then some (dotSeq f g l i' j')
          else if i' < ci ∨ (i' = ci ∧ j' < j) then some (dotSeq f g va.cols i' j')
          else F0 i' j'))
        ⟨by simp, by rw [hl', hl], hc'.congr (by intros; simp [dotSeq_zero])⟩ ?_) ?_
      · rintro l ⟨pb, d⟩ hlk ⟨h1, hl, hc⟩
        simp only at h1 hl hc
        rw [View.colAt] at h1
        subst h1
        have rc := hc.read (i := ci) (j := j) hi hj (by simp; rfl)
        have rA := ra ci l hi hlk
        rw [View.get_eq hi hlk] at rA
        have rB := rb l j (by rw [← hk]; exact hlk) hj
        rw [View.get_eq (by rw [← hk]; exact hlk) hj] at rB
        refine Sat.read rc (Sat.read rA (Sat.read rB ?_))
        refine Sat.writeCell hc (by simp only; rw [hl]; exact fit) (i := ci) (j := j) hi hj rfl ?_
        intro b' hl' hc'
        simp only at hl'
        refine Sat.pure ⟨?_, by simp only; omega, hc'.congr ?_⟩
        · simp only; rw [← View.colAt]; ring
        · intro a b ha hb
          by_cases h1 : a = ci ∧ b = j
          · obtain ⟨rfl, rfl⟩ := h1
            simp [dotSeq_succ]
          · simp [h1]
      · rintro ⟨pb, d⟩ ⟨-, hl, hc⟩
        simp only at hl hc
        refine Sat.pure ⟨?_, hl, hc.congr ?_⟩
        · simp only; rw [← View.rowAt]; ring
        · intro a b ha hb
          by_cases h1 : a = ci ∧ b = j
          · obtain ⟨rfl, rfl⟩ := h1
            simp
          · rw [if_neg h1]
            by_cases h2 : a < ci ∨ a = ci ∧ b < j
            · rw [if_pos h2, if_pos (by omega)]
            · rw [if_neg h2, if_neg (by omega)]
    · rintro ⟨pc, d⟩ ⟨-, hl, hc⟩
      simp only at hl hc
      refine Sat.pure ⟨rfl, hl, hc.congr ?_⟩
      intro a b ha hb
      have hb' : b < vb.cols := hb
      by_cases h2 : a < ci + 1
      · rw [if_pos h2, if_pos (by omega)]
      · rw [if_neg h2, if_neg (by omega)]
  · rintro ⟨ci, d⟩ ⟨-, hl, hc⟩
    refine Sat.pure ⟨rfl, ?_⟩
    simp only [resize]
    refine is_mk hl (hc.congr ?_)
    intro a b ha hb
    have : a < va.rows := ha
    rw [if_pos this]

end Dense
end BB
