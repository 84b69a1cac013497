import Verif.SpecBlocked
import Verif.Lemmas.Converter
import Mathlib.Algebra.BigOperators.Intervals

/-! Auxiliary lemmas about blocked matrices. -/

namespace BB

variable {R : Type}

theorem offs_succ (l : List Nat) {i : Nat} (hi : i < l.length) : offs l (i+1) = offs l i + l.getD i 0 := by
  unfold offs
  rw [List.take_succ, List.getElem?_eq_getElem hi, List.sum_append]
  simp [hi]

theorem offs_length (l : List Nat) : offs l l.length = l.sum := by simp [offs]

theorem offs_mono (l : List Nat) {i j : Nat} (h : i ≤ j) (hj : j ≤ l.length) : offs l i ≤ offs l j := by
  induction j with
  | zero => obtain rfl : i = 0 := by omega
            exact Nat.le_refl _
  | succ j ih =>
    rcases Nat.lt_or_ge i (j+1) with h' | h'
    · have := ih (by omega) (by omega)
      rw [offs_succ l (by omega)]
      omega
    · obtain rfl : i = j+1 := by omega
      exact Nat.le_refl _

theorem offs_le_sum (l : List Nat) {i : Nat} (hi : i < l.length) : offs l i + l.getD i 0 ≤ l.sum := by
  rw [← offs_succ l hi, ← offs_length]
  exact offs_mono l hi (Nat.le_refl _)

/-- Block and position in the block of an index. -/
def loc : List Nat → Nat → Nat × Nat
  | [], x => (0, x)
  | h :: t, x => if x < h then (0, x) else ((loc t (x - h)).1 + 1, (loc t (x - h)).2)

theorem loc_offs (l : List Nat) {i a : Nat} (hi : i < l.length) (ha : a < l.getD i 0) : loc l (offs l i + a) = (i, a) := by
  induction l generalizing i with
  | nil => simp at hi
  | cons h t ih =>
    cases i with
    | zero =>
      simp only [List.getD_cons_zero] at ha
      simp [offs, loc, ha]
    | succ i =>
      simp only [List.getD_cons_succ] at ha
      have hi' : i < t.length := by simpa using hi
      have e : offs (h :: t) (i+1) = h + offs t i := by simp [offs]
      rw [e, loc, if_neg (by omega), show h + offs t i + a - h = offs t i + a by omega, ih hi' ha]

theorem loc_spec (l : List Nat) {x : Nat} (hx : x < l.sum) :
    (loc l x).1 < l.length ∧ (loc l x).2 < l.getD (loc l x).1 0 ∧ offs l (loc l x).1 + (loc l x).2 = x := by
  induction l generalizing x with
  | nil => simp at hx
  | cons h t ih =>
    by_cases hlt : x < h
    · simp [loc, hlt, offs]
    · have : x - h < t.sum := by simp at hx; omega
      obtain ⟨h1, h2, h3⟩ := ih this
      simp only [loc, hlt, if_false]
      refine ⟨by simpa using h1, by simpa using h2, ?_⟩
      have e : offs (h :: t) ((loc t (x - h)).1+1) = h + offs t (loc t (x - h)).1 := by simp [offs]
      rw [e]; omega

theorem vecRead_ok {l : List Nat} {i : Nat} (hi : i < l.length) : vecRead l i = .ok (l.getD i 0) := by
  simp [vecRead, hi]

theorem copyInto_sat {S : Dense R} {r c pr pc r0 c0 : Nat} {g : Nat → Nat → R} {d : Buf R} {F : Nat → Nat → Option R}
    (hS : S.Is r c g) (hd : d.length = pr * pc) (hr : r0 + r ≤ pr) (hc : c0 + c ≤ pc) (hF : (View.plain .col pr pc).Cells d F) :
    Sat (copyInto S ((View.plain .col pr pc).sub r c r0 c0) d) (fun d' => d'.length = pr * pc ∧
      (View.plain .col pr pc).Cells d' (fun I J => if r0 ≤ I ∧ I < r0 + r ∧ c0 ≤ J ∧ J < c0 + c then some (g (I - r0) (J - c0)) else F I J)) := by
  have fit := View.plain_fits .col pr pc
  unfold copyInto
  rw [hS.rows]
  have hpos : ∀ i j, ((View.plain .col pr pc).sub r c r0 c0).base + ((View.plain .col pr pc).sub r c r0 c0).pos i j
      = (View.plain .col pr pc).base + (View.plain .col pr pc).pos (r0 + i) (c0 + j) := by
    intro i j; simp only [View.sub, View.pos, View.plain]; ring
  refine Sat.mono (Sat.raw (fun i d => d.length = pr * pc ∧
    (View.plain .col pr pc).Cells d (fun I J => if r0 ≤ I ∧ I < r0 + i ∧ c0 ≤ J ∧ J < c0 + c then some (g (I - r0) (J - c0)) else F I J)) ?_ ?_) ?_
  · exact ⟨hd, hF.congr (fun I J _ _ => by rw [if_neg (by omega)])⟩
  · rintro i d hi ⟨hl, hC⟩
    have hcols : S.view.cols = c := by rw [hS.view_rows]; rfl
    refine Sat.bind (P := fun t : Nat × Buf R => t.2.length = pr * pc ∧
      (View.plain .col pr pc).Cells t.2 (fun I J => if r0 ≤ I ∧ I < r0 + i + 1 ∧ c0 ≤ J ∧ J < c0 + c then some (g (I - r0) (J - c0)) else F I J)) ?_ ?_
    · have hi' : i < S.view.rows := by rw [hS.view_rows]; exact hi
      have := Sat.rowLoop (s := (((View.plain .col pr pc).sub r c r0 c0).rowBegin i, d)) hS.fits hi' (f := fun p (t : Nat × Buf R) => do
        let x ← S.data.read p
        let d ← t.2.write t.1 x
        return (t.1 + ((View.plain .col pr pc).sub r c r0 c0).rowStride, d))
        (fun j t => t.1 = ((View.plain .col pr pc).sub r c r0 c0).base + ((View.plain .col pr pc).sub r c r0 c0).pos i j ∧ t.2.length = pr * pc ∧
          (View.plain .col pr pc).Cells t.2 (fun I J => if r0 ≤ I ∧ I < r0 + i + 1 ∧ c0 ≤ J ∧ J < c0 + c ∧ (I < r0 + i ∨ J < c0 + j) then some (g (I - r0) (J - c0)) else F I J)) ?_ ?_
      · refine this.mono ?_
        rintro ⟨q, d⟩ ⟨-, hl, hC⟩
        refine ⟨hl, hC.congr (fun I J _ _ => ?_)⟩
        rw [hcols]
        congr 1
        apply propext
        constructor
        · intro h; exact ⟨h.1, h.2.1, h.2.2.1, h.2.2.2.1⟩
        · intro h; exact ⟨h.1, h.2.1, h.2.2.1, h.2.2.2, .inr h.2.2.2⟩
      · refine ⟨?_, hl, hC.congr (fun I J _ _ => ?_)⟩
        · rw [← View.rowAt]; simp
        · congr 1
          apply propext
          constructor <;> intro h <;> omega
      · rintro j ⟨q, d⟩ hj ⟨h1, hl, hC⟩
        simp only at h1 hl hC
        subst h1
        rw [hcols] at hj
        have hi2 : i < r := hi
        have hread := hS.read hi2 hj
        refine Sat.read (v := g i j) (by rw [hS.view_rows]; simpa [View.plain] using hread) ?_
        refine Sat.writeCell (i := r0 + i) (j := c0 + j) hC (by rw [hl]; exact fit) (by show r0 + i < pr; omega) (by show c0 + j < pc; omega) (hpos i j) ?_
        intro d' hl' hC'
        refine Sat.pure ⟨?_, by simp only at hl' ⊢; omega, hC'.congr (fun I J _ _ => ?_)⟩
        · show _ + ((View.plain .col pr pc).sub r c r0 c0).rowStride = _
          rw [← View.rowAt, ← View.rowAt]; ring
        · by_cases h : I = r0 + i ∧ J = c0 + j
          · obtain ⟨rfl, rfl⟩ := h
            rw [if_pos ⟨rfl, rfl⟩, if_pos (by omega)]
            simp
          · rw [if_neg h]
            congr 1
            apply propext
            constructor <;> intro h' <;> omega
    · rintro ⟨q, d⟩ ⟨hl, hC⟩
      exact Sat.pure ⟨hl, hC⟩
  · rintro d ⟨hl, hC⟩
    exact ⟨hl, hC⟩

namespace Blocks

variable {α : Type}

/-- The grid of a blocked matrix: its shape, and a block with property `In i j` in each cell. -/
structure Grid (B : Blocks α) (nr nc : Nat) (In : Nat → Nat → α → Prop) : Prop where
  ori : B.grid.ori = .col
  rows : B.grid.dim.rows = nr
  cols : B.grid.dim.cols = nc
  alloc : B.grid.data.length = nr * nc
  blocks : ∀ i j, i < nr → j < nc → ∃ M, B.grid.get i j = .ok M ∧ In i j M

theorem Grid.view {B : Blocks α} {nr nc : Nat} {In : Nat → Nat → α → Prop} (h : B.Grid nr nc In) :
    B.grid.view = View.plain .col nr nc := by
  unfold Dense.view; rw [h.rows, h.cols, h.ori]

theorem Grid.fits {B : Blocks α} {nr nc : Nat} {In : Nat → Nat → α → Prop} (h : B.Grid nr nc In) :
    B.grid.view.Fits B.grid.data.length := by
  rw [h.view, h.alloc]; exact View.plain_fits _ _ _

theorem Grid.read {B : Blocks α} {nr nc : Nat} {In : Nat → Nat → α → Prop} (h : B.Grid nr nc In) {i j : Nat}
    (hi : i < nr) (hj : j < nc) : ∃ M, B.grid.data.read (B.grid.view.base + B.grid.view.pos i j) = .ok M ∧ In i j M := by
  obtain ⟨M, e, hM⟩ := h.blocks i j hi hj
  unfold Dense.get at e
  rw [View.get_eq (by rw [h.view]; exact hi) (by rw [h.view]; exact hj)] at e
  exact ⟨M, e, hM⟩

theorem Grid.mono {B : Blocks α} {nr nc : Nat} {In In' : Nat → Nat → α → Prop} (h : B.Grid nr nc In)
    (hi : ∀ i j M, i < nr → j < nc → In i j M → In' i j M) : B.Grid nr nc In' :=
  ⟨h.ori, h.rows, h.cols, h.alloc, fun i j hi' hj' => by
    obtain ⟨M, e, hM⟩ := h.blocks i j hi' hj'
    exact ⟨M, e, hi i j M hi' hj' hM⟩⟩

theorem toDense_gen {dense : α → Res (Dense R)} {rows cols : α → Nat} {B : Blocks α} {rs cs : List Nat} {f : Nat → Nat → R}
    (h : B.Grid rs.length cs.length (fun i j M => rows M = rs.getD i 0 ∧ cols M = cs.getD j 0 ∧
      Sat (dense M) (fun S => S.Is (rs.getD i 0) (cs.getD j 0) (fun a b => f (offs rs i + a) (offs cs j + b)))))
    (hu1 : B.ubRows = rs.sum) (hu2 : B.ubCols = cs.sum) :
    Sat (B.toDenseWith dense rows cols) (fun D => D.ori = .col ∧ D.Is rs.sum cs.sum f) := by
  unfold toDenseWith
  rw [h.rows, hu1, hu2]
  have hW : (Dense.new .col rs.sum cs.sum : Dense R).view = View.plain .col rs.sum cs.sum := rfl
  simp only [hW]
  refine Sat.bind (Sat.raw (fun i (s : Nat × Nat × Buf R) => (cs ≠ [] → s.1 = offs rs i) ∧ s.2.2.length = rs.sum * cs.sum ∧
    ∃ F, (View.plain .col rs.sum cs.sum).Cells s.2.2 F ∧ ∀ I J, I < offs rs i → J < cs.sum → F I J = some (f I J)) ?_ ?_) ?_
  · exact ⟨fun _ => rfl, by simp [Dense.new], _, View.alloc_cells (View.plain_fits .col _ _), fun I J hI => by simp [offs] at hI⟩
  · rintro i ⟨ro, tmp, d⟩ hi ⟨h1, hl, F, hC, hF⟩
    simp only at h1 hl hC hF
    have hsi := offs_le_sum rs hi
    refine Sat.bind (Sat.rowLoop h.fits (i := i) (by rw [h.view]; exact hi)
      (fun j (u : Nat × Nat × Buf R) => u.1 = offs cs j ∧ (0 < j → u.2.1 = rs.getD i 0) ∧ u.2.2.length = rs.sum * cs.sum ∧
        ∃ F, (View.plain .col rs.sum cs.sum).Cells u.2.2 F ∧
          (∀ I J, I < offs rs i → J < cs.sum → F I J = some (f I J)) ∧
          (∀ I J, offs rs i ≤ I → I < offs rs (i+1) → J < offs cs j → F I J = some (f I J))) ?_ ?_) ?_
    · exact ⟨rfl, by omega, hl, F, hC, hF, fun I J _ _ hJ => by simp [offs] at hJ⟩
    · rintro j ⟨co, tmp, d⟩ hj ⟨h1', -, hl, F, hC, hF, hF'⟩
      simp only at h1' hl hC
      rw [h.view] at hj
      have hj : j < cs.length := hj
      have hsj := offs_le_sum cs hj
      obtain rfl := h1 (by rintro rfl; simp at hj)
      subst h1'
      obtain ⟨M, eM, hM1, hM2, hM3⟩ := h.read hi hj
      refine Sat.read eM ?_
      refine Sat.bind hM3 ?_
      intro S hS
      rw [hM1, hM2]
      refine Sat.bind (copyInto_sat hS hl (by omega) (by omega) hC) ?_
      rintro d' ⟨hl', hC'⟩
      refine Sat.pure ⟨by rw [offs_succ cs hj], fun _ => rfl, hl', _, hC', ?_, ?_⟩
      · intro I J hI hJ
        simp only
        rw [if_neg (by omega)]
        exact hF I J hI hJ
      · intro I J hI hI' hJ
        simp only
        rw [offs_succ rs hi] at hI'
        rw [offs_succ cs hj] at hJ
        by_cases hin : offs rs i ≤ I ∧ I < offs rs i + rs.getD i 0 ∧ offs cs j ≤ J ∧ J < offs cs j + cs.getD j 0
        · rw [if_pos hin]
          congr 2 <;> omega
        · rw [if_neg hin]
          exact hF' I J hI (by rw [offs_succ rs hi]; exact hI') (by omega)
    · rintro ⟨co, tmp', d'⟩ ⟨-, ht, hl', F', hC', hF1, hF2⟩
      rw [h.view] at hF2 ht
      simp only [View.plain] at ht hF2
      refine Sat.pure ⟨?_, hl', F', hC', ?_⟩
      · intro hcs
        simp only
        rw [h1 hcs, ht (List.length_pos_iff.2 hcs), offs_succ rs hi]
      · intro I J hI hJ
        by_cases hlt : I < offs rs i
        · exact hF1 I J hlt hJ
        · exact hF2 I J (by omega) hI (by rw [offs_length]; exact hJ)
  · rintro ⟨ro, tmp, d⟩ ⟨-, hl, F, hC, hF⟩
    refine Sat.pure ⟨rfl, Dense.is_of_cells rfl rfl rfl hl (hC.congr ?_)⟩
    intro I J hI hJ
    exact hF I J (by rw [offs_length]; exact hI) hJ

end Blocks

namespace Blocked

theorem Is.view [Zero R] [Add R] {B : Blocked R} {rs cs : List Nat} {f : Nat → Nat → R} (h : B.Is rs cs f) :
    B.grid.view = View.plain .col rs.length cs.length := by
  unfold Dense.view; rw [h.rows, h.cols, h.ori]

theorem Is.fits [Zero R] [Add R] {B : Blocked R} {rs cs : List Nat} {f : Nat → Nat → R} (h : B.Is rs cs f) :
    B.grid.view.Fits B.grid.data.length := by
  rw [h.view, h.alloc]; exact View.plain_fits _ _ _

theorem Is.read [Zero R] [Add R] {B : Blocked R} {rs cs : List Nat} {f : Nat → Nat → R} (h : B.Is rs cs f) {i j : Nat}
    (hi : i < rs.length) (hj : j < cs.length) : ∃ M, B.grid.data.read (B.grid.view.base + B.grid.view.pos i j) = .ok M ∧
    M.Is (rs.getD i 0) (cs.getD j 0) (fun a b => f (offs rs i + a) (offs cs j + b)) := by
  obtain ⟨M, e, hM⟩ := h.blocks i j hi hj
  unfold Dense.get at e
  rw [View.get_eq (by rw [h.view]; exact hi) (by rw [h.view]; exact hj)] at e
  exact ⟨M, e, hM⟩

theorem mat_rows [Zero R] [Add R] {M : Mat R} {r c : Nat} {f : Nat → Nat → R} (h : M.Is r c f) : M.rows = r := by
  cases M with
  | one A => exact SMat.Is.rows h
  | two X Y => obtain ⟨f1, f2, h1, -, -⟩ := h; exact SMat.Is.rows h1

theorem mat_cols [Zero R] [Add R] {M : Mat R} {r c : Nat} {f : Nat → Nat → R} (h : M.Is r c f) : M.cols = c := by
  cases M with
  | one A => exact SMat.Is.cols h
  | two X Y => obtain ⟨f1, f2, h1, -, -⟩ := h; exact SMat.Is.cols h1

theorem Is.grid' [Zero R] [Add R] {B : Blocked R} {rs cs : List Nat} {f : Nat → Nat → R} (h : B.Is rs cs f) :
    B.Grid rs.length cs.length (fun i j M => M.Is (rs.getD i 0) (cs.getD j 0) (fun a b => f (offs rs i + a) (offs cs j + b))) :=
  ⟨h.ori, h.rows, h.cols, h.alloc, h.blocks⟩

theorem toDense_sat [AddZeroClass R] {B : Blocked R} {rs cs : List Nat} {f : Nat → Nat → R} (h : B.Is rs cs f) :
    Sat B.toDense (fun D => D.ori = .col ∧ D.Is rs.sum cs.sum f) :=
  Blocks.toDense_gen (h.grid'.mono fun _ _ _ _ _ hM => ⟨mat_rows hM, mat_cols hM, (Mat.toDense_sat hM).mono fun _ hS => hS.1⟩)
    h.ubRows h.ubCols

end Blocked
end BB
