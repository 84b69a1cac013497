import Verif.Lemmas.DenseMul
import Mathlib.Algebra.BigOperators.Intervals
import Mathlib.Data.Nat.Cast.Basic

/-! Auxiliary lemmas about the fillers, and `dotSeq` as a finite sum. -/

namespace BB

variable {R : Type}

theorem countUp_eq [AddMonoidWithOne R] (n : Nat) : (countUp n : R) = (n : R) + 1 := by
  induction n with
  | zero => simp [countUp]
  | succ n ih => simp [countUp, ih]

theorem dotSeq_eq_sum [NonUnitalNonAssocSemiring R] (f g : Nat → Nat → R) (k i j : Nat) :
    dotSeq f g k i j = ∑ l ∈ Finset.range k, f i l * g l j := by
  induction k with
  | zero => simp [dotSeq_zero]
  | succ k ih => rw [dotSeq_succ, Finset.sum_range_succ, ih]

namespace Dense

theorem fillContinuous_sat [One R] [Add R] (A : Dense R) {r c : Nat} (hd : A.dim = Dim.mk' r c)
    (hl : A.data.length = r * c) :
    Sat A.fillContinuous (fun B => B.ori = A.ori ∧ B.Is r c (fun i j => countUp ((View.plain A.ori r c).pos i j))) := by
  unfold fillContinuous
  refine Sat.bind (Sat.raw (fun k s => s.1 = countUp k ∧ s.2.length = r * c ∧
    ∀ t, t < k → s.2[t]? = some (some (countUp t))) ⟨rfl, hl, by intro t h; omega⟩ ?_) ?_
  · rintro i ⟨q, d⟩ hi ⟨h1, hl', hx⟩
    simp only at h1 hl' hx
    subst h1
    refine Sat.writeRaw (by simp only; omega) ?_
    intro b' hb hx'
    simp only at hb
    refine Sat.pure ⟨rfl, by simp only; omega, ?_⟩
    intro t ht
    rw [hx']
    by_cases h : t = i
    · simp [h]
    · simp only [h, if_false]; exact hx t (by omega)
  · rintro ⟨q, d⟩ ⟨-, hl', hx⟩
    refine Sat.pure ⟨rfl, ?_⟩
    rw [hd]
    refine is_of_raw hl' ?_
    intro t ht
    rw [hx t (by omega), (unpos_spec A.ori ht).2.2]

theorem fillHilbert_sat [One R] [Add R] [Sub R] [Div R] (A : Dense R) {r c : Nat} (hd : A.dim = Dim.mk' r c)
    (hl : A.data.length = r * c) :
    Sat A.fillHilbert (fun B => B.ori = A.ori ∧
      B.Is r c (fun i j => 1 / (countUp i + countUp j - 1))) := by
  have hv : A.view = View.plain A.ori r c := by simp [view, hd, Dim.mk']
  have fit := View.plain_fits A.ori r c
  have hr : A.dim.rows = r := by rw [hd]; rfl
  unfold fillHilbert
  simp only [hv, hr]
  generalize hF : (fun i j => (A.data[(View.plain A.ori r c).base + (View.plain A.ori r c).pos i j]?).join) = F0
  have hc0 : (View.plain A.ori r c).Cells A.data F0 := by
    rw [← hF]; exact View.cells_any (by rw [hl]; exact fit)
  refine Sat.bind (Sat.raw (fun k s => s.1 = countUp k ∧ s.2.length = r * c ∧
    (View.plain A.ori r c).Cells s.2 (fun i j => if i < k then some (1 / (countUp i + countUp j - 1)) else F0 i j))
    ⟨rfl, hl, by simpa using hc0⟩ ?_) ?_
  · rintro i ⟨q, d⟩ hi ⟨h1, hl', hc⟩
    simp only at h1 hl' hc
    subst h1
    refine Sat.bind (Sat.rowLoop fit hi (fun k s => s.1 = countUp k ∧ s.2.length = r * c ∧
      (View.plain A.ori r c).Cells s.2 (fun i' j => if i' < i ∨ (i' = i ∧ j < k) then
        some (1 / (countUp i' + countUp j - 1)) else F0 i' j))
      ⟨rfl, hl', by simpa using hc⟩ ?_) ?_
    · rintro j ⟨q, d⟩ hj ⟨h1, hl', hc⟩
      simp only at h1 hl' hc
      subst h1
      refine Sat.writeCell hc (by simp only; rw [hl']; exact fit) (i := i) (j := j) hi hj rfl ?_
      intro b' hb hc'
      simp only at hb
      refine Sat.pure ⟨rfl, by simp only; omega, hc'.congr ?_⟩
      intro a b ha hb
      by_cases h1 : a = i ∧ b = j
      · obtain ⟨rfl, rfl⟩ := h1; simp
      · rw [if_neg h1]
        by_cases h2 : a < i ∨ a = i ∧ b < j
        · rw [if_pos h2, if_pos (by omega)]
        · rw [if_neg h2, if_neg (by omega)]
    · rintro ⟨q, d⟩ ⟨-, hl', hc⟩
      refine Sat.pure ⟨rfl, hl', hc.congr ?_⟩
      intro a b ha hb
      have hb' : b < c := hb
      by_cases h2 : a < i + 1
      · rw [if_pos h2, if_pos (by omega)]
      · rw [if_neg h2, if_neg (by omega)]
  · rintro ⟨q, d⟩ ⟨-, hl', hc⟩
    refine Sat.pure ⟨rfl, ?_⟩
    rw [hd]
    refine is_mk hl' (hc.congr ?_)
    intro a b ha hb
    have : a < r := ha
    simp [this]

theorem fillDiagonal_sat [Zero R] (A : Dense R) (x : R) {r : Nat} (hd : A.dim = Dim.mk' r r)
    (hl : A.data.length = r * r) :
    Sat (A.fillDiagonal x) (fun B => B.ori = A.ori ∧ B.Is r r (fun i j => if i = j then x else 0)) := by
  have hr : A.dim.rows = r := by rw [hd]; rfl
  have fit := View.plain_fits A.ori r r
  have hc : A.dim.cols = r := by rw [hd]; rfl
  unfold fillDiagonal
  rw [if_neg (by simp [hr, hc]), fillAll_ok]
  refine Sat.bind (Sat.ok (P := fun C' => C' = ⟨A.ori, Dim.mk' r r, List.replicate (r * r) (some 0)⟩) (by simp [hd, hl])) ?_
  rintro C' rfl
  refine Sat.mono (Sat.loop (fun k B => B.ori = A.ori ∧ B.dim = Dim.mk' r r ∧ B.data.length = r * r ∧
    (View.plain A.ori r r).Cells B.data (fun i j => some (if i = j ∧ i < k then x else 0)))
    ⟨rfl, rfl, by simp, by simpa using replicate_cells A.ori r r (0 : R)⟩ ?_) ?_
  · rintro i ⟨o, dm, d⟩ hi ⟨h1, h2, h3, h4⟩
    simp only [Dim.mk'] at hi
    simp only at h1 h2 h3 h4
    subst h1 h2
    obtain ⟨b', e, e1, e2, -⟩ := h4.write (by rw [h3]; exact fit) x (i := i) (j := i) hi hi
    have : (Dense.mk A.ori (Dim.mk' r r) d).view = View.plain A.ori r r := rfl
    refine ⟨⟨A.ori, Dim.mk' r r, b'⟩, ?_, rfl, rfl, by simp only; omega, e2.congr ?_⟩
    · unfold set
      simp only [this]
      rw [View.set_eq hi hi, e]; rfl
    · intro a b ha hb
      by_cases h1 : a = i ∧ b = i
      · obtain ⟨rfl, rfl⟩ := h1; simp
      · rw [if_neg h1]
        by_cases h2 : a = b ∧ a < i
        · rw [if_pos h2, if_pos (by omega)]
        · rw [if_neg h2, if_neg (by omega)]
  · rintro ⟨o, dm, d⟩ ⟨h1, h2, h3, h4⟩
    simp only at h1 h2 h3 h4
    subst h1 h2
    refine ⟨rfl, is_mk h3 (h4.congr ?_)⟩
    intro a b ha hb
    have : a < (Dim.mk' r r).rows := ha
    simp [this]

end Dense
end BB
