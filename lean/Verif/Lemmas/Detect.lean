import Verif.Model.BlockSize
import Verif.Lemmas.Dense
import Mathlib.Algebra.BigOperators.Group.Finset.Basic
import Mathlib.Algebra.Order.Group.Abs

/-! Lemmas about the detection arrays. -/

namespace BB

variable {R : Type}

theorem vecAdd_map [Add R] {n i : Nat} (hi : i < n) (F : Nat → R) (x : R) :
    vecAdd ((List.range n).map F) i x = .ok ((List.range n).map fun k => if k = i then F k + x else F k) := by
  have e : ((List.range n).map F)[i]? = some (F i) := by simp [hi]
  simp only [vecAdd, vecRead, e, bind_ok']
  refine congrArg Except.ok ?_
  apply List.ext_getElem
  · simp
  · intro k h1 h2
    simp only [List.getElem_set, List.getElem_map, List.getElem_range]
    by_cases h : i = k
    · subst h; simp
    · simp [h, Ne.symm h]

theorem read_map {ex : R → R} {d : Buf R} {p : Nat} {v : R} (h : d.read p = .ok v) :
    Buf.read (d.map (Option.map ex)) p = .ok (ex v) := by
  rw [Buf.read_ok] at h ⊢
  simp [h]

variable [AddCommGroup R] [Lattice R]

/-- Partial detection values of the rows, after `i` complete lines and `j` elements of the next one. -/
def rdPart (g : Nat → R) (c i j k : Nat) : R :=
  if k < i then ∑ l ∈ Finset.range c, |g (k * c + l) - g ((k + 1) * c + l)|
  else if k = i then ∑ l ∈ Finset.range j, |g (k * c + l) - g ((k + 1) * c + l)| else 0

/-- Partial detection values of the columns. -/
def cdPart (g : Nat → R) (c i j k : Nat) : R :=
  ∑ l ∈ Finset.range (if k < j then i + 1 else i), |g (l * c + k) - g (l * c + (k + 1))|

theorem rdPart_succ (g : Nat → R) (c i j k : Nat) :
    (if k = i then rdPart g c i j k + |g (i * c + j) - g (i * c + j + c)| else rdPart g c i j k) = rdPart g c i (j + 1) k := by
  unfold rdPart
  by_cases h : k = i
  · subst h
    simp only [if_true, lt_irrefl, if_false, Finset.sum_range_succ]
    have : (k + 1) * c + j = k * c + j + c := by ring
    rw [this]
  · simp [h]

theorem cdPart_succ (g : Nat → R) (c i j k : Nat) :
    (if k = j then cdPart g c i j k + |g (i * c + j) - g (i * c + j + 1)| else cdPart g c i j k) = cdPart g c i (j + 1) k := by
  unfold cdPart
  by_cases h : k = j
  · subst h
    simp [Finset.sum_range_succ, Nat.add_assoc]
  · have : k < j + 1 ↔ k < j := by omega
    simp [h, this]

theorem rdPart_line (g : Nat → R) (c i k : Nat) : rdPart g c i c k = rdPart g c (i + 1) 0 k := by
  unfold rdPart
  rcases Nat.lt_trichotomy k i with h | h | h
  · simp [h, Nat.lt_succ_of_lt h]
  · subst h; simp
  · have h1 : ¬ k < i := by omega
    have h2 : ¬ k = i := by omega
    have h3 : ¬ k < i + 1 := by omega
    simp [h1, h2, h3]

theorem cdPart_line (g : Nat → R) (c i m k : Nat) (hk : k < m) : cdPart g c i m k = cdPart g c (i + 1) 0 k := by
  simp [cdPart, hk]

theorem detectionArrays_sat {ex : R → R} {A : Dense R} {g : Nat → R} (hr : 0 < A.dim.rows) (hc : 0 < A.dim.cols)
    (hg : ∀ p, p < A.dim.rows * A.dim.cols → A.data.read p = .ok (g p)) :
    detectionArrays ex A = .ok
      ((List.range (A.dim.rows - 1)).map (fun i => ∑ l ∈ Finset.range A.dim.cols, |ex (g (i * A.dim.cols + l)) - ex (g ((i + 1) * A.dim.cols + l))|),
       (List.range (A.dim.cols - 1)).map (fun j => ∑ l ∈ Finset.range A.dim.rows, |ex (g (l * A.dim.cols + j)) - ex (g (l * A.dim.cols + (j + 1)))|)) := by
  obtain ⟨r, hr'⟩ : ∃ r, A.dim.rows = r + 1 := ⟨A.dim.rows - 1, by omega⟩
  obtain ⟨c, hc'⟩ : ∃ c, A.dim.cols = c + 1 := ⟨A.dim.cols - 1, by omega⟩
  unfold detectionArrays
  rw [hr', hc'] at hg
  simp only [hr', hc', Nat.add_sub_cancel]
  set d : Buf R := A.data.map (Option.map ex) with hd
  set G : Nat → R := fun p => ex (g p) with hG
  have hread : ∀ p, p < (r + 1) * (c + 1) → d.read p = .ok (G p) := fun p hp => read_map (hg p hp)
  have line : ∀ i, i < r → detectLine d (c + 1) i
      (i * (c + 1), (List.range r).map (rdPart G (c + 1) i 0), (List.range c).map (cdPart G (c + 1) i 0)) =
      .ok (i * (c + 1) + c, (List.range r).map (rdPart G (c + 1) i c), (List.range c).map (cdPart G (c + 1) i c)) := by
    intro i hi
    have hb : (i + 1) * (c + 1) + c < (r + 1) * (c + 1) := by
      have : (i + 1 + 1) * (c + 1) ≤ (r + 1) * (c + 1) := Nat.mul_le_mul_right _ (by omega)
      have e : (i + 1 + 1) * (c + 1) = (i + 1) * (c + 1) + (c + 1) := by ring
      omega
    have e1 : (i + 1) * (c + 1) = i * (c + 1) + (c + 1) := by ring
    unfold detectLine
    rw [Nat.add_sub_cancel]
    have : Sat (loopN c (fun j (s : Nat × List R × List R) => do
        let x1 ← d.read s.1
        let x3 ← d.read (s.1 + (c + 1))
        let rd ← vecAdd s.2.1 i |x1 - x3|
        let x2 ← d.read (s.1 + 1)
        let cd ← vecAdd s.2.2 j |x1 - x2|
        return (s.1 + 1, rd, cd))
        (i * (c + 1), (List.range r).map (rdPart G (c + 1) i 0), (List.range c).map (cdPart G (c + 1) i 0)))
        (fun s => s = (i * (c + 1) + c, (List.range r).map (rdPart G (c + 1) i c), (List.range c).map (cdPart G (c + 1) i c))) := by
      apply Sat.loop (fun j s => s = (i * (c + 1) + j, (List.range r).map (rdPart G (c + 1) i j), (List.range c).map (cdPart G (c + 1) i j))) rfl
      rintro j s hj rfl
      simp only [hread (i * (c + 1) + j) (by omega), hread (i * (c + 1) + j + (c + 1)) (by omega), hread (i * (c + 1) + j + 1) (by omega),
        bind_ok', vecAdd_map hi, vecAdd_map hj]
      refine Sat.pure ?_
      refine Prod.ext rfl (Prod.ext ?_ ?_)
      · apply List.map_congr_left
        intro k _
        exact rdPart_succ G (c + 1) i j k
      · apply List.map_congr_left
        intro k _
        exact cdPart_succ G (c + 1) i j k
    obtain ⟨s, e, rfl⟩ := this
    exact e
  have outer : loopN r (fun i (s : Nat × List R × List R) => do
      let (p, rd, cd) ← detectLine d (c + 1) i s
      let x1 ← d.read p
      let x3 ← d.read (p + (c + 1))
      let rd ← vecAdd rd i |x1 - x3|
      return (p + 1, rd, cd)) (0, List.replicate r 0, List.replicate c 0) =
      .ok (r * (c + 1), (List.range r).map (rdPart G (c + 1) r 0), (List.range c).map (cdPart G (c + 1) r 0)) := by
    have : Sat (loopN r (fun i (s : Nat × List R × List R) => do
        let (p, rd, cd) ← detectLine d (c + 1) i s
        let x1 ← d.read p
        let x3 ← d.read (p + (c + 1))
        let rd ← vecAdd rd i |x1 - x3|
        return (p + 1, rd, cd)) (0, List.replicate r 0, List.replicate c 0))
        (fun s => s = (r * (c + 1), (List.range r).map (rdPart G (c + 1) r 0), (List.range c).map (cdPart G (c + 1) r 0))) := by
      apply Sat.loop (fun i s => s = (i * (c + 1), (List.range r).map (rdPart G (c + 1) i 0), (List.range c).map (cdPart G (c + 1) i 0)))
      · refine Prod.ext (by simp) (Prod.ext ?_ ?_)
        · apply List.ext_getElem (by simp)
          intro k h1 h2
          simp [rdPart]
        · apply List.ext_getElem (by simp)
          intro k h1 h2
          simp [cdPart]
      · rintro i s hi rfl
        have hb : (i + 1) * (c + 1) + c < (r + 1) * (c + 1) := by
          have : (i + 1 + 1) * (c + 1) ≤ (r + 1) * (c + 1) := Nat.mul_le_mul_right _ (by omega)
          have e : (i + 1 + 1) * (c + 1) = (i + 1) * (c + 1) + (c + 1) := by ring
          omega
        have e1 : (i + 1) * (c + 1) = i * (c + 1) + (c + 1) := by ring
        simp only [line i hi, bind_ok', hread (i * (c + 1) + c) (by omega), hread (i * (c + 1) + c + (c + 1)) (by omega), vecAdd_map hi]
        refine Sat.pure ?_
        refine Prod.ext (by simp only; omega) (Prod.ext ?_ ?_)
        · apply List.map_congr_left
          intro k _
          rw [← rdPart_line]
          exact rdPart_succ G (c + 1) i c k
        · apply List.map_congr_left
          intro k hk
          exact cdPart_line G (c + 1) i c k (by simpa using hk)
    obtain ⟨s, e, rfl⟩ := this
    exact e
  have last : loopN c (fun j (s : Nat × List R) => do
      let x1 ← d.read s.1
      let x2 ← d.read (s.1 + 1)
      let cd ← vecAdd s.2 j |x1 - x2|
      return (s.1 + 1, cd)) (r * (c + 1), (List.range c).map (cdPart G (c + 1) r 0)) =
      .ok (r * (c + 1) + c, (List.range c).map (cdPart G (c + 1) r c)) := by
    have hb : r * (c + 1) + c < (r + 1) * (c + 1) := by
      have e : (r + 1) * (c + 1) = r * (c + 1) + (c + 1) := by ring
      omega
    have : Sat (loopN c (fun j (s : Nat × List R) => do
        let x1 ← d.read s.1
        let x2 ← d.read (s.1 + 1)
        let cd ← vecAdd s.2 j |x1 - x2|
        return (s.1 + 1, cd)) (r * (c + 1), (List.range c).map (cdPart G (c + 1) r 0)))
        (fun s => s = (r * (c + 1) + c, (List.range c).map (cdPart G (c + 1) r c))) := by
      apply Sat.loop (fun j s => s = (r * (c + 1) + j, (List.range c).map (cdPart G (c + 1) r j))) rfl
      rintro j s hj rfl
      simp only [hread (r * (c + 1) + j) (by omega), hread (r * (c + 1) + j + 1) (by omega), bind_ok', vecAdd_map hj]
      refine Sat.pure (Prod.ext rfl ?_)
      apply List.map_congr_left
      intro k _
      exact cdPart_succ G (c + 1) r j k
    obtain ⟨s, e, rfl⟩ := this
    exact e
  rw [if_neg (by omega)]
  rw [outer, bind_ok']
  simp only
  rw [last, bind_ok']
  refine congrArg Except.ok (Prod.ext ?_ ?_)
  · apply List.map_congr_left
    intro k hk
    have : k < r := by simpa using hk
    simp [rdPart, this, hG]
  · apply List.map_congr_left
    intro k hk
    have : k < c := by simpa using hk
    simp [cdPart, this, hG]

end BB
