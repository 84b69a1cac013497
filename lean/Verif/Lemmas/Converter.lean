import Verif.SpecConv
import Verif.Lemmas.Mat
import Verif.Lemmas.SparseTrans

/-! Auxiliary lemmas about striped loops and the conversion of sources. -/

namespace BB

variable {R : Type}

theorem loopN_front {σ : Type} (n : Nat) (g : Nat → σ → Res σ) (s : σ) :
    loopN (n+1) g s = (g 0 s).bind (fun s => loopN n (fun i => g (i+1)) s) := by
  induction n with
  | zero =>
    simp only [loopN, res_bind_ok]
    cases g 0 s <;> rfl
  | succ n ih =>
    rw [loopN, ih]
    cases g 0 s with
    | error e => rfl
    | ok a => rfl

theorem Striped.loop_eq {σ : Type} {s : Striped} (h : s.Ok) (F : Int → σ → Res σ) (m k p fuel : Nat) (hk : k < s.nb) (hp : p < s.cont)
    (hm : p + k * s.cont + m = s.nb * s.cont) (hf : m < fuel) (x : σ) :
    (s.at k p).loop fuel s.endPtr F x = loopN m (fun t => F (s.cell (p + k * s.cont + t))) x := by
  induction m generalizing k p fuel x with
  | zero =>
    exfalso
    have : (k+1) * s.cont ≤ s.nb * s.cont := Nat.mul_le_mul_right _ (by omega)
    have e : (k+1) * s.cont = k * s.cont + s.cont := by ring
    omega
  | succ m ih =>
    obtain ⟨fuel, rfl⟩ : ∃ f, fuel = f + 1 := ⟨fuel - 1, by omega⟩
    have hne : (s.at k p).ptr ≠ s.endPtr := ne_of_lt (Striped.at_lt_end hk hp)
    rw [SIter.loop, if_neg hne, loopN_front, Nat.add_zero, Striped.cell_at hp]
    cases hF : F (s.at k p).ptr x with
    | error e => rfl
    | ok y =>
      show (do let it ← (s.at k p).incr; SIter.loop fuel it s.endPtr F y) = loopN m _ y
      by_cases hin : p + 1 < s.cont
      · rw [Striped.incr_in h hin]
        show SIter.loop fuel (s.at k (p+1)) s.endPtr F y = _
        rw [ih k (p+1) fuel hk hin (by omega) (by omega)]
        refine loopN_congr fun t s' _ => ?_
        rw [show p + 1 + k * s.cont + t = p + k * s.cont + (t + 1) by omega]
      · have hpe : p = s.cont - 1 := by omega
        subst hpe
        rw [Striped.incr_end h hk]
        have e : (k+1) * s.cont = k * s.cont + s.cont := by ring
        by_cases hlast : k + 1 = s.nb
        · have hm0 : m = 0 := by
            rw [← hlast] at hm
            omega
          subst hm0
          obtain ⟨fuel, rfl⟩ : ∃ f, fuel = f + 1 := ⟨fuel - 1, by omega⟩
          simp [hlast, SIter.loop, loopN]
        · rw [if_neg hlast]
          show SIter.loop fuel (s.at (k+1) 0) s.endPtr F y = _
          rw [ih (k+1) 0 fuel (by omega) (by omega) (by omega) (by omega)]
          refine loopN_congr fun t s' _ => ?_
          rw [show 0 + (k+1) * s.cont + t = s.cont - 1 + k * s.cont + (t + 1) by omega]

namespace Src

theorem Is.rows {s : Src R} {r c : Nat} {f : Nat → Nat → R} (h : s.Is r c f) : s.rows = r := by
  cases s with
  | plain A => exact h.1.rows
  | sub A nr nc r0 c0 => exact h.1

theorem Is.cols {s : Src R} {r c : Nat} {f : Nat → Nat → R} (h : s.Is r c f) : s.cols = c := by
  cases s with
  | plain A => exact h.1.cols
  | sub A nr nc r0 c0 => exact h.2.1

theorem Is.size {s : Src R} {r c : Nat} {f : Nat → Nat → R} (h : s.Is r c f) : s.size = r * c := by
  cases s with
  | plain A => exact h.1.size
  | sub A nr nc r0 c0 => obtain ⟨rfl, rfl, -⟩ := h; rfl

theorem Is.ori {s : Src R} {r c : Nat} {f : Nat → Nat → R} (h : s.Is r c f) : s.view.ori = .col := by
  cases s with
  | plain A => exact h.2
  | sub A nr nc r0 c0 => rfl

theorem Is.fits {s : Src R} {r c : Nat} {f : Nat → Nat → R} (h : s.Is r c f) : s.view.Fits s.data.length := by
  cases s with
  | plain A => exact h.1.fits
  | sub A nr nc r0 c0 =>
    obtain ⟨rfl, rfl, hr, hc, ho, pr, pc, F, hA, h1, h2, -, -, -⟩ := h
    constructor
    · show nr ≤ A.view.rows
      rw [hA.view_rows]; exact le_trans (Nat.le_add_left _ _) h1
    · intro i j hi hj
      have := hA.fits.bound (r0 + i) (c0 + j) (by rw [hA.view_rows]; simp only [View.plain]; change i < nr at hi; omega)
        (by rw [hA.view_rows]; simp only [View.plain]; change j < nc at hj; omega)
      rw [hA.view_rows] at this
      refine lt_of_le_of_lt (le_of_eq ?_) this
      simp only [Src.view, hA.view_rows, View.sub, View.pos, View.plain, ho]
      ring

theorem Is.reads {s : Src R} {r c : Nat} {f : Nat → Nat → R} (h : s.Is r c f) : s.view.Reads s.data f := by
  cases s with
  | plain A =>
    intro i j hi hj
    exact h.1.elems i j (by rw [← h.1.rows]; exact hi) (by rw [← h.1.cols]; exact hj)
  | sub A nr nc r0 c0 =>
    obtain ⟨rfl, rfl, hr, hc, ho, pr, pc, F, hA, h1, h2, -, -, hf⟩ := h
    intro i j hi hj
    change i < nr at hi
    change j < nc at hj
    rw [View.get_eq hi hj, hf i j hi hj]
    have := hA.elems (r0 + i) (c0 + j) (by omega) (by omega)
    rw [Dense.get, hA.view_rows, View.get_eq (by simp only [View.plain]; omega) (by simp only [View.plain]; omega)] at this
    rw [← this]
    simp only [Src.view, Src.data, hA.view_rows, View.sub, View.pos, View.plain, ho]
    congr 1
    ring

theorem forEach_eq {σ : Type} {s : Src R} {r c : Nat} {f : Nat → Nat → R} (h : s.Is r c f) (body : R → σ → Res σ) (x : σ) :
    s.forEach body x = loopN (r * c) (fun t => body (f (t % r) (t / r))) x := by
  cases s with
  | plain A =>
    obtain ⟨hA, ho⟩ := h
    rw [Src.forEach, ptrLoop_eq _ (r * c) 0 _ 1 _ (by omega) (by rw [hA.alloc]; omega)]
    refine loopN_congr fun t y ht => ?_
    have := hA.raw ht
    rw [show 0 + t * 1 = t by omega, this, bind_ok']
    rw [ho]; rfl
  | sub A nr nc r0 c0 =>
    have hreads := h.reads
    have hh := h
    obtain ⟨rfl, rfl, hr, hc, ho, pr, pc, F, hA, h1, h2, hm1, hm2, hf⟩ := h
    have hrows : A.view.rows = pr := by rw [hA.view_rows]; rfl
    have hok : (A.view.subStriped nr nc r0 c0).Ok := by
      refine ⟨hr, hc, ?_, ?_, ?_⟩
      · show nr < sizeMod
        unfold sizeMod; omega
      · show A.view.rows - nr + 1 < sizeMod
        rw [hrows]; unfold sizeMod; omega
      · show ((nc : Nat) : Int) ≤ intMax
        unfold intMax; omega
    have hb : (A.view.subStriped nr nc r0 c0).begin = (A.view.subStriped nr nc r0 c0).at 0 0 := by
      simp [Striped.begin, Striped.at]
    rw [Src.forEach]
    rw [hb, Striped.loop_eq hok _ (nr * nc) 0 0 _ hc hr (by simp only [View.subStriped]; ring) ?_ x]
    · refine loopN_congr fun t y ht => ?_
      have hcell : (A.view.subStriped nr nc r0 c0).cell (0 + 0 * (A.view.subStriped nr nc r0 c0).cont + t)
          = (((A.view.sub nr nc r0 c0).base + (A.view.sub nr nc r0 c0).pos (t % nr) (t / nr) : Nat) : Int) := by
        simp only [Nat.zero_mul, Nat.zero_add, Striped.cell, View.subStriped, View.sub, View.pos]
        rw [show nr + (A.view.rows - nr) = A.view.rows by omega]
        push_cast
        ring
      rw [hcell]
      have hi : t % nr < nr := Nat.mod_lt _ hr
      have hj : t / nr < nc := Nat.div_lt_of_lt_mul ht
      have := hreads (t % nr) (t / nr) hi hj
      rw [View.get_eq hi hj] at this
      change A.data.read ((A.view.sub nr nc r0 c0).base + (A.view.sub nr nc r0 c0).pos (t % nr) (t / nr)) = _ at this
      rw [Buf.readI, if_neg (by omega), Int.toNat_natCast]
      show (do body (← Buf.read A.data _) y) = _
      rw [this]
      rfl
    · show nr * nc < ((A.view.subStriped nr nc r0 c0).endPtr - (A.view.subStriped nr nc r0 c0).data).toNat + 1
      simp only [Striped.endPtr, View.subStriped]
      have e2 : (0 : Int) ≤ ((nc : Int) - 1) * ((A.view.rows - nr : Nat) : Int) :=
        Int.mul_nonneg (by omega) (by omega)
      generalize ((nc : Int) - 1) * ((A.view.rows - nr : Nat) : Int) = z at e2
      push_cast
      omega

open Sparse in
theorem count_eq [LT R] [DecidableLT R] [LE R] [DecidableLE R] [HasAbs R] (chk : Checker R) {s : Src R} {r c : Nat} {f : Nat → Nat → R} (h : s.Is r c f) :
    s.count chk = .ok (countAcc chk.accepts r c f) := by
  have key := Sparse.count_dense chk.accepts (Dense.ofFn_is .col r c f)
  have hI : (Src.plain (Dense.ofFn .col r c f)).Is r c f := ⟨Dense.ofFn_is .col r c f, rfl⟩
  rw [count, forEach_eq h, ← key]
  exact (forEach_eq hI (fun x n => .ok (if chk.accepts x then n + 1 else n)) 0).symm

theorem toSparse_sat {T : Type} [Zero T] [LT R] [DecidableLT R] [LE R] [DecidableLE R] [HasAbs R] (chk : Checker R) (cvt : R → T) {s : Src R} {r c : Nat} {f : Nat → Nat → R}
    (h : s.Is r c f) :
    Sat (s.toSparse chk cvt) (fun S => S.Is r c (fun i j => if chk.accepts (f i j) then cvt (f i j) else 0) ∧ S.ori = .col) := by
  have hr := h.rows
  have hc := h.cols
  unfold Src.rows at hr
  unfold Src.cols at hc
  unfold toSparse
  rw [count_eq chk h, bind_ok']
  have := Sparse.ofView_sat chk.accepts cvt .col h.fits h.reads h.ori (cnt := countAcc chk.accepts r c f)
    (by rw [Sparse.picks_count, hr, hc])
  rw [hr, hc] at this
  refine this.mono ?_
  rintro S ⟨h1, h2, h3⟩
  refine ⟨⟨_, h3, ?_⟩, h1⟩
  intro i j hi hj
  simp only [h1, Ori.minorIx, Ori.majorIx, Sparse.picks]
  rw [List.getD_eq_getElem?_getD, List.getElem?_map, List.getElem?_range hj]
  simp only [Option.map_some, Option.getD_some]
  rw [Sparse.entryAt_pick]
  simp only [hi, true_and, Ori.elem]

theorem toDense_sat {T : Type} [LT R] [DecidableLT R] [LE R] [DecidableLE R] [HasAbs R] [Zero R] (chk : Checker R) (cvt : R → T) {A : Dense R} {nr nc r0 c0 r c : Nat} {f : Nat → Nat → R}
    (h : (Src.sub A nr nc r0 c0).Is r c f) :
    Sat ((Src.sub A nr nc r0 c0).toDense chk cvt) (fun D => D.Is r c (fun i j => cvt (if chk.accepts (f i j) then f i j else 0)) ∧ D.ori = .col) := by
  have hh := h
  obtain ⟨rfl, rfl, hr, hc, -⟩ := h
  unfold toDense
  simp only
  rw [forEach_eq hh]
  refine Sat.bind (Sat.loop (fun t (st : Nat × Buf T) => st.1 = t ∧ st.2.length = nr * nc ∧
    ∀ u, u < t → st.2.read u = .ok (cvt (if chk.accepts (f (u % nr) (u / nr)) then f (u % nr) (u / nr) else 0))) ?_ ?_) ?_
  · exact ⟨rfl, by simp [Dim.mk'], by omega⟩
  · rintro t ⟨k, d⟩ ht ⟨h1, h2, h3⟩
    simp only at h1 h2 h3
    subst h1
    refine Sat.bind (Sat.of_eq (Buf.write_ok (by simp only; omega)) rfl) ?_
    rintro d' rfl
    refine Sat.pure ⟨rfl, by simpa using h2, ?_⟩
    intro u hu
    rw [Buf.read_set (by simp only; omega)]
    by_cases huk : k = u
    · subst huk; simp
    · rw [if_neg huk]; exact h3 u (by omega)
  · rintro ⟨k, d⟩ ⟨h1, h2, h3⟩
    simp only at h1 h2 h3
    refine Sat.pure ⟨?_, rfl⟩
    refine Dense.is_of_raw h2 ?_
    intro t ht
    exact Buf.read_ok.1 (h3 t ht)

end Src
end BB
